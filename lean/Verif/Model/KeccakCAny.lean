import Verif.Model.KeccakCApi
import Verif.Model.KeccakCConfig

/-!
# KeccakSponge.c, KeccakNISTInterface.c and keccak.go compiled with any settings

`Model/KeccakC.lean` has the settings /repo selects. Here the sponge calls the permutation of any build of `Model/KeccakCConfig.lean`, and any of the six `ProvideFast...` macros of
KeccakF-1600-int-set.h may be missing. A pointer `data + off` is the rest of the array. `KeccakReference`, which only adds output, is not modelled.
-/

namespace Verif.Model.KeccakC
open Verif

/-- How the C code is compiled: the settings of KeccakF-1600-opt64-settings.h (`build`, `unrolling`), which of `ProvideFast576` ... `ProvideFast1344` of KeccakF-1600-int-set.h:1-6 are
defined (by the rate in bits), and what the uninitialised variables of a call hold (`junk`, which may depend on the state of the call). -/
structure Compiled where
  build : Build
  unrolling : Unrolling
  provideFast : Nat → Bool
  junk : List U64 → Nat → U64

namespace Compiled
variable (X : Compiled)

/-- `KeccakPermutation`, KeccakF-1600-opt64.c:241-245. -/
def permutation (state : List U64) : List U64 := X.build.permute X.unrolling (X.junk state) state

/-- A call of `KeccakAbsorb576bits` ... `KeccakAbsorb1344bits`, KeccakF-1600-opt64.c:256-350, with `n` lanes at `data + off`. -/
def fast (state : List U64) (data : List U8) (off n : Nat) : Go (List U64) := X.build.fast X.unrolling (X.junk state) state (data.drop off) n

/-- The choice between them, KeccakSponge.c:46-76 and 96-169. -/
def absorbBlock (rate : U32) (state : List U64) (data : List U8) (off : Nat) : Go (List U64) :=
  if X.provideFast 576 = true ∧ rate = 576#32 then X.fast state data off 9
  else if X.provideFast 832 = true ∧ rate = 832#32 then X.fast state data off 13
  else if X.provideFast 1024 = true ∧ rate = 1024#32 then X.fast state data off 16
  else if X.provideFast 1088 = true ∧ rate = 1088#32 then X.fast state data off 17
  else if X.provideFast 1152 = true ∧ rate = 1152#32 then X.fast state data off 18
  else if X.provideFast 1344 = true ∧ rate = 1344#32 then X.fast state data off 21
  else X.build.absorb X.unrolling (X.junk state) state (data.drop off) (rate / 64#32).toNat

/-- `KeccakExtract1024bits` or `KeccakExtract` into the queue, KeccakSponge.c:212-222 and 243-253. -/
def extract (s : Sponge) : Go Sponge := do
  if X.provideFast 1024 = true ∧ s.rate = 1024#32 then
    let q ← memcpy s.dataQueue 0 (X.build.extract1024 s.state) 0 128
    return { s with dataQueue := q, bitsAvailableForSqueezing := 1024#32 }
  else
    let q ← memcpy s.dataQueue 0 (X.build.extract s.state (s.rate / 64#32).toNat) 0 (8 * (s.rate / 64#32).toNat)
    return { s with dataQueue := q, bitsAvailableForSqueezing := s.rate }

/-- `InitSponge`, KeccakSponge.c:21-38. -/
def InitSponge (s : Sponge) (rate capacity : U32) : Sponge × Nat :=
  if rate + capacity ≠ 1600#32 then (s, 1)
  else if rate ≤ 0#32 ∨ rate ≥ 1600#32 ∨ rate % 64#32 ≠ 0#32 then (s, 1)
  else (⟨X.build.init, List.replicate 192 0#8, rate, capacity, 0#32, 0#32, false, 0#32⟩, 0)

/-- `AbsorbQueue`, KeccakSponge.c:40-78. -/
def AbsorbQueue (s : Sponge) : Go Sponge := do
  let st ← X.absorbBlock s.rate s.state s.dataQueue 0
  return { s with state := st, bitsInQueue := 0#32 }

/-- The body of the loop of `Absorb`, KeccakSponge.c:93-189. -/
def absorbBody (data : List U8) (databitlen : U64) (p : Sponge × U64) : Go (Sponge × U64) := do
  let (s, i) := p
  if s.bitsInQueue = 0#32 ∧ databitlen ≥ u64 s.rate ∧ i ≤ databitlen - u64 s.rate then
    let wholeBlocks := (databitlen - i) / u64 s.rate
    let st ← Go.forRange 0 wholeBlocks.toNat (fun j st => X.absorbBlock s.rate st data ((i / 8#64).toNat + j * (s.rate / 8#32).toNat)) s.state
    return ({ s with state := st }, i + wholeBlocks * u64 s.rate)
  else
    let partialBlock : U32 := (databitlen - i).setWidth 32
    let partialBlock := if partialBlock + s.bitsInQueue > s.rate then s.rate - s.bitsInQueue else partialBlock
    let partialByte := partialBlock % 8#32
    let partialBlock := partialBlock - partialByte
    let q ← memcpy s.dataQueue (s.bitsInQueue / 8#32).toNat data (i / 8#64).toNat (partialBlock / 8#32).toNat
    let s := { s with dataQueue := q, bitsInQueue := s.bitsInQueue + partialBlock }
    let i := i + u64 partialBlock
    let s ← if s.bitsInQueue = s.rate then X.AbsorbQueue s else pure s
    if partialByte > 0#32 then
      let mask : U8 := (1#8 <<< partialByte.toNat) - 1#8
      let b ← load data (i / 8#64).toNat
      let _ ← load s.dataQueue (s.bitsInQueue / 8#32).toNat
      let q := s.dataQueue.set (s.bitsInQueue / 8#32).toNat (b &&& mask)
      return ({ s with dataQueue := q, bitsInQueue := s.bitsInQueue + partialByte }, i + u64 partialByte)
    else
      return (s, i)

/-- `Absorb`, KeccakSponge.c:80-192. -/
def Absorb (s : Sponge) (data : List U8) (databitlen : U64) : Go (Sponge × Nat) := do
  if s.bitsInQueue % 8#32 ≠ 0#32 then return (s, 1)
  else if s.squeezing then return (s, 1)
  else
    let (s, _) ← Go.while_ (databitlen.toNat + 1) (fun p : Sponge × U64 => decide (p.2 < databitlen)) (X.absorbBody data databitlen) (s, 0#64)
    return (s, 0)

/-- `PadAndSwitchToSqueezingPhase`, KeccakSponge.c:194-227. -/
def PadAndSwitchToSqueezingPhase (s : Sponge) : Go Sponge := do
  let s ← if s.bitsInQueue + 1#32 = s.rate then do
      let q ← orInto s.dataQueue (s.bitsInQueue / 8#32).toNat (1#8 <<< (s.bitsInQueue % 8#32).toNat)
      let s ← X.AbsorbQueue { s with dataQueue := q }
      let q ← memzero s.dataQueue 0 (s.rate / 8#32).toNat
      pure { s with dataQueue := q }
    else do
      let q ← memzero s.dataQueue ((s.bitsInQueue + 7#32) / 8#32).toNat (s.rate / 8#32 - (s.bitsInQueue + 7#32) / 8#32).toNat
      let q ← orInto q (s.bitsInQueue / 8#32).toNat (1#8 <<< (s.bitsInQueue % 8#32).toNat)
      pure { s with dataQueue := q }
  let q ← orInto s.dataQueue ((s.rate - 1#32) / 8#32).toNat (1#8 <<< ((s.rate - 1#32) % 8#32).toNat)
  let s ← X.AbsorbQueue { s with dataQueue := q }
  let s ← X.extract s
  return { s with squeezing := true }

/-- The body of the loop of `Squeeze`, KeccakSponge.c:241-263. -/
def squeezeBody (outputLength : U64) (p : Sponge × List U8 × U64) : Go (Sponge × List U8 × U64) := do
  let (s, output, i) := p
  let s ← if s.bitsAvailableForSqueezing = 0#32 then X.extract { s with state := X.permutation s.state } else pure s
  let partialBlock := s.bitsAvailableForSqueezing
  let partialBlock := if u64 partialBlock > outputLength - i then (outputLength - i).setWidth 32 else partialBlock
  let output ← memcpy output (i / 8#64).toNat s.dataQueue ((s.rate - s.bitsAvailableForSqueezing) / 8#32).toNat (partialBlock / 8#32).toNat
  return ({ s with bitsAvailableForSqueezing := s.bitsAvailableForSqueezing - partialBlock }, output, i + u64 partialBlock)

/-- `Squeeze`, KeccakSponge.c:229-266. -/
def Squeeze (s : Sponge) (output : List U8) (outputLength : U64) : Go (Sponge × List U8 × Nat) := do
  let s ← if s.squeezing then pure s else X.PadAndSwitchToSqueezingPhase s
  if outputLength % 8#64 ≠ 0#64 then return (s, output, 1)
  else
    let (s, output, _) ← Go.while_ (outputLength.toNat + 1) (fun p : Sponge × List U8 × U64 => decide (p.2.2 < outputLength)) (X.squeezeBody outputLength) (s, output, 0#64)
    return (s, output, 0)

/-- `Init`, KeccakNISTInterface.c:18-41. -/
def Init (s : Sponge) (hashbitlen : U32) : Sponge × Nat :=
  if hashbitlen = 0#32 then ({ (X.InitSponge s 1024#32 576#32).1 with fixedOutputLength := hashbitlen }, 0)
  else if hashbitlen = 224#32 then ({ (X.InitSponge s 1152#32 448#32).1 with fixedOutputLength := hashbitlen }, 0)
  else if hashbitlen = 256#32 then ({ (X.InitSponge s 1088#32 512#32).1 with fixedOutputLength := hashbitlen }, 0)
  else if hashbitlen = 384#32 then ({ (X.InitSponge s 832#32 768#32).1 with fixedOutputLength := hashbitlen }, 0)
  else if hashbitlen = 512#32 then ({ (X.InitSponge s 576#32 1024#32).1 with fixedOutputLength := hashbitlen }, 0)
  else (s, 2)

/-- `Update`, KeccakNISTInterface.c:43-58. -/
def Update (s : Sponge) (data : List U8) (databitlen : U64) : Go (Sponge × Nat) := do
  if databitlen % 8#64 = 0#64 then X.Absorb s data databitlen
  else
    let (s, ret) ← X.Absorb s data (databitlen - databitlen % 8#64)
    if ret = 0 then
      let b ← load data (databitlen / 8#64).toNat
      let lastByte := b >>> (8#64 - databitlen % 8#64).toNat
      X.Absorb s [lastByte] (databitlen % 8#64)
    else return (s, ret)

/-- `Final`, KeccakNISTInterface.c:60-63. -/
def Final (s : Sponge) (hashval : List U8) : Go (Sponge × List U8 × Nat) := X.Squeeze s hashval (u64 s.fixedOutputLength)

/-- One call, KeccakSponge.h:39-76, KeccakNISTInterface.h:26-60. -/
def cstep (s : Sponge) : COp → Go (Sponge × COut)
  | .initSponge rate capacity => .ok ((X.InitSponge s rate capacity).1, ⟨(X.InitSponge s rate capacity).2, []⟩)
  | .init h => .ok ((X.Init s h).1, ⟨(X.Init s h).2, []⟩)
  | .absorb data n => do
      let r ← X.Absorb s data n
      return (r.1, ⟨r.2, []⟩)
  | .update data n => do
      let r ← X.Update s data n
      return (r.1, ⟨r.2, []⟩)
  | .squeeze output n => do
      let r ← X.Squeeze s output n
      return (r.1, ⟨r.2.2, r.2.1⟩)
  | .final hashval => do
      let r ← X.Final s hashval
      return (r.1, ⟨r.2.2, r.2.1⟩)

/-- A sequence of calls on one object. For the interface of KeccakSponge.h and KeccakNISTInterface.h. -/
def crun (s : Sponge) : List COp → Go (List COut)
  | [] => .ok []
  | op :: ops => do
      let r ← X.cstep s op
      let out ← crun r.1 ops
      return r.2 :: out

/-- `Reset`, keccak.go:68-70. -/
def Reset (k : Keccak) : Keccak := { k with hashState := (X.Init k.hashState k.bitlen).1 }

/-- `newKeccak`, keccak.go:17-21, of `New224` ... `New512`, keccak.go:29-43. -/
def newKeccak (bitlen : U32) : Keccak := X.Reset ⟨zero, bitlen⟩

/-- `Write`, keccak.go:45-56. -/
def Write (k : Keccak) (b : List U8) : Go (Keccak × Nat × Bool) := do
  let n := b.length
  if n = 0 then return (k, 0, false)
  else
    let dl : U64 := BitVec.ofNat 64 (n * 8)
    let (h, ret) ← X.Update k.hashState b dl
    if ret ≠ 0 then return ({ k with hashState := h }, 0, true)
    else return ({ k with hashState := h }, n, false)

/-- `Sum`, keccak.go:58-66. -/
def Sum (k : Keccak) (b : List U8) : Go (Keccak × List U8) := do
  let buf := List.replicate k.Size 0#8
  let (_, buf, ret) ← X.Final k.hashState buf
  if ret ≠ 0 then Go.panic "keccak sum error"
  else return (k, b ++ buf)

/-- The `hash.Hash` object. keccak/keccak.go:45-78. -/
def hasher : Hasher Keccak where
  write := fun k b => do
    let (k, n, _) ← X.Write k b
    return (k, n)
  reset := fun k => .ok (X.Reset k)
  sum := X.Sum
  value := fun k => .ok (k, [])

end Compiled
end Verif.Model.KeccakC
