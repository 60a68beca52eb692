import Verif.Model.KeccakCPerm
import Verif.Spec.Stream

/-!
# Model of package keccak (/repo/keccak): the Go wrapper keccak.go and the C code behind it

C semantics: `unsigned int` is `U32`, `unsigned long long` is `U64`, an access outside an array is the fault `unsafeOOB`. The machine is
little-endian (`PLATFORM_BYTE_ORDER == IS_LITTLE_ENDIAN`) and allows the unaligned `UINT64` loads the casts produce. The 200 bytes of
`state->state` are only ever accessed as 25 `UINT64`s (the C file says "We assume the state is always stored as words") apart from the `memcpy`
in `KeccakExtract`, so they are a list of 25 words here. The configuration is the one of KeccakF-1600-int-set.h: all `ProvideFast*` defined.
-/

namespace Verif.Model.KeccakC
open Verif

/-- `spongeState`, KeccakSponge.h:29-38. -/
structure Sponge where
  state : List U64
  dataQueue : List U8
  rate : U32
  capacity : U32
  bitsInQueue : U32
  fixedOutputLength : U32
  squeezing : Bool
  bitsAvailableForSqueezing : U32

/-- The array `data`, seen from byte `off`, as `n` words: `(const UINT64*)data`. KeccakF-1600-opt64.c:256-364. -/
def inputWords (data : List U8) (off n : Nat) : Go (List U64) :=
  if off + 8 * n ≤ data.length then .ok ((List.range n).map fun i => le64 (data.drop (off + 8 * i))) else .error .unsafeOOB

/-- `memcpy(dst + doff, src + soff, n)`. For KeccakSponge.c. -/
def memcpy (dst : List U8) (doff : Nat) (src : List U8) (soff n : Nat) : Go (List U8) :=
  if doff + n ≤ dst.length ∧ soff + n ≤ src.length then .ok (dst.take doff ++ (src.drop soff).take n ++ dst.drop (doff + n)) else .error .unsafeOOB

/-- `memset(dst + doff, 0, n)`. For KeccakSponge.c. -/
def memzero (dst : List U8) (doff n : Nat) : Go (List U8) :=
  if doff + n ≤ dst.length then .ok (dst.take doff ++ List.replicate n 0#8 ++ dst.drop (doff + n)) else .error .unsafeOOB

/-- `a[i]` in C. For KeccakSponge.c. -/
def load (a : List U8) (i : Nat) : Go U8 :=
  match a[i]? with
  | some x => .ok x
  | none => .error .unsafeOOB

/-- `a[i] |= b` in C. For KeccakSponge.c. -/
def orInto (a : List U8) (i : Nat) (b : U8) : Go (List U8) := do
  let x ← load a i
  return a.set i (x ||| b)

/-- `KeccakInitializeState`, KeccakF-1600-opt64.c:228-239. -/
def KeccakInitializeState : List U64 :=
  let s := List.replicate 25 0#64
  let s := s.set 1 (~~~ 0#64)
  let s := s.set 2 (~~~ 0#64)
  let s := s.set 8 (~~~ 0#64)
  let s := s.set 12 (~~~ 0#64)
  let s := s.set 17 (~~~ 0#64)
  s.set 20 (~~~ 0#64)

/-- `KeccakPermutationOnWords`, `KeccakPermutation`, KeccakF-1600-opt64.c:97-109, 241-245. -/
def KeccakPermutation (state : List U64) : List U64 := copyToState (rounds (copyFromState state))

/-- `KeccakPermutationOnWordsAfterXoring`, KeccakF-1600-opt64.c:111-126. -/
def KeccakPermutationOnWordsAfterXoring (state input : List U64) (laneCount : Nat) : List U64 :=
  KeccakPermutation ((List.range laneCount).foldl (fun s j => s.set j (word s j ^^^ word input j)) state)

/-- `KeccakAbsorb`, KeccakF-1600-opt64.c:352-364. -/
def KeccakAbsorb (state : List U64) (data : List U8) (off laneCount : Nat) : Go (List U64) := do
  return KeccakPermutationOnWordsAfterXoring state (← inputWords data off laneCount) laneCount

/-- `KeccakAbsorb576bits` ... `KeccakAbsorb1344bits`, KeccakF-1600-opt64.c:128-222, 256-350. -/
def KeccakAbsorb576bits (state : List U64) (data : List U8) (off : Nat) : Go (List U64) := do
  return copyToState (rounds (copyFromStateAndXor576bits state (← inputWords data off 9)))
/-- KeccakF-1600-opt64.c:273-286 with the permutation in 128-222. -/
def KeccakAbsorb832bits (state : List U64) (data : List U8) (off : Nat) : Go (List U64) := do
  return copyToState (rounds (copyFromStateAndXor832bits state (← inputWords data off 13)))
/-- KeccakF-1600-opt64.c:289-302 with the permutation in 128-222. -/
def KeccakAbsorb1024bits (state : List U64) (data : List U8) (off : Nat) : Go (List U64) := do
  return copyToState (rounds (copyFromStateAndXor1024bits state (← inputWords data off 16)))
/-- KeccakF-1600-opt64.c:305-318 with the permutation in 128-222. -/
def KeccakAbsorb1088bits (state : List U64) (data : List U8) (off : Nat) : Go (List U64) := do
  return copyToState (rounds (copyFromStateAndXor1088bits state (← inputWords data off 17)))
/-- KeccakF-1600-opt64.c:321-334 with the permutation in 128-222. -/
def KeccakAbsorb1152bits (state : List U64) (data : List U8) (off : Nat) : Go (List U64) := do
  return copyToState (rounds (copyFromStateAndXor1152bits state (← inputWords data off 18)))
/-- KeccakF-1600-opt64.c:337-350 with the permutation in 128-222. -/
def KeccakAbsorb1344bits (state : List U64) (data : List U8) (off : Nat) : Go (List U64) := do
  return copyToState (rounds (copyFromStateAndXor1344bits state (← inputWords data off 21)))

/-- The choice between them, KeccakSponge.c:46-76 and 96-169. -/
def absorbBlock (rate : U32) (state : List U64) (data : List U8) (off : Nat) : Go (List U64) :=
  if rate = 576#32 then KeccakAbsorb576bits state data off
  else if rate = 832#32 then KeccakAbsorb832bits state data off
  else if rate = 1024#32 then KeccakAbsorb1024bits state data off
  else if rate = 1088#32 then KeccakAbsorb1088bits state data off
  else if rate = 1152#32 then KeccakAbsorb1152bits state data off
  else if rate = 1344#32 then KeccakAbsorb1344bits state data off
  else KeccakAbsorb state data off (rate / 64#32).toNat

/-- The words of the state from byte order: `memcpy(data, state, laneCount*8)`, then the complemented lanes among the first `laneCount` are put
right: `KeccakExtract`, KeccakF-1600-opt64.c:394-424. -/
def KeccakExtract (state : List U64) (laneCount : Nat) : List U8 :=
  (List.range laneCount).flatMap fun i =>
    leBytes 8 (if i = 1 ∨ i = 2 ∨ i = 8 ∨ i = 12 ∨ i = 17 ∨ i = 20 then ~~~ word state i else word state i).toNat

/-- `KeccakExtract1024bits`, KeccakF-1600-opt64.c:374-391. -/
def KeccakExtract1024bits (state : List U64) : List U8 :=
  (List.range 16).flatMap fun i => leBytes 8 (if i = 1 ∨ i = 2 ∨ i = 8 ∨ i = 12 then ~~~ word state i else word state i).toNat

/-- The choice between them, written to the front of the queue, KeccakSponge.c:212-222 and 243-253. -/
def extract (s : Sponge) : Go Sponge := do
  if s.rate = 1024#32 then
    let q ← memcpy s.dataQueue 0 (KeccakExtract1024bits s.state) 0 128
    return { s with dataQueue := q, bitsAvailableForSqueezing := 1024#32 }
  else
    let q ← memcpy s.dataQueue 0 (KeccakExtract s.state (s.rate / 64#32).toNat) 0 (8 * (s.rate / 64#32).toNat)
    return { s with dataQueue := q, bitsAvailableForSqueezing := s.rate }

/-- `InitSponge`, KeccakSponge.c:21-38, with its return value. (`rate <= 0` is `rate == 0` for an unsigned.) -/
def InitSponge (s : Sponge) (rate capacity : U32) : Sponge × Nat :=
  if rate + capacity ≠ 1600#32 then (s, 1)
  else if rate ≤ 0#32 ∨ rate ≥ 1600#32 ∨ rate % 64#32 ≠ 0#32 then (s, 1)
  else (⟨KeccakInitializeState, List.replicate 192 0#8, rate, capacity, 0#32, 0#32, false, 0#32⟩, 0)

/-- `AbsorbQueue`, KeccakSponge.c:40-78. -/
def AbsorbQueue (s : Sponge) : Go Sponge := do
  let st ← absorbBlock s.rate s.state s.dataQueue 0
  return { s with state := st, bitsInQueue := 0#32 }

/-- `uint64` of an `unsigned int`. For KeccakSponge.c, KeccakNISTInterface.c. -/
def u64 (x : U32) : U64 := x.setWidth 64

/-- The body of the loop of `Absorb` with loop variable `i`, KeccakSponge.c:93-189. -/
def absorbBody (data : List U8) (databitlen : U64) (p : Sponge × U64) : Go (Sponge × U64) := do
  let (s, i) := p
  if s.bitsInQueue = 0#32 ∧ databitlen ≥ u64 s.rate ∧ i ≤ databitlen - u64 s.rate then
    let wholeBlocks := (databitlen - i) / u64 s.rate
    let st ← Go.forRange 0 wholeBlocks.toNat (fun j st => absorbBlock s.rate st data ((i / 8#64).toNat + j * (s.rate / 8#32).toNat)) s.state
    return ({ s with state := st }, i + wholeBlocks * u64 s.rate)
  else
    let partialBlock : U32 := (databitlen - i).setWidth 32
    let partialBlock := if partialBlock + s.bitsInQueue > s.rate then s.rate - s.bitsInQueue else partialBlock
    let partialByte := partialBlock % 8#32
    let partialBlock := partialBlock - partialByte
    let q ← memcpy s.dataQueue (s.bitsInQueue / 8#32).toNat data (i / 8#64).toNat (partialBlock / 8#32).toNat
    let s := { s with dataQueue := q, bitsInQueue := s.bitsInQueue + partialBlock }
    let i := i + u64 partialBlock
    let s ← if s.bitsInQueue = s.rate then AbsorbQueue s else pure s
    if partialByte > 0#32 then
      let mask : U8 := (1#8 <<< partialByte.toNat) - 1#8
      let b ← load data (i / 8#64).toNat
      let _ ← load s.dataQueue (s.bitsInQueue / 8#32).toNat
      let q := s.dataQueue.set (s.bitsInQueue / 8#32).toNat (b &&& mask)
      return ({ s with dataQueue := q, bitsInQueue := s.bitsInQueue + partialByte }, i + u64 partialByte)
    else
      return (s, i)

/-- The loop of `Absorb`, KeccakSponge.c:91-190. Every round of the loop that makes progress advances `i` by at least one, so a run that
needs more than `databitlen` rounds does not end. -/
def absorbLoop (fuel : Nat) (data : List U8) (databitlen : U64) (s : Sponge) (i : U64) : Go (Sponge × U64) :=
  Go.while_ fuel (fun p => decide (p.2 < databitlen)) (absorbBody data databitlen) (s, i)

/-- `Absorb`, KeccakSponge.c:80-192, with its return value. -/
def Absorb (s : Sponge) (data : List U8) (databitlen : U64) : Go (Sponge × Nat) := do
  if s.bitsInQueue % 8#32 ≠ 0#32 then return (s, 1)
  else if s.squeezing then return (s, 1)
  else
    let (s, _) ← absorbLoop (databitlen.toNat + 1) data databitlen s 0#64
    return (s, 0)

/-- `PadAndSwitchToSqueezingPhase`, KeccakSponge.c:194-227. -/
def PadAndSwitchToSqueezingPhase (s : Sponge) : Go Sponge := do
  let s ← if s.bitsInQueue + 1#32 = s.rate then do
      let q ← orInto s.dataQueue (s.bitsInQueue / 8#32).toNat (1#8 <<< (s.bitsInQueue % 8#32).toNat)
      let s ← AbsorbQueue { s with dataQueue := q }
      let q ← memzero s.dataQueue 0 (s.rate / 8#32).toNat
      pure { s with dataQueue := q }
    else do
      let q ← memzero s.dataQueue ((s.bitsInQueue + 7#32) / 8#32).toNat (s.rate / 8#32 - (s.bitsInQueue + 7#32) / 8#32).toNat
      let q ← orInto q (s.bitsInQueue / 8#32).toNat (1#8 <<< (s.bitsInQueue % 8#32).toNat)
      pure { s with dataQueue := q }
  let q ← orInto s.dataQueue ((s.rate - 1#32) / 8#32).toNat (1#8 <<< ((s.rate - 1#32) % 8#32).toNat)
  let s ← AbsorbQueue { s with dataQueue := q }
  let s ← extract s
  return { s with squeezing := true }

/-- The body of the loop of `Squeeze` on (state, output, i), KeccakSponge.c:241-263. -/
def squeezeBody (outputLength : U64) (p : Sponge × List U8 × U64) : Go (Sponge × List U8 × U64) := do
  let (s, output, i) := p
  let s ← if s.bitsAvailableForSqueezing = 0#32 then extract { s with state := KeccakPermutation s.state } else pure s
  let partialBlock := s.bitsAvailableForSqueezing
  let partialBlock := if u64 partialBlock > outputLength - i then (outputLength - i).setWidth 32 else partialBlock
  let output ← memcpy output (i / 8#64).toNat s.dataQueue ((s.rate - s.bitsAvailableForSqueezing) / 8#32).toNat (partialBlock / 8#32).toNat
  return ({ s with bitsAvailableForSqueezing := s.bitsAvailableForSqueezing - partialBlock }, output, i + u64 partialBlock)

/-- `Squeeze`, KeccakSponge.c:229-266: state, output and return value. -/
def Squeeze (s : Sponge) (output : List U8) (outputLength : U64) : Go (Sponge × List U8 × Nat) := do
  let s ← if s.squeezing then pure s else PadAndSwitchToSqueezingPhase s
  if outputLength % 8#64 ≠ 0#64 then return (s, output, 1)
  else
    let (s, output, _) ← Go.while_ (outputLength.toNat + 1) (fun p : Sponge × List U8 × U64 => decide (p.2.2 < outputLength)) (squeezeBody outputLength) (s, output, 0#64)
    return (s, output, 0)

/-- `Init`, KeccakNISTInterface.c:18-41: `SUCCESS` is 0, `BAD_HASHLEN` is 2; the results of `InitSponge` are ignored. -/
def Init (s : Sponge) (hashbitlen : U32) : Sponge × Nat :=
  if hashbitlen = 0#32 then ({ (InitSponge s 1024#32 576#32).1 with fixedOutputLength := hashbitlen }, 0)
  else if hashbitlen = 224#32 then ({ (InitSponge s 1152#32 448#32).1 with fixedOutputLength := hashbitlen }, 0)
  else if hashbitlen = 256#32 then ({ (InitSponge s 1088#32 512#32).1 with fixedOutputLength := hashbitlen }, 0)
  else if hashbitlen = 384#32 then ({ (InitSponge s 832#32 768#32).1 with fixedOutputLength := hashbitlen }, 0)
  else if hashbitlen = 512#32 then ({ (InitSponge s 576#32 1024#32).1 with fixedOutputLength := hashbitlen }, 0)
  else (s, 2)

/-- `Update`, KeccakNISTInterface.c:43-58. -/
def Update (s : Sponge) (data : List U8) (databitlen : U64) : Go (Sponge × Nat) := do
  if databitlen % 8#64 = 0#64 then Absorb s data databitlen
  else
    let (s, ret) ← Absorb s data (databitlen - databitlen % 8#64)
    if ret = 0 then
      let b ← load data (databitlen / 8#64).toNat
      let lastByte := b >>> (8#64 - databitlen % 8#64).toNat
      Absorb s [lastByte] (databitlen % 8#64)
    else return (s, ret)

/-- `Final`, KeccakNISTInterface.c:60-63. -/
def Final (s : Sponge) (hashval : List U8) : Go (Sponge × List U8 × Nat) := Squeeze s hashval (u64 s.fixedOutputLength)

/-- `keccak`, keccak.go:11-15 (`dataLength` is never used). -/
structure Keccak where
  hashState : Sponge
  bitlen : U32

/-- A zeroed `spongeState`, as `&keccak{...}` makes it. keccak/keccak.go:17-21. -/
def zero : Sponge := ⟨List.replicate 25 0#64, List.replicate 192 0#8, 0#32, 0#32, 0#32, 0#32, false, 0#32⟩

/-- `Size`, keccak.go:76-78. -/
def Keccak.Size (k : Keccak) : Nat := (k.bitlen / 8#32).toNat

/-- `BlockSize`, keccak.go:72-74. -/
def Keccak.BlockSize (k : Keccak) : Int := 200 - 2 * (k.Size : Int)

/-- `Reset`, keccak.go:68-70. -/
def Keccak.Reset (k : Keccak) : Keccak := { k with hashState := (Init k.hashState k.bitlen).1 }

/-- `newKeccak`, keccak.go:17-21; `New224` ... `New512`, keccak.go:29-43. -/
def newKeccak (bitlen : U32) : Keccak := Keccak.Reset ⟨zero, bitlen⟩
/-- keccak/keccak.go:29-31. -/
def New224 : Keccak := newKeccak 224#32
/-- keccak/keccak.go:33-35. -/
def New256 : Keccak := newKeccak 256#32
/-- keccak/keccak.go:37-39. -/
def New384 : Keccak := newKeccak 384#32
/-- keccak/keccak.go:41-43. -/
def New512 : Keccak := newKeccak 512#32

/-- `Write`, keccak.go:45-56: the object, the count and whether an error is returned. -/
def Keccak.Write (k : Keccak) (b : List U8) : Go (Keccak × Nat × Bool) := do
  let n := b.length
  if n = 0 then return (k, 0, false)
  else
    let dl : U64 := BitVec.ofNat 64 (n * 8)
    let (h, ret) ← Update k.hashState b dl
    if ret ≠ 0 then return ({ k with hashState := h }, 0, true)
    else return ({ k with hashState := h }, n, false)

/-- `Sum`, keccak.go:58-66; the object is copied first. -/
def Keccak.Sum (k : Keccak) (b : List U8) : Go (Keccak × List U8) := do
  let buf := List.replicate k.Size 0#8
  let (_, buf, ret) ← Final k.hashState buf
  if ret ≠ 0 then Go.panic "keccak sum error"
  else return (k, b ++ buf)

/-- The `hash.Hash` object (it has no numeric accessor: `value` is never used). keccak/keccak.go:45-78. -/
def hasher : Hasher Keccak where
  write := fun k b => do
    let (k, n, _) ← k.Write b
    return (k, n)
  reset := fun k => .ok k.Reset
  sum := Keccak.Sum
  value := fun k => .ok (k, [])

end Verif.Model.KeccakC
