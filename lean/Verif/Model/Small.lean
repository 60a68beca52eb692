import Verif.Gen.SmallTables

/-!
# Models of packages sbox, crapwow, mahash and nullhash
-/

namespace Verif.Model.Sbox
open Verif

/-- Loop body, sbox.go:46-47; state `(h, key, l)`. `SBoxTable[key[0]]` indexes a `[256]uint32` by a byte. -/
def body (q : U32 × List U8 × Nat) : Go (U32 × List U8 × Nat) := do
  let (h, key, l) := q
  let b0 ← Go.idx key 0
  let t0 ← Go.idx Gen.SBoxTable b0.toNat
  let b1 ← Go.idx key 1
  let t1 ← Go.idx Gen.SBoxTable b1.toNat
  let key ← Go.from_ key 2
  return (((h ^^^ t0) * 3#32 ^^^ t1) * 3#32, key, l - 2)

/-- The odd byte, sbox.go:49-51. -/
def odd (h : U32) (key : List U8) (l : Nat) : Go U32 :=
  if l % 2 ≠ 0 then do
    let b0 ← Go.idx key 0
    let t0 ← Go.idx Gen.SBoxTable b0.toNat
    return (h ^^^ t0) * 3#32
  else .ok h

/-- `Sbox`, sbox.go:42-54. `l & ^1 != 0` is `l / 2 * 2 ≠ 0`. -/
def Sbox (key : List U8) (seed : U32) : Go U32 := do
  let q ← Go.while_ key.length (fun q => decide (q.2.2 / 2 * 2 ≠ 0)) body (BitVec.ofNat 32 key.length + seed, key, key.length)
  let h ← odd q.1 q.2.1 q.2.2
  return h + (h >>> 22 ^^^ h <<< 4)

/-- `State`, sbox.go:56-59. -/
structure State where
  (hash seed : U32)

/-- `New`, sbox.go:62-66. -/
def New (seed : U32) : State := ⟨0#32, seed⟩

/-- `(*State).Hash32`, sbox.go:87-93. -/
def State.Hash32 (s : State) (b : List U8) (seeds : List U32) : Go (State × U32) := do
  let seed := match seeds with
    | [] => s.seed
    | x :: _ => x
  let h ← Sbox b seed
  return (⟨h, seed⟩, h)

/-- A history of `Hash32` calls on one object: the results returned. The caller, not in the source. -/
def State.run (s : State) : List (List U8 × List U32) → Go (List U32)
  | [] => .ok []
  | (b, seeds) :: cs => do
    let (s, h) ← s.Hash32 b seeds
    let hs ← State.run s cs
    return h :: hs

end Verif.Model.Sbox

namespace Verif.Model.CrapWow
open Verif

/-- `m`, `n`, crapwow.go:19-20. -/
def m : U32 := 0x57559429#32
/-- `n`, crapwow.go:20. -/
def n : U32 := 0x5052acdb#32

/-- The variables `h`, `k` shared with the closures, crapwow.go:22-23. -/
structure HK where
  (h k : U32)

/-- `cwmixa`, crapwow.go:32-36. -/
def cwmixa (s : HK) (x : U32) : HK :=
  let p := x.setWidth 64 * m.setWidth 64
  ⟨s.h ^^^ (p >>> 32).setWidth 32, s.k ^^^ p.setWidth 32⟩

/-- `cwmixb`, crapwow.go:38-42. -/
def cwmixb (s : HK) (x : U32) : HK :=
  let p := x.setWidth 64 * n.setWidth 64
  ⟨s.h ^^^ p.setWidth 32, s.k ^^^ (p >>> 32).setWidth 32⟩

/-- `sliceUI32`, crapwow.go:14-16: the key seen as `len/4` words of a little-endian machine. -/
def sliceUI32 (p : List U8) : List U32 := (blocks 4 p).map le32

/-- Loop body, crapwow.go:45-51; state `(hk, key4, key, l)`. -/
def body (q : HK × List U32 × List U8 × Nat) : Go (HK × List U32 × List U8 × Nat) := do
  let (s, key4, key, l) := q
  let s := cwmixb s (← Go.idx key4 0)
  let s := cwmixa s (← Go.idx key4 1)
  let key4 ← Go.from_ key4 2
  let key ← Go.from_ key 8
  return (s, key4, key, l - 8)

/-- crapwow.go:52-57. -/
def four (q : HK × List U32 × List U8 × Nat) : Go (HK × List U8 × Nat) :=
  let (s, key4, key, l) := q
  if l ≥ 4 then do
    let s := cwmixb s (← Go.idx key4 0)
    let _ ← Go.from_ key4 1
    let key ← Go.from_ key 4
    return (s, key, l - 4)
  else .ok (s, key, l)

/-- The mask `(1 << (uint32(l) * 8)) - 1` of crapwow.go:61-67. -/
def mask (l : Nat) : U32 := 1#32 <<< (l * 8) - 1#32

/-- The `switch`, crapwow.go:58-68. -/
def tail (q : HK × List U8 × Nat) : Go HK :=
  let (s, key, l) := q
  match l with
  | 3 => do
    let b2 ← Go.idx key 2
    let b1 ← Go.idx key 1
    let b0 ← Go.idx key 0
    return cwmixa s ((b2.setWidth 32 <<< 16 ||| b1.setWidth 32 <<< 8 ||| b0.setWidth 32) &&& mask 3)
  | 2 => do
    let b1 ← Go.idx key 1
    let b0 ← Go.idx key 0
    return cwmixa s ((b1.setWidth 32 <<< 8 ||| b0.setWidth 32) &&& mask 2)
  | 1 => do
    let b0 ← Go.idx key 0
    return cwmixa s (b0.setWidth 32 &&& mask 1)
  | _ => .ok s

/-- `CrapWow`, crapwow.go:18-71. -/
def CrapWow (key : List U8) (seed : U32) : Go U32 := do
  let h := BitVec.ofNat 32 key.length
  let q ← Go.while_ key.length (fun q => decide (q.2.2.2 ≥ 8)) body (⟨h, h + seed + n⟩, sliceUI32 key, key, key.length)
  let q ← four q
  let s ← tail q
  let s := cwmixb s (s.h ^^^ (s.k + n))
  return s.k ^^^ s.h

/-- `State`, crapwow.go:73-76. -/
structure State where
  (hash seed : U32)

/-- `New`, crapwow.go:79-83. -/
def New (seed : U32) : State := ⟨0#32, seed⟩

/-- `(*State).Hash32`, crapwow.go:104-110. -/
def State.Hash32 (s : State) (b : List U8) (seeds : List U32) : Go (State × U32) := do
  let seed := match seeds with
    | [] => s.seed
    | x :: _ => x
  let h ← CrapWow b seed
  return (⟨h, seed⟩, h)

/-- A history of `Hash32` calls on one object: the results returned. The caller, not in the source. -/
def State.run (s : State) : List (List U8 × List U32) → Go (List U32)
  | [] => .ok []
  | (b, seeds) :: cs => do
    let (s, h) ← s.Hash32 b seeds
    let hs ← State.run s cs
    return h :: hs

end Verif.Model.CrapWow

namespace Verif.Model.MaHash
open Verif

/-- `LROT14`, mahash8v64.go:27-29. -/
def LROT14 (x : U32) : U32 := x <<< 14 ||| x >>> 18
/-- `RROT14`, mahash8v64.go:31-33. -/
def RROT14 (x : U32) : U32 := x <<< 18 ||| x >>> 14
/-- `LROT64`, mahash8v64.go:35-37. -/
def LROT64 (x : U64) : U64 := x <<< 29 ||| x >>> 34

/-- Loop body, mahash8v64.go:48-56; state `(hash1, hash2)`. -/
def body (str : List U8) (i : Nat) (q : U32 × U32) : Go (U32 × U32) := do
  let (hash1, hash2) := q
  let b ← Go.idx str i
  let t ← Go.idx Gen.sTable b.toNat
  let hash1 := hash1 + t.setWidth 32
  let hash1 := LROT14 (hash1 + (hash1 <<< 6 ^^^ hash1 >>> 11))
  let hash2 := hash2 + t.setWidth 32
  let hash2 := RROT14 (hash2 + (hash2 <<< 6 ^^^ hash2 >>> 11))
  let sh1 := hash1
  let sh2 := hash2
  let hash1 := (sh1 >>> 16 &&& 0xffff#32) ||| (sh2 &&& 0xffff#32) <<< 16
  let hash2 := (sh2 >>> 16 &&& 0xffff#32) ||| (sh1 &&& 0xffff#32) <<< 16
  return (hash1, hash2)

/-- `MaHash8v64`, mahash8v64.go:39-64. -/
def MaHash8v64 (str : List U8) : Go U64 := do
  let h := BitVec.ofNat 32 str.length
  let (hash1, hash2) ← Go.forRange 0 str.length (body str) (h, h)
  let digest := hash1.setWidth 64 <<< 32 ||| hash2.setWidth 64
  return digest ^^^ LROT64 (digest + (digest <<< 13 ^^^ digest >>> 23))

end Verif.Model.MaHash

namespace Verif.Model.NullHash
open Verif

/-- `Nullhash`, nullhash.go:8-10. -/
def Nullhash (_b : List U8) (_seed : U64) : U64 := 0#64

/-- `nullhashstate`, nullhash.go:12-14. -/
structure State where
  ctr : U64

/-- `New` and `NewF64`, nullhash.go:57-65. -/
def New : State := ⟨0#64⟩

/-- The methods of nullhash.go:28-55. -/
inductive Call where
  | write (b : List U8)
  | sum (b : List U8)
  | sum64
  | reset
  | hash64 (b : List U8) (seeds : List U64)
  | hash64S (b : List U8) (seed : U64)

/-- What a call returns. nullhash/nullhash.go:32-55. -/
inductive Ret where
  | wrote (n : Nat)
  | bytes (b : List U8)
  | value (v : U64)
  | done
  deriving DecidableEq

/-- One call, nullhash.go:28-55. -/
def call (s : State) : Call → State × Ret
  | .write b => (s, .wrote b.length)
  | .sum b => (s, .bytes (b ++ List.replicate 8 0#8))
  | .sum64 => (⟨s.ctr + 1#64⟩, .value (s.ctr + 1#64))
  | .reset => (s, .done)
  | .hash64 _ _ => (⟨s.ctr + 1#64⟩, .value (s.ctr + 1#64))
  | .hash64S _ _ => (⟨s.ctr + 1#64⟩, .value (s.ctr + 1#64))

/-- A history of calls on one object. The caller, not in the source. -/
def run (s : State) : List Call → List Ret
  | [] => []
  | c :: cs => (call s c).2 :: run (call s c).1 cs

end Verif.Model.NullHash
