import Verif.Go
import Verif.Model.Spooky

/-!
# Model of the benchmarks of /repo/ht.go

Printing is modelled by the list of printed key sizes and counts; the measured times are left out.
-/

namespace Verif.Model.Bench
open Verif

/-- `keySizes`, ht.go:479. -/
def keySizes : List Nat := [4, 8, 16, 32, 64, 512, 1024, 4096]

/-- `bs[0], bs[1], … = …` on the slice `bs = buf[:ksiz]` of the 16384-byte buffer. ht.go:586-672. -/
def put (buf : List U8) (ksiz : Nat) (bytes : List U8) : Go (List U8) :=
  if bytes.length ≤ ksiz ∧ ksiz ≤ buf.length then .ok (bytes ++ buf.drop bytes.length) else .error .index

/-- A Go `byte(i >> sh)` of an `int`. ht.go:586-672. -/
def byteAt (i : Nat) (sh : Nat) : U8 := BitVec.ofNat 8 (i >>> sh)

section
variable {ω : Type}

/-- The loop with an object `h`, ht.go:610-616 (`wide` false) and 619-626: `write` is `h.Reset(); h.Write(bs); _ = h.Sum64()`. -/
def objLoop (write : ω → List U8 → Go ω) (ksiz : Nat) (wide : Bool) : Nat → Nat → ω × List U8 → Go (ω × List U8)
  | _, 0, s => .ok s
  | i, k + 1, (w, buf) => do
    let bytes := if wide then [byteAt i 0, byteAt i 8, byteAt i 16, byteAt i 24, byteAt i 32, byteAt i 40, byteAt i 48, byteAt i 56]
      else [byteAt i 0, byteAt i 8, byteAt i 16, byteAt i 24]
    let buf ← put buf ksiz bytes
    let w ← write w (buf.take ksiz)
    objLoop write ksiz wide (i + 1) k (w, buf)

/-- The loop without an object, ht.go:633-636, 640-645: the buffer is not changed. -/
def hashfLoop (hashf : ω → List U8 → U64 → Go (U64 × ω)) (key : List U8) : Nat → ω → Go ω
  | 0, w => .ok w
  | k + 1, w => do
    let (_, w) ← hashf w key 0
    hashfLoop hashf key k w

/-- The loop over the key sizes, ht.go:597-654. -/
def sizesLoop (h : Option (ω → List U8 → Go ω)) (hashf : ω → List U8 → U64 → Go (U64 × ω)) :
    List Nat → Int → ω × List U8 → Go (ω × List (Nat × Int))
  | [], _, (w, _) => .ok (w, [])
  | ksiz :: ks, n, (w, buf) => do
    let n := if ksiz = 512 then n.tdiv 10 else n
    let (w, buf) ← match h with
      | some write => objLoop write ksiz (ksiz != 4) 0 n.toNat (w, buf)
      | none => do
        let w ← hashfLoop hashf (buf.take ksiz) n.toNat w
        pure (w, buf)
    let (w, lines) ← sizesLoop h hashf ks n (w, buf)
    return (w, (ksiz, n) :: lines)

/-- `benchmark32g`, ht.go:590-668, with `Hf2` already chosen in `hashf`; `h` is `nil` or an object. What it prints with `-cd` is left out. -/
def benchmark32g (h : Option (ω → List U8 → Go ω)) (hashf : ω → List U8 → U64 → Go (U64 × ω)) (w : ω) (n : Int) : Go (ω × List (Nat × Int)) :=
  sizesLoop h hashf keySizes n (w, List.replicate 16384 0#8)

/-- The loop of `benchmark32s` over the key sizes, ht.go:490-571; `spooky` is `spooky.Hash64`. -/
def sizesLoopS (spooky : ω → List U8 → U64 → Go ω) : List Nat → Int → ω → List U8 → Go (ω × List (Nat × Int))
  | [], _, w, _ => .ok (w, [])
  | ksiz :: ks, n, w, buf => do
    let n := if ksiz = 512 then n.tdiv 10 else n
    let w ← hashfLoop (fun w k s => do let w ← spooky w k s; pure (0#64, w)) (buf.take ksiz) n.toNat w
    let (w, lines) ← sizesLoopS spooky ks n w buf
    return (w, (ksiz, n) :: lines)

/-- `benchmark32s`, ht.go:483-586. -/
def benchmark32s (spooky : ω → List U8 → U64 → Go ω) (w : ω) (n : Int) : Go (ω × List (Nat × Int)) :=
  sizesLoopS spooky keySizes n w (List.replicate 16384 0#8)

/-- The loop of `main` over the hash functions, ht.go:869-883 and `benchmark`, 674-681. -/
def benchAll (hash : ω → String → List U8 → U64 → Go (U64 × ω)) (n : Int) : List String → ω → Go ω
  | [], w => .ok w
  | name :: names, w => do
    let (w, _) ← benchmark32g none (fun w k s => hash w name k s) w n
    benchAll hash n names w

end

end Verif.Model.Bench
