import Verif.Model.KeccakHeap

/-!
# What a caller of `hash.Hash` may assume about its own memory

The value-level history of a caller: the bytes of each slice at the time of the call. `finalMem` is what the caller's memory
should be at the end: only the caller's own stores change it.
-/

namespace Verif.Spec.KeccakHeap
open Verif
open Verif.Model.KeccakHeap (CSlice Op poke)

/-- The bytes of a slice. -/
def bytesOf (mem : List (List U8)) (s : CSlice) : List U8 := ((mem.getD s.arr []).drop s.off).take s.len

/-- The slice lies in its array. -/
def Valid (mem : List (List U8)) (s : CSlice) : Prop := s.len ≤ s.cap ∧ s.off + s.cap ≤ (mem.getD s.arr []).length

def callsOf : List (List U8) → List Op → List HOp
  | _, [] => []
  | mem, .write s :: ops => .write (bytesOf mem s) :: callsOf mem ops
  | mem, .sum b :: ops => .sum (bytesOf mem b) :: callsOf mem ops
  | mem, .reset :: ops => .reset :: callsOf mem ops
  | mem, .poke a i v :: ops => callsOf (poke mem a i v) ops

def finalMem : List (List U8) → List Op → List (List U8)
  | mem, [] => mem
  | mem, .poke a i v :: ops => finalMem (poke mem a i v) ops
  | mem, _ :: ops => finalMem mem ops

/-- Callers for which the hasher keeps its contract: every slice passed has no spare capacity, and an array that was passed to
`Write` is not stored into until `Reset`. -/
def Polite : List (List U8) → (handed : List Nat) → List Op → Prop
  | _, _, [] => True
  | mem, handed, .write s :: ops => Valid mem s ∧ s.cap = s.len ∧ Polite mem (s.arr :: handed) ops
  | mem, handed, .sum b :: ops => Valid mem b ∧ b.cap = b.len ∧ Polite mem handed ops
  | mem, _, .reset :: ops => Polite mem [] ops
  | mem, handed, .poke a i v :: ops => a ∉ handed ∧ Polite (poke mem a i v) handed ops

end Verif.Spec.KeccakHeap
