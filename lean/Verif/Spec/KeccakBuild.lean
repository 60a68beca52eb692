import Verif.Spec.Keccak

/-!
# The interface of the Keccak permutation (KeccakF-1600-interface.h), independent of how it is built (C122)

This file uses nothing of the model.
-/

namespace Verif.Spec.KeccakBuild
open Verif Verif.Spec.Keccak

/-- The calls of the interface. `fast` is `KeccakAbsorb576bits` and so on, by the number of 8-byte lanes. -/
inductive Call where
  | init
  | permute
  | absorb (data : List U8) (lanes : Nat)
  | fast (data : List U8) (lanes : Nat)
  | extract (lanes : Nat)
  | extract1024

/-- The block sizes, in lanes, that have a function of their own: 576, 832, 1024, 1088, 1152 and 1344 bits. -/
def fastSizes : List Nat := [9, 13, 16, 17, 18, 21]

/-- A call that stays inside the state and inside its data. -/
def Call.Valid : Call → Prop
  | .absorb data n => n ≤ 25 ∧ 8 * n ≤ data.length
  | .fast data n => n ∈ fastSizes ∧ 8 * n ≤ data.length
  | .extract n => n ≤ 25
  | _ => True

/-- What a call does to the state, and the bytes it gives back. -/
def step (A : State) : Call → State × List U8
  | .init => (fun _ _ => 0#64, [])
  | .permute => (keccakf 24 A, [])
  | .absorb data n => (keccakf 24 (xorInto A (data.take (8 * n))), [])
  | .fast data n => (keccakf 24 (xorInto A (data.take (8 * n))), [])
  | .extract n => (A, (bytes A).take (8 * n))
  | .extract1024 => (A, (bytes A).take 128)

/-- The bytes a sequence of calls gives back. -/
def seen : State → List Call → List (List U8)
  | _, [] => []
  | A, c :: cs => (step A c).2 :: seen (step A c).1 cs

end Verif.Spec.KeccakBuild
