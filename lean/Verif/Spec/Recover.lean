import Verif.Spec.HtMain

/-! # What a caller that recovers from panics of `Insert` sees (C113) -/

namespace Verif.Spec.Recover
open Verif

/-- The hash of this key does not panic. -/
def hashable (h : Go U64) : Bool :=
  match h with
  | .ok _ => true
  | .error _ => false

/-- How the calls of a history of inserts end, given what the hash of each key gives: with the panic of the hash; else, if the table has
`room` slots left (`none`: any number) and none is left, with the panic of a full table; else without a panic. -/
def endings : Option Nat → List (Go U64) → List (Option Fault)
  | _, [] => []
  | room, .error f :: l => some f :: endings room l
  | none, .ok _ :: l => none :: endings none l
  | some 0, .ok _ :: l => some (.explicit "Add: pass") :: endings (some 0) l
  | some (r + 1), .ok _ :: l => none :: endings (some r) l

end Verif.Spec.Recover
