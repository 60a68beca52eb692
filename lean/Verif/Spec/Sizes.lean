import Verif.Spec.Stream
import Mathlib.Data.List.Forall2

/-! Specification for C98. -/

namespace Verif.Spec.Sizes
open Verif

/-- In this history of calls and results, every `Sum(b)` returned `b` followed by exactly `n` bytes. -/
def SumsAppend (n : Int) (ops : List HOp) (out : List HOut) : Prop :=
  List.Forall₂ (fun op o => ∀ b, op = .sum b → ∃ d : List U8, (d.length : Int) = n ∧ o = .bytes (b ++ d)) ops out

end Verif.Spec.Sizes
