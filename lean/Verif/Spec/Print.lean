import Mathlib.Data.Rat.Floor

/-! # Accuracy of printed numbers (C105) -/

namespace Verif.Spec.Print

/-- `y` is `x` up to a relative error of `n` units of 2^-52. -/
def Near (n : Nat) (x y : ℚ) : Prop := |y - x| ≤ n * (1 / 2 ^ 52) * x

/-- The unit a duration of `d` nanoseconds should be shown in, with its length in nanoseconds. -/
def unitFor (d : Nat) : String × Nat := if 10 ^ 9 ≤ d then ("s", 10 ^ 9) else if 10 ^ 6 ≤ d then ("ms", 10 ^ 6) else ("us", 10 ^ 3)

/-- `v unit` is a good way to show `d` nanoseconds. -/
def Shows (d : Nat) (v : ℚ) (unit : String) : Prop := unit = (unitFor d).1 ∧ Near 4 ((d : ℚ) / (unitFor d).2) v

/-- The "Red Dragon Book" quality of a hash that distributes keys over `counts.length` buckets. -/
def dragon (counts : List Nat) : ℚ :=
  counts.length * ((counts.map fun c => c * (c + 1)).sum : Nat) / ((counts.sum : ℚ) * (counts.sum + 2 * counts.length - 1))

end Verif.Spec.Print
