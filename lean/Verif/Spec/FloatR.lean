import Mathlib.Data.Real.Archimedean
import Mathlib.Data.Int.Log
import Mathlib.Algebra.Order.Field.Power

/-! # Binary floating point numbers among the reals (C75, C109, C110) -/

namespace Verif.Spec.FloatR

/-- A non-negative number with a significand of at most 53 bits. The range of exponents is not limited: the numbers met here are zero or
between 2^-64 and 2^63. -/
def IsFloat (q : ℝ) : Prop := ∃ (m : ℕ) (e : ℤ), m < 2 ^ 53 ∧ q = m * (2 : ℝ) ^ e

/-- `r` is `q` rounded to nearest, ties to the even significand (IEEE 754 roundTiesToEven). -/
def IsRounded (q r : ℝ) : Prop :=
  IsFloat r ∧ (∀ f, IsFloat f → |q - r| ≤ |q - f|) ∧
    ∀ f, IsFloat f → f ≠ r → |q - f| = |q - r| → ∃ (m : ℕ) (e : ℤ), 2 ^ 52 ≤ m ∧ m < 2 ^ 53 ∧ m % 2 = 0 ∧ r = m * (2 : ℝ) ^ e

end Verif.Spec.FloatR
