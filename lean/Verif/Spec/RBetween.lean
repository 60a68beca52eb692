import Mathlib.Data.Rat.Floor
import Mathlib.Data.Int.Log
import Mathlib.Algebra.Order.Field.Power

/-! # Binary floating point numbers (C101) -/

namespace Verif.Spec.RBetween

/-- A non-negative number with a significand of at most 53 bits. The range of exponents is not limited: the numbers met here are zero or
between 2^-63 and 2^65. -/
def IsFloat (q : ℚ) : Prop := ∃ (m : ℕ) (e : ℤ), m < 2 ^ 53 ∧ q = m * (2 : ℚ) ^ e

/-- `r` is `q` rounded to nearest, ties to the even significand (IEEE 754 roundTiesToEven). -/
def IsRounded (q r : ℚ) : Prop :=
  IsFloat r ∧ (∀ f, IsFloat f → |q - r| ≤ |q - f|) ∧
    ∀ f, IsFloat f → f ≠ r → |q - f| = |q - r| → ∃ (m : ℕ) (e : ℤ), 2 ^ 52 ≤ m ∧ m < 2 ^ 53 ∧ m % 2 = 0 ∧ r = m * (2 : ℚ) ^ e

/-- What `math/rand`'s `Float64` may return. -/
def UnitFloat (rf : ℚ) : Prop := IsFloat rf ∧ 0 ≤ rf ∧ rf < 1

end Verif.Spec.RBetween
