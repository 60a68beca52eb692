import Mathlib.Data.Real.Archimedean
import Mathlib.Data.Int.Log

/-!
# `float64` arithmetic on non-negative numbers, including square roots

Values are reals; every operation is exact arithmetic followed by rounding to 53 significant bits, to nearest, ties to even. Exponents are
not limited: overflow and underflow cannot happen here. (Model/RBetween.lean is the same over the rationals.) Used for
/repo/smhasher/smhasher.go:186-199 and 534-541.
-/

namespace Verif.Model.FloatR

/-- The nearest integer, ties to even. IEEE 754, for smhasher.go:186-199, 534-541. -/
noncomputable def nearestEven (t : ℝ) : ℤ :=
  if t - ⌊t⌋ < 1 / 2 then ⌊t⌋ else if 1 / 2 < t - ⌊t⌋ then ⌊t⌋ + 1 else if ⌊t⌋ % 2 = 0 then ⌊t⌋ else ⌊t⌋ + 1

/-- Rounding of a non-negative number to `float64`. IEEE 754, for smhasher.go:186-199, 534-541. -/
noncomputable def fl (q : ℝ) : ℝ := if q = 0 then 0 else nearestEven (q / 2 ^ (Int.log 2 q - 52)) * 2 ^ (Int.log 2 q - 52)

end Verif.Model.FloatR
