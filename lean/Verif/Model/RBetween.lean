import Verif.Go
import Mathlib.Data.Rat.Floor
import Mathlib.Data.Int.Log

/-!
# Model of `rbetween`, /repo/ht.go:348-356

`float64` values are rational numbers; every operation is exact arithmetic followed by rounding to 53 significant bits, to nearest, ties to even.
Exponents are not limited: overflow and underflow cannot happen here. The multiplication and the addition are taken not to be fused.
-/

namespace Verif.Model.RBetween
open Verif

/-- The nearest integer, ties to even. IEEE 754, for ht.go:348-356. -/
def nearestEven (t : ℚ) : ℤ :=
  if t - ⌊t⌋ < 1 / 2 then ⌊t⌋ else if 1 / 2 < t - ⌊t⌋ then ⌊t⌋ + 1 else if ⌊t⌋ % 2 = 0 then ⌊t⌋ else ⌊t⌋ + 1

/-- Rounding of a non-negative number to `float64`. IEEE 754, for ht.go:348-356. -/
def fl (q : ℚ) : ℚ := if q = 0 then 0 else nearestEven (q / 2 ^ (Int.log 2 q - 52)) * 2 ^ (Int.log 2 q - 52)

/-- `uint64(x)` for a non-negative `x`; for `x` not below 2^64 the result depends on the implementation, here `big x`. ht.go:348-356. -/
def toUint64 (big : ℚ → U64) (x : ℚ) : U64 := if x < 2 ^ 64 then BitVec.ofNat 64 ⌊x⌋.toNat else big x

/-- `rbetween`, ht.go:348-356; `rf` is the result of `r.Float64()`. -/
def rbetween (big : ℚ → U64) (rf : ℚ) (a b : U64) : U64 :=
  let diff := fl ((b - a + 1 : U64).toNat : ℚ)
  let r2 := fl (rf * diff)
  let r3 := fl (r2 + fl (a.toNat : ℚ))
  toUint64 big r3

end Verif.Model.RBetween
