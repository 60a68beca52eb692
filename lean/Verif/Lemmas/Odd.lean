import Verif.Lemmas.Bits
import Mathlib.Data.Nat.ModEq
import Mathlib.Data.Nat.GCD.Basic
import Mathlib.Data.Nat.Prime.Basic

namespace Verif

/-- Multiplication by an odd word is injective. -/
theorem mul_inj_of_odd {w : Nat} {x y c : BitVec w} (hc : c.toNat % 2 = 1) (e : x * c = y * c) : x = y := by
  have h := congrArg BitVec.toNat e
  rw [BitVec.toNat_mul, BitVec.toNat_mul] at h
  have hco : Nat.gcd (2 ^ w) c.toNat = 1 :=
    Nat.Coprime.pow_left w ((Nat.coprime_two_left).2 (Nat.odd_iff.2 hc))
  have := Nat.ModEq.cancel_right_of_coprime hco (show x.toNat * c.toNat ≡ y.toNat * c.toNat [MOD 2 ^ w] from h)
  apply BitVec.eq_of_toNat_eq
  have h1 := Nat.mod_eq_of_lt x.isLt
  have h2 := Nat.mod_eq_of_lt y.isLt
  unfold Nat.ModEq at this
  omega

end Verif
