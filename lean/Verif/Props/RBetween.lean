import Verif.Lemmas.RBetween
import Mathlib.Data.Nat.Log

/-!
# C101: the random numbers of `rbetween`

`rbetween(a, b)` is used as "a random number from a to b". It computes in `float64`. `rf` is the value of `r.Float64()`, and `big` what the
implementation makes of a conversion that does not fit.
-/

namespace Verif.Props
open Verif Verif.Spec.RBetween Verif.Model.RBetween Verif.Lemmas.RBetween

/-- The model's rounding is rounding to nearest, ties to even. -/
theorem C101_rounding (q : ℚ) (h : 0 ≤ q) : IsRounded q (fl q) := fl_rounded h

namespace RBetween

theorem toUint64_toNat {big : ℚ → U64} {x : ℚ} (h0 : 0 ≤ x) (h : x < 2 ^ 64) : ((toUint64 big x).toNat : ℤ) = ⌊x⌋ := by
  unfold toUint64
  rw [if_pos h, BitVec.toNat_ofNat]
  have h1 : 0 ≤ ⌊x⌋ := Int.floor_nonneg.2 h0
  have h2 : ⌊x⌋ < 2 ^ 64 := by
    rw [Int.floor_lt]; push_cast; exact h
  omega

theorem fl_zero : fl 0 = 0 := by simp [fl]

theorem fl_pos {q : ℚ} (h : 0 < q) : 0 < fl q := by
  obtain ⟨h1, _⟩ := binade h
  have hf : IsFloat ((2 : ℚ) ^ (Int.log 2 q)) := ⟨1, Int.log 2 q, by norm_num, by simp⟩
  exact lt_of_lt_of_le (by positivity) (le_fl h.le hf h1)

theorem diff_eq {a b : U64} (h : a.toNat ≤ b.toNat) (hb : b.toNat < 2 ^ 64 - 1) : (b - a + 1 : U64).toNat = b.toNat - a.toNat + 1 := by
  rw [BitVec.toNat_add, BitVec.toNat_sub]
  have h1 : (1 : U64).toNat = 1 := rfl
  rw [h1]
  have := a.isLt
  omega

end RBetween
open RBetween

/-- With 0 for the lower end the number is never above the upper end. -/
theorem C101_zero (big : ℚ → U64) {rf : ℚ} (hr : UnitFloat rf) (b : U64) : (rbetween big rf 0 b).toNat ≤ b.toNat := by
  unfold rbetween
  dsimp only
  have h0 : fl (((0 : U64).toNat : ℕ) : ℚ) = 0 := by simp [fl]
  rw [h0, add_zero]
  by_cases hb : b.toNat = 2 ^ 64 - 1
  · have hd : (b - 0 + 1 : U64).toNat = 0 := by
      have h1 : (1 : U64).toNat = 1 := rfl
      have h2 : (b - 0 : U64) = b := by simp
      rw [BitVec.toNat_add, h1, h2]; omega
    rw [hd]
    have : ((toUint64 big (fl (fl (rf * fl ((0 : ℕ) : ℚ))))).toNat : ℤ) = 0 := by
      simp only [Nat.cast_zero, fl_zero, mul_zero]
      rw [toUint64_toNat le_rfl (by norm_num)]; simp
    omega
  · have hlt : b.toNat < 2 ^ 64 - 1 := by have := b.isLt; omega
    have hd : (b - 0 + 1 : U64).toNat = b.toNat + 1 := by rw [diff_eq (by simp) hlt]; simp
    rw [hd]
    have hD : (0 : ℚ) < ((b.toNat + 1 : ℕ) : ℚ) := by positivity
    have hn : 0 ≤ rf * fl ((b.toNat + 1 : ℕ) : ℚ) := mul_nonneg hr.2.1 (fl_pos hD).le
    rw [fl_self (fl_float hn)]
    have h1 := scaled_lt' hr hD (fl_pos hD)
    have h2 := isFloat_nonneg (fl_float hn)
    have h3 : ((b.toNat + 1 : ℕ) : ℚ) ≤ 2 ^ 64 := by
      have : b.toNat + 1 ≤ 2 ^ 64 := b.isLt
      exact_mod_cast this
    have h4 := toUint64_toNat (big := big) h2 (lt_of_lt_of_le h1 h3)
    have h5 : ⌊fl (rf * fl ((b.toNat + 1 : ℕ) : ℚ))⌋ < ((b.toNat + 1 : ℕ) : ℤ) := by
      rw [Int.floor_lt]; exact_mod_cast h1
    omega

/-- C101_zero at work: half of the widest range. -/
example : (rbetween (fun _ => 0) (1 / 2) 0 (BitVec.allOnes 64)).toNat ≤ 2 ^ 64 - 1 :=
  C101_zero _ ⟨⟨1, -1, by norm_num, by norm_num⟩, by norm_num, by norm_num⟩ _

/-- The whole range: the width overflows to 0, so the "random" number is 0, always. -/
theorem C101_full_range (big : ℚ → U64) (rf : ℚ) : rbetween big rf 0 (BitVec.ofNat 64 (2 ^ 64 - 1)) = 0 := by
  have hd : (BitVec.ofNat 64 (2 ^ 64 - 1) - 0 + 1 : U64).toNat = 0 := by decide
  unfold rbetween
  dsimp only
  rw [hd]
  simp [fl_zero, toUint64]

/-- Below 2^53 the number is never below the lower end and at most one above the upper end. -/
theorem C101_bounds (big : ℚ → U64) {rf : ℚ} (hr : UnitFloat rf) {a b : U64} (hab : a.toNat ≤ b.toNat) (hb : b.toNat < 2 ^ 53) :
    a.toNat ≤ (rbetween big rf a b).toNat ∧ (rbetween big rf a b).toNat ≤ b.toNat + 1 := by
  unfold rbetween
  dsimp only
  rw [diff_eq hab (by omega)]
  rw [fl_self (isFloat_nat (n := a.toNat) (by omega)), fl_self (isFloat_nat (n := b.toNat - a.toNat + 1) (by omega))]
  set D : ℕ := b.toNat - a.toNat + 1 with hDef
  have hDf : IsFloat (D : ℚ) := isFloat_nat (by omega)
  have hD : (0 : ℚ) < (D : ℚ) := by positivity
  have h1 := scaled_lt hr hDf hD
  have h2 := isFloat_nonneg (fl_float (mul_nonneg hr.2.1 hD.le))
  have hsum : (D : ℚ) + a.toNat = ((b.toNat + 1 : ℕ) : ℚ) := by
    have : D + a.toNat = b.toNat + 1 := by omega
    exact_mod_cast this
  have ha0 : (0 : ℚ) ≤ (a.toNat : ℚ) := by positivity
  have hlo : (a.toNat : ℚ) ≤ fl (fl (rf * D) + a.toNat) := le_fl (by linarith) (isFloat_nat (by omega)) (by linarith)
  have hhi : fl (fl (rf * D) + a.toNat) ≤ ((b.toNat + 1 : ℕ) : ℚ) := fl_le (by linarith) (isFloat_nat (by omega)) (by linarith)
  have h64 : ((b.toNat + 1 : ℕ) : ℚ) < 2 ^ 64 := by
    have : b.toNat + 1 < 2 ^ 64 := by omega
    exact_mod_cast this
  have h4 := toUint64_toNat (big := big) (le_trans ha0 hlo) (lt_of_le_of_lt hhi h64)
  have h5 : ((a.toNat : ℤ)) ≤ ⌊fl (fl (rf * D) + a.toNat)⌋ := by rw [Int.le_floor]; exact_mod_cast hlo
  have h6 : ⌊fl (fl (rf * D) + a.toNat)⌋ ≤ ((b.toNat + 1 : ℕ) : ℤ) := by
    have := Int.floor_le_floor hhi
    rwa [Int.floor_natCast] at this
  omega

/-- C101_bounds at work: half of 4 … 6. -/
example : 4 ≤ (rbetween (fun _ => 0) (1 / 2) 4 6).toNat ∧ (rbetween (fun _ => 0) (1 / 2) 4 6).toNat ≤ 6 + 1 :=
  C101_bounds _ ⟨⟨1, -1, by norm_num, by norm_num⟩, by norm_num, by norm_num⟩ (a := 4) (b := 6) (by decide) (by decide)

namespace RBetween

/-- `n` is a multiple of `2^(k-53)` and the float below it, in the binade ending in `2^k`. -/
theorem pred_float {n k : ℕ} (hk : k ≤ 53) (h0 : 0 < n) (h : n ≤ 2 ^ k) :
    (∃ m : ℤ, (n : ℚ) = m * (2 : ℚ) ^ ((k : ℤ) - 53)) ∧ IsFloat ((n : ℚ) - 2 ^ ((k : ℤ) - 53)) := by
  have hm : (n : ℚ) = ((n * 2 ^ (53 - k) : ℕ) : ℚ) * (2 : ℚ) ^ ((k : ℤ) - 53) := by
    rw [show (k : ℤ) - 53 = -((53 - k : ℕ) : ℤ) by omega, zpow_neg, zpow_natCast]
    push_cast
    field_simp
  have h1 : 1 ≤ n * 2 ^ (53 - k) := Nat.mul_pos h0 (by positivity)
  have h2 : n * 2 ^ (53 - k) ≤ 2 ^ 53 := by
    calc n * 2 ^ (53 - k) ≤ 2 ^ k * 2 ^ (53 - k) := Nat.mul_le_mul_right _ h
      _ = 2 ^ 53 := by rw [← pow_add]; congr 1; omega
  refine ⟨⟨((n * 2 ^ (53 - k) : ℕ) : ℤ), by rw [Int.cast_natCast]; exact hm⟩, ?_⟩
  have := isFloat_of_grid (n := ((n * 2 ^ (53 - k) : ℕ) : ℤ) - 1) (e := (k : ℤ) - 53) (by omega) (by omega)
  convert this using 1
  rw [Int.cast_sub, Int.cast_natCast, sub_mul, ← hm]
  simp

theorem clog_lt {n : ℕ} (h0 : 0 < n) : (2 : ℚ) ^ ((Nat.clog 2 n : ℤ) - 1) < n := by
  rcases Nat.eq_or_lt_of_le (show 1 ≤ n from h0) with h | h
  · rw [← h]; norm_num
  · have h1 := Nat.pow_pred_clog_lt_self (b := 2) (by norm_num) h
    have h2 : 0 < Nat.clog 2 n := Nat.clog_pos (by norm_num) h
    rw [show (Nat.clog 2 n : ℤ) - 1 = ((Nat.clog 2 n).pred : ℕ) by rw [Nat.pred_eq_sub_one]; omega, zpow_natCast]
    exact_mod_cast h1

/-- Half a unit below an even significand rounds up to it. -/
theorem tie_up {n k : ℕ} (hk : k ≤ 52) (h1 : 1 ≤ k) (hlo : 2 ^ (k - 1) < n) (h : n ≤ 2 ^ k) : fl ((n : ℚ) - 2 ^ ((k : ℤ) - 54)) = n := by
  have hu : (0 : ℚ) < 2 ^ ((k : ℤ) - 53) := by positivity
  have hm : (n : ℚ) = ((n * 2 ^ (53 - k) : ℕ) : ℚ) * (2 : ℚ) ^ ((k : ℤ) - 53) := by
    rw [show (k : ℤ) - 53 = -((53 - k : ℕ) : ℤ) by omega, zpow_neg, zpow_natCast]
    push_cast
    field_simp
  have hhalf : (2 : ℚ) ^ ((k : ℤ) - 53) = 2 * 2 ^ ((k : ℤ) - 54) := by
    rw [show (k : ℤ) - 53 = 1 + ((k : ℤ) - 54) by ring, zpow_add₀ (by norm_num)]; norm_num
  have hsmall : (2 : ℚ) ^ ((k : ℤ) - 54) ≤ 1 := zpow_le_one_of_nonpos₀ (by norm_num) (by omega)
  have hlo' : (2 : ℚ) ^ ((k : ℤ) - 1) + 1 ≤ n := by
    rw [show (k : ℤ) - 1 = ((k - 1 : ℕ) : ℤ) by omega, zpow_natCast]
    exact_mod_cast hlo
  have hhi' : (n : ℚ) ≤ 2 ^ (k : ℤ) := by rw [zpow_natCast]; exact_mod_cast h
  have hu' : (0 : ℚ) < 2 ^ ((k : ℤ) - 54) := by positivity
  rw [fl_eq (e := (k : ℤ) - 1) (by linarith) (by rw [show (k : ℤ) - 1 + 1 = k by ring]; linarith)]
  rw [show (k : ℤ) - 1 - 52 = (k : ℤ) - 53 by ring]
  set N : ℕ := n * 2 ^ (53 - k) with hN
  have hq : ((n : ℚ) - 2 ^ ((k : ℤ) - 54)) / 2 ^ ((k : ℤ) - 53) = (N : ℚ) - 1 / 2 := by
    rw [hm, sub_div, mul_div_assoc, div_self hu.ne', mul_one, hhalf]
    congr 1
    field_simp
  have hfloor : ⌊((N : ℚ) - 1 / 2)⌋ = (N : ℤ) - 1 := by
    rw [Int.floor_eq_iff]; push_cast; constructor <;> linarith
  have heven : N % 2 = 0 := by
    rw [hN, show 53 - k = (52 - k) + 1 by omega, pow_succ, ← mul_assoc]; omega
  have hne : nearestEven ((N : ℚ) - 1 / 2) = N := by
    unfold nearestEven
    rw [hfloor]
    rw [if_neg (by push_cast; norm_num), if_neg (by push_cast; norm_num), if_neg (by omega)]
    omega
  rw [hq, hne, Int.cast_natCast, ← hm]

end RBetween

/-- The exact condition under which `b + 1` can come out, `b` below 2^52: the width takes fewer bits than the upper end. -/
theorem C101_exact (big : ℚ → U64) {a b : U64} (hab : a.toNat ≤ b.toNat) (hb : b.toNat < 2 ^ 52) :
    (∃ rf, UnitFloat rf ∧ (rbetween big rf a b).toNat = b.toNat + 1) ↔ Nat.clog 2 (b.toNat - a.toNat + 1) < Nat.clog 2 (b.toNat + 1) := by
  have hdiff := diff_eq hab (by omega)
  have hfa := fl_self (isFloat_nat (n := a.toNat) (by omega))
  have hfd := fl_self (isFloat_nat (n := b.toNat - a.toNat + 1) (by omega))
  set D : ℕ := b.toNat - a.toNat + 1 with hDef
  set B : ℕ := b.toNat + 1 with hB
  have hsum : (D : ℚ) + a.toNat = (B : ℚ) := by
    have : D + a.toNat = B := by omega
    exact_mod_cast this
  have hDf : IsFloat (D : ℚ) := isFloat_nat (by omega)
  have hBf : IsFloat (B : ℚ) := isFloat_nat (by omega)
  have hD : (0 : ℚ) < (D : ℚ) := by positivity
  have ha0 : (0 : ℚ) ≤ (a.toNat : ℚ) := by positivity
  have hB64 : (B : ℚ) < 2 ^ 64 := by
    have : B < 2 ^ 64 := by omega
    exact_mod_cast this
  have hval : ∀ rf, UnitFloat rf → 0 ≤ fl (rf * D) ∧ fl (rf * D) < D ∧ fl (fl (rf * D) + a.toNat) ≤ B ∧
      ((rbetween big rf a b).toNat : ℤ) = ⌊fl (fl (rf * D) + a.toNat)⌋ := by
    intro rf hr
    have h1 := scaled_lt hr hDf hD
    have h2 := isFloat_nonneg (fl_float (mul_nonneg hr.2.1 hD.le))
    have hhi : fl (fl (rf * D) + a.toNat) ≤ B := fl_le (by linarith) hBf (by linarith)
    refine ⟨h2, h1, hhi, ?_⟩
    have h4 := toUint64_toNat (big := big) (isFloat_nonneg (fl_float (by linarith : (0 : ℚ) ≤ fl (rf * D) + a.toNat))) (lt_of_le_of_lt hhi hB64)
    unfold rbetween
    dsimp only
    rw [hdiff, hfa, hfd]
    exact h4
  have hk52 : Nat.clog 2 B ≤ 52 := Nat.clog_le_of_le_pow (by omega)
  have hkK : Nat.clog 2 D ≤ Nat.clog 2 B := Nat.clog_mono_right 2 (by omega)
  have hDle : D ≤ 2 ^ Nat.clog 2 D := Nat.le_pow_clog (by norm_num) D
  have hBle : B ≤ 2 ^ Nat.clog 2 B := Nat.le_pow_clog (by norm_num) B
  obtain ⟨hgD, hpD⟩ := pred_float (n := D) (k := Nat.clog 2 D) (by omega) (by omega) hDle
  constructor
  · rintro ⟨rf, hr, hres⟩
    obtain ⟨h0, h1, h2, h3⟩ := hval rf hr
    by_contra hge
    have hkeq : Nat.clog 2 D = Nat.clog 2 B := by omega
    have hle := below_pow (fl_float (mul_nonneg hr.2.1 hD.le)) hgD (clog_lt (by omega)) h1
    rw [hkeq] at hle
    obtain ⟨_, hpB⟩ := pred_float (n := B) (k := Nat.clog 2 B) (by omega) (by omega) hBle
    have hle' := fl_le (q := fl (rf * D) + a.toNat) (by linarith) hpB (by linarith)
    have hu : (0 : ℚ) < 2 ^ ((Nat.clog 2 B : ℤ) - 53) := by positivity
    have : ⌊fl (fl (rf * D) + a.toNat)⌋ < (B : ℤ) := by
      rw [Int.floor_lt]; push_cast; linarith
    omega
  · intro hlt
    have hr : UnitFloat (1 - 2 ^ (-53 : ℤ)) := by
      refine ⟨⟨2 ^ 53 - 1, -53, by norm_num, by norm_num⟩, by norm_num, by norm_num⟩
    refine ⟨_, hr, ?_⟩
    obtain ⟨h0, h1, h2, h3⟩ := hval _ hr
    have hDq : (D : ℚ) ≤ 2 ^ (Nat.clog 2 D : ℤ) := by rw [zpow_natCast]; exact_mod_cast hDle
    have hr2 : (D : ℚ) - 2 ^ ((Nat.clog 2 D : ℤ) - 53) ≤ fl ((1 - 2 ^ (-53 : ℤ)) * D) := by
      refine le_fl (mul_nonneg hr.2.1 hD.le) hpD ?_
      rw [sub_mul, one_mul, show (Nat.clog 2 D : ℤ) - 53 = -53 + Nat.clog 2 D by ring, zpow_add₀ (by norm_num)]
      have : (2 : ℚ) ^ (-53 : ℤ) * D ≤ 2 ^ (-53 : ℤ) * 2 ^ (Nat.clog 2 D : ℤ) := by gcongr
      linarith
    have hmono : (2 : ℚ) ^ ((Nat.clog 2 D : ℤ) - 53) ≤ 2 ^ ((Nat.clog 2 B : ℤ) - 54) := zpow_le_zpow_right₀ (by norm_num) (by omega)
    have hlo : 2 ^ (Nat.clog 2 B - 1) < B := by
      have := Nat.pow_pred_clog_lt_self (b := 2) (by norm_num) (show 1 < B by
        by_contra h'
        have : B = 1 := by omega
        rw [this] at hlt
        simp at hlt)
      exact this
    have htie := tie_up hk52 (by omega) hlo hBle
    have hle1 : (2 : ℚ) ^ ((Nat.clog 2 B : ℤ) - 54) ≤ 1 := zpow_le_one_of_nonpos₀ (by norm_num) (by omega)
    have hB1 : (1 : ℚ) ≤ B := by
      have : 1 ≤ B := by omega
      exact_mod_cast this
    have hge : (B : ℚ) ≤ fl (fl ((1 - 2 ^ (-53 : ℤ)) * D) + a.toNat) := by
      calc (B : ℚ) = fl ((B : ℚ) - 2 ^ ((Nat.clog 2 B : ℤ) - 54)) := htie.symm
        _ ≤ _ := fl_mono (by linarith) (by linarith)
    have heq : fl (fl ((1 - 2 ^ (-53 : ℤ)) * D) + a.toNat) = (B : ℚ) := le_antisymm h2 hge
    rw [heq, Int.floor_natCast] at h3
    exact_mod_cast h3

/-- The expected "between a and b" is refuted: `rbetween(1, 2)` can return 3 … -/
theorem C101_violated (big : ℚ → U64) : ∃ rf, UnitFloat rf ∧ rbetween big rf 1 2 = 3 := by
  obtain ⟨rf, hr, h⟩ := (C101_exact big (a := 1) (b := 2) (by decide) (by decide)).2 (by decide)
  exact ⟨rf, hr, BitVec.eq_of_toNat_eq (by rw [h]; rfl)⟩

/-- … and above 2^53 the result can lie below `a`. -/
theorem C101_below_violated (big : ℚ → U64) : ∃ rf, UnitFloat rf ∧
    rbetween big rf (BitVec.ofNat 64 (2 ^ 53 + 1)) (BitVec.ofNat 64 (2 ^ 53 + 1)) = BitVec.ofNat 64 (2 ^ 53) := by
  refine ⟨0, ⟨isFloat_zero, le_rfl, by norm_num⟩, ?_⟩
  have h53 : (BitVec.ofNat 64 (2 ^ 53 + 1) : U64).toNat = 2 ^ 53 + 1 := by decide
  have hf : fl (((2 ^ 53 + 1 : ℕ)) : ℚ) = 2 ^ 53 := by
    rw [fl_eq (e := 53) (by norm_num) (by norm_num)]
    have hq : (((2 ^ 53 + 1 : ℕ)) : ℚ) / 2 ^ ((53 : ℤ) - 52) = 2 ^ 52 + 1 / 2 := by norm_num
    have hfloor : ⌊((2 : ℚ) ^ 52 + 1 / 2)⌋ = 2 ^ 52 := by
      rw [Int.floor_eq_iff]; constructor <;> norm_num
    rw [hq]
    unfold nearestEven
    rw [hfloor]
    norm_num
  unfold rbetween
  dsimp only
  rw [h53, hf, zero_mul, fl_zero, zero_add, fl_self ⟨1, 53, by norm_num, by norm_num⟩]
  unfold toUint64
  rw [if_pos (by norm_num)]
  have : ⌊(2 : ℚ) ^ 53⌋ = 2 ^ 53 := by
    rw [Int.floor_eq_iff]; constructor <;> norm_num
  rw [this]
  rfl

/-- The seed test K draws, `rbetween(0, 1<<63)`: exactly the integer part of `rf * 2^63`, so below 2^63. -/
theorem C101_testK (big : ℚ → U64) {rf : ℚ} (hr : UnitFloat rf) :
    ((rbetween big rf 0 (1 <<< 63)).toNat : ℤ) = ⌊rf * 2 ^ 63⌋ ∧ (rbetween big rf 0 (1 <<< 63)).toNat < 2 ^ 63 := by
  have hd : ((1 <<< 63 : U64) - 0 + 1 : U64).toNat = 2 ^ 63 + 1 := by decide
  have hf : fl (((2 ^ 63 + 1 : ℕ)) : ℚ) = 2 ^ 63 := by
    rw [fl_eq (e := 63) (by norm_num) (by norm_num)]
    have hq : (((2 ^ 63 + 1 : ℕ)) : ℚ) / 2 ^ ((63 : ℤ) - 52) = 2 ^ 52 + 1 / 2048 := by norm_num
    have hfloor : ⌊((2 : ℚ) ^ 52 + 1 / 2048)⌋ = 2 ^ 52 := by
      rw [Int.floor_eq_iff]; constructor <;> norm_num
    rw [hq]
    unfold nearestEven
    rw [hfloor]
    norm_num
  have hs : IsFloat (rf * 2 ^ 63) := by
    obtain ⟨⟨m, e, hm, he⟩, _, _⟩ := hr
    refine ⟨m, e + 63, hm, ?_⟩
    rw [he, zpow_add₀ (by norm_num)]; norm_num; ring
  have hlt : rf * 2 ^ 63 < 2 ^ 63 := by nlinarith [hr.2.2]
  have h : ((rbetween big rf 0 (1 <<< 63)).toNat : ℤ) = ⌊rf * 2 ^ 63⌋ := by
    unfold rbetween
    dsimp only
    have h0 : fl (((0 : U64).toNat : ℕ) : ℚ) = 0 := by simp [fl]
    rw [h0, hd, hf, add_zero, fl_self hs, fl_self hs]
    exact toUint64_toNat (isFloat_nonneg hs) (by linarith)
  refine ⟨h, ?_⟩
  have : ⌊rf * 2 ^ 63⌋ < 2 ^ 63 := by rw [Int.floor_lt]; push_cast; exact hlt
  omega

/-- The hypotheses: a draw from 4 to 6 can come out 7, one from 1 to 6 cannot; a value of `Float64`. -/
example (big : ℚ → U64) : ∃ rf, UnitFloat rf ∧ (rbetween big rf 4 6).toNat = 7 :=
  (C101_exact big (a := 4) (b := 6) (by decide) (by decide)).2 (by decide)

example (big : ℚ → U64) {rf : ℚ} (hr : UnitFloat rf) : (rbetween big rf 1 6).toNat ≠ 7 := fun h =>
  absurd ((C101_exact big (a := 1) (b := 6) (by decide) (by decide)).1 ⟨rf, hr, h⟩) (by decide)

example : UnitFloat (1 / 2) := ⟨⟨1, -1, by norm_num, by norm_num⟩, by norm_num, by norm_num⟩

end Verif.Props
