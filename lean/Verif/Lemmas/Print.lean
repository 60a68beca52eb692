import Verif.Model.Print
import Verif.Spec.Print
import Verif.Lemmas.RBetween
import Mathlib.Tactic.Linarith
import Mathlib.Tactic.FieldSimp
import Mathlib.Tactic.Positivity

namespace Verif.Lemmas.Print
open Verif Verif.Model.Print Verif.Spec.Print
open Verif.Model.RBetween (fl nearestEven)
open Verif.Spec.RBetween (IsFloat)
open Verif.Lemmas.RBetween

theorem fl_nonneg {q : ℚ} (h : 0 ≤ q) : 0 ≤ fl q := isFloat_nonneg (fl_float h)

theorem fl_rel {q : ℚ} (h : 0 ≤ q) : |fl q - q| ≤ 1 / 2 ^ 53 * q := by
  rcases h.eq_or_lt with rfl | hq
  · simp [fl]
  · obtain ⟨h1, h2⟩ := binade hq
    rw [fl_eq h1 h2]
    generalize hE : Int.log 2 q = E at h1 h2
    have hu : (0 : ℚ) < 2 ^ (E - 52) := by positivity
    have hs := (nearestEven_spec (q / 2 ^ (E - 52))).1
    have e1 : (nearestEven (q / 2 ^ (E - 52)) : ℚ) * 2 ^ (E - 52) - q = -(q / 2 ^ (E - 52) - nearestEven (q / 2 ^ (E - 52))) * 2 ^ (E - 52) := by
      field_simp; ring
    rw [e1, abs_mul, abs_neg, abs_of_pos hu]
    have e2 : (2 : ℚ) ^ E = 2 ^ (E - 52) * 2 ^ 52 := by
      rw [show (2 : ℚ) ^ 52 = 2 ^ (52 : ℤ) by norm_num, ← zpow_add₀ (by norm_num)]; congr 1; ring
    rw [e2] at h1
    nlinarith

theorem near_refl (n : Nat) {x : ℚ} (h : 0 ≤ x) : Near n x x := by
  unfold Near
  rw [sub_self, abs_zero]; positivity

theorem near_iff {n : Nat} {x y : ℚ} : Near n x y ↔ x - n * (1 / 2 ^ 52) * x ≤ y ∧ y ≤ x + n * (1 / 2 ^ 52) * x := by
  unfold Near
  rw [abs_le]
  constructor
  · rintro ⟨a, b⟩; exact ⟨by linarith, by linarith⟩
  · rintro ⟨a, b⟩; exact ⟨by linarith, by linarith⟩

theorem near_mono {m n : Nat} (h : m ≤ n) {x y : ℚ} (hx : 0 ≤ x) (hn : Near m x y) : Near n x y := by
  unfold Near at *
  have : (m : ℚ) ≤ n := by exact_mod_cast h
  have : (m : ℚ) * (1 / 2 ^ 52) * x ≤ n * (1 / 2 ^ 52) * x := by gcongr
  linarith

theorem near_nonneg {n : Nat} {x y : ℚ} (hx : 0 ≤ x) (hn : n ≤ 1000) (h : Near n x y) : 0 ≤ y := by
  obtain ⟨a, _⟩ := near_iff.1 h
  have h2 : (n : ℚ) ≤ 1000 := by exact_mod_cast hn
  have : (n : ℚ) * (1 / 2 ^ 52) * x ≤ 1000 * (1 / 2 ^ 52) * x := by gcongr
  nlinarith

/-- One more rounding. -/
theorem near_fl {n : Nat} {x y : ℚ} (hx : 0 ≤ x) (hn : n ≤ 1000) (h : Near n x y) : Near (n + 1) x (fl y) := by
  have hy := near_nonneg hx hn h
  obtain ⟨a, b⟩ := near_iff.1 h
  have hr := abs_le.1 (fl_rel hy)
  have h2 : (n : ℚ) ≤ 1000 := by exact_mod_cast hn
  have h3 : (n : ℚ) * (1 / 2 ^ 52) * x ≤ 1000 * (1 / 2 ^ 52) * x := by gcongr
  rw [near_iff]
  push_cast
  constructor
  · nlinarith [hr.1]
  · nlinarith [hr.2]

theorem near_add {n : Nat} {x y x' y' : ℚ} (h : Near n x y) (h' : Near n x' y') : Near n (x + x') (y + y') := by
  rw [near_iff] at *
  obtain ⟨a, b⟩ := h
  obtain ⟨c, d⟩ := h'
  constructor <;> linarith

theorem near_mul {n : Nat} {x y c : ℚ} (hc : 0 ≤ c) (h : Near n x y) : Near n (x * c) (y * c) := by
  rw [near_iff] at *
  obtain ⟨a, b⟩ := h
  constructor
  · have := mul_le_mul_of_nonneg_right a hc; linarith
  · have := mul_le_mul_of_nonneg_right b hc; linarith

/-- A quotient of approximate numbers. -/
theorem near_div {m n : Nat} {x y p q : ℚ} (hx : 0 ≤ x) (hp : 0 < p) (hm : m ≤ 100) (hn : n ≤ 100) (h : Near m x y) (h' : Near n p q) : 0 < q ∧ Near (m + n + 1) (x / p) (y / q) := by
  have hy := near_nonneg hx (by omega) h
  obtain ⟨a, b⟩ := near_iff.1 h
  obtain ⟨c, d⟩ := near_iff.1 h'
  have hm' : (m : ℚ) ≤ 100 := by exact_mod_cast hm
  have hn' : (n : ℚ) ≤ 100 := by exact_mod_cast hn
  have hm0 : (0 : ℚ) ≤ m := by positivity
  have hn0 : (0 : ℚ) ≤ n := by positivity
  have hq : 0 < q := by
    have : (n : ℚ) * (1 / 2 ^ 52) * p ≤ 100 * (1 / 2 ^ 52) * p := by gcongr
    nlinarith
  refine ⟨hq, ?_⟩
  have hz : (0 : ℚ) ≤ x / p := by positivity
  have e1 : x = x / p * p := by field_simp
  rw [near_iff]
  generalize hw : x / p = z at *
  subst e1
  push_cast
  have hzp : 0 ≤ z * p := by positivity
  have hmn : (m : ℚ) * n ≤ 100 * 100 := mul_le_mul hm' hn' hn0 (by norm_num)
  constructor
  · rw [le_div_iff₀ hq]
    have s1 : (z - (m + n + 1) * (1 / 2 ^ 52) * z) * q ≤ (z - (m + n + 1) * (1 / 2 ^ 52) * z) * (p + n * (1 / 2 ^ 52) * p) := by
      apply mul_le_mul_of_nonneg_left d
      have : ((m : ℚ) + n + 1) * (1 / 2 ^ 52) * z ≤ 201 * (1 / 2 ^ 52) * z := by gcongr; linarith
      linarith
    have s2 : (z - (m + n + 1) * (1 / 2 ^ 52) * z) * (p + n * (1 / 2 ^ 52) * p) =
        z * p - m * (1 / 2 ^ 52) * (z * p) - (1 / 2 ^ 52 + (m * n + n * n + n) * (1 / 2 ^ 52) * (1 / 2 ^ 52)) * (z * p) := by ring
    have s3 : 0 ≤ (1 / 2 ^ 52 + ((m : ℚ) * n + n * n + n) * (1 / 2 ^ 52) * (1 / 2 ^ 52)) * (z * p) := by positivity
    linarith
  · rw [div_le_iff₀ hq]
    have s1 : (z + (m + n + 1) * (1 / 2 ^ 52) * z) * (p - n * (1 / 2 ^ 52) * p) ≤ (z + (m + n + 1) * (1 / 2 ^ 52) * z) * q :=
      mul_le_mul_of_nonneg_left c (by positivity)
    have s2 : (z + (m + n + 1) * (1 / 2 ^ 52) * z) * (p - n * (1 / 2 ^ 52) * p) =
        z * p + m * (1 / 2 ^ 52) * (z * p) + (1 / 2 ^ 52) * (1 - (m * n + n * n + n) * (1 / 2 ^ 52)) * (z * p) := by ring
    have hnn : (n : ℚ) * n ≤ 100 * 100 := mul_le_mul hn' hn' hn0 (by norm_num)
    have s3 : 0 ≤ (1 / 2 ^ 52) * (1 - ((m : ℚ) * n + n * n + n) * (1 / 2 ^ 52)) * (z * p) := by
      apply mul_nonneg _ hzp
      apply mul_nonneg (by positivity)
      have : ((m : ℚ) * n + n * n + n) * (1 / 2 ^ 52) ≤ 20100 * (1 / 2 ^ 52) := by gcongr; linarith
      norm_num at this ⊢
      linarith
    linarith

theorem ofNat_exact {n : Nat} (h : n ≤ 2 ^ 53) : ofNat n = n := fl_self (isFloat_nat h)

theorem ofNat_near (n : Nat) : Near 1 n (ofNat n) := near_fl (n := 0) (by positivity) (by omega) (near_refl 0 (by positivity))

/-! ## Time -/

theorem seconds_near (d : Nat) (hd : d < 2 ^ 63) : Near 2 ((d : ℚ) / 10 ^ 9) (seconds d) := by
  unfold seconds
  have h1 : d / 10 ^ 9 ≤ 2 ^ 53 := by omega
  have h2 : d % 10 ^ 9 ≤ 2 ^ 53 := by omega
  rw [ofNat_exact h1, ofNat_exact h2]
  have e : (d : ℚ) / 10 ^ 9 = ((d / 10 ^ 9 : Nat) : ℚ) + ((d % 10 ^ 9 : Nat) : ℚ) / 10 ^ 9 := by
    have : (d : ℚ) = 10 ^ 9 * ((d / 10 ^ 9 : Nat) : ℚ) + ((d % 10 ^ 9 : Nat) : ℚ) := by
      have := Nat.div_add_mod d (10 ^ 9)
      exact_mod_cast this.symm
    rw [this]; field_simp
  rw [e]
  exact near_fl (by positivity) (by omega) (near_add (near_refl 1 (by positivity)) (near_fl (n := 0) (by positivity) (by omega) (near_refl 0 (by positivity))))

theorem seconds_ge_one (d : Nat) (hd : d < 2 ^ 63) : 10 ^ 9 ≤ d → 1 ≤ seconds d := by
  intro h
  unfold seconds
  have h1 : d / 10 ^ 9 ≤ 2 ^ 53 := by omega
  rw [ofNat_exact h1]
  have h3 : (1 : ℚ) ≤ ((d / 10 ^ 9 : Nat) : ℚ) := by exact_mod_cast (by omega : 1 ≤ d / 10 ^ 9)
  have h4 : 0 ≤ fl (ofNat (d % 10 ^ 9) / 10 ^ 9) := fl_nonneg (div_nonneg (fl_nonneg (by positivity)) (by positivity))
  exact le_fl (by linarith) (by simpa using isFloat_nat (n := 1) (by norm_num)) (by linarith)

theorem milli : (1 : ℚ) / 1000 ≤ fl (1 / 1000) := by
  rw [fl_eq (e := -10) (by norm_num) (by norm_num)]
  have : nearestEven ((1 : ℚ) / 1000 / 2 ^ ((-10 : ℤ) - 52)) = 4611686018427388 := by
    have hf : ⌊(1 : ℚ) / 1000 / 2 ^ ((-10 : ℤ) - 52)⌋ = 4611686018427387 := by
      rw [Int.floor_eq_iff]; norm_num
    unfold nearestEven
    rw [hf]
    norm_num
  rw [this]
  norm_num

theorem seconds_ge_milli (d : Nat) (h : 10 ^ 6 ≤ d) (hd : d < 10 ^ 9) : 1 / 1000 ≤ seconds d := by
  unfold seconds
  rw [Nat.div_eq_of_lt hd, Nat.mod_eq_of_lt hd, ofNat_exact (by omega), ofNat_exact (by omega)]
  have h1 : (10 ^ 6 : ℚ) ≤ d := by exact_mod_cast h
  have h2 : (1 : ℚ) / 1000 ≤ d / 10 ^ 9 := by
    rw [le_div_iff₀ (by norm_num)]; linarith
  have h3 := fl_mono (by norm_num) h2
  have h4 : IsFloat (fl ((d : ℚ) / 10 ^ 9)) := fl_float (by positivity)
  rw [show ((0 : Nat) : ℚ) = 0 by norm_num, zero_add, fl_self h4]
  exact le_trans milli h3

/-- The unit and the value. -/
theorem cvt_seconds (d : Nat) (hd : d < 2 ^ 63) :
    (10 ^ 9 ≤ d → ∃ v, cvt (seconds d) = (v, "s") ∧ 1 ≤ v ∧ Near 4 ((d : ℚ) / 10 ^ 9) v) ∧
    (10 ^ 6 ≤ d → d < 10 ^ 9 → ∃ v, cvt (seconds d) = (v, "ms") ∧ 1 ≤ v ∧ v ≤ 1000 ∧ Near 4 ((d : ℚ) / 10 ^ 6) v) ∧
    (d < 10 ^ 6 → ∃ v, cvt (seconds d) = (v, "us") ∧ v ≤ 1000 ∧ Near 4 ((d : ℚ) / 10 ^ 3) v) := by
  have hn := seconds_near d hd
  have hx : (0 : ℚ) ≤ (d : ℚ) / 10 ^ 9 := by positivity
  have hn3 := near_fl (by positivity) (by omega) (near_mul (c := 1000) (by norm_num) hn)
  have e3 : (d : ℚ) / 10 ^ 9 * 1000 = (d : ℚ) / 10 ^ 6 := by field_simp; norm_num
  rw [e3] at hn3
  have hlt1 : d < 10 ^ 9 → seconds d < 1 := by
    intro h
    have h1 : (d : ℚ) ≤ 10 ^ 9 - 1 := by
      have : d + 1 ≤ 10 ^ 9 := h
      have : (d : ℚ) + 1 ≤ 10 ^ 9 := by exact_mod_cast this
      linarith
    have h2 : (d : ℚ) / 10 ^ 9 ≤ (10 ^ 9 - 1) / 10 ^ 9 := by gcongr
    have h3 := (near_iff.1 hn).2
    norm_num at h2 h3 ⊢
    linarith
  have hs0 : 0 ≤ seconds d := near_nonneg hx (by omega) hn
  refine ⟨fun h => ?_, fun h h' => ?_, fun h => ?_⟩
  · have h1 := seconds_ge_one d hd h
    exact ⟨seconds d, by unfold cvt; rw [if_neg (by linarith)], h1, near_mono (by omega) hx hn⟩
  · have h1 := seconds_ge_milli d h h'
    have h2 : 1 ≤ fl (seconds d * 1000) := le_fl (by positivity) (by simpa using isFloat_nat (n := 1) (by norm_num)) (by linarith)
    refine ⟨fl (seconds d * 1000), ?_, h2, ?_, near_mono (by omega) (by positivity) hn3⟩
    · unfold cvt
      rw [if_pos (hlt1 h')]
      dsimp only
      rw [if_neg (by linarith)]
    · exact fl_le (by positivity) (by simpa using isFloat_nat (n := 1000) (by norm_num)) (by have := hlt1 h'; linarith)
  · have h1 : (d : ℚ) ≤ 10 ^ 6 - 1 := by
      have : d + 1 ≤ 10 ^ 6 := h
      have : (d : ℚ) + 1 ≤ 10 ^ 6 := by exact_mod_cast this
      linarith
    have h2 : (d : ℚ) / 10 ^ 6 ≤ (10 ^ 6 - 1) / 10 ^ 6 := by gcongr
    have h4 : fl (seconds d * 1000) < 1 := by
      have h3 := (near_iff.1 hn3).2
      norm_num at h2 h3 ⊢
      linarith
    have hn4 := near_fl (by positivity) (by omega) (near_mul (c := 1000) (by norm_num) hn3)
    have e4 : (d : ℚ) / 10 ^ 6 * 1000 = (d : ℚ) / 10 ^ 3 := by field_simp; norm_num
    rw [e4] at hn4
    refine ⟨fl (fl (seconds d * 1000) * 1000), ?_, ?_, hn4⟩
    · unfold cvt
      rw [if_pos (hlt1 (by omega))]
      dsimp only
      rw [if_pos h4]
    · have h0 : 0 ≤ fl (seconds d * 1000) := fl_nonneg (by positivity)
      exact fl_le (by positivity) (by simpa using isFloat_nat (n := 1000) (by norm_num)) (by linarith)

end Verif.Lemmas.Print
