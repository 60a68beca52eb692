import Verif.Spec.RBetween
import Verif.Model.RBetween
import Mathlib.Tactic.Linarith
import Mathlib.Tactic.Positivity
import Mathlib.Tactic.Ring
import Mathlib.Tactic.FieldSimp
import Mathlib.Tactic.NormNum

/-! Lemmas for C101. -/

namespace Verif.Lemmas.RBetween
open Verif.Spec.RBetween Verif.Model.RBetween

theorem isFloat_nonneg {f : ℚ} (h : IsFloat f) : 0 ≤ f := by
  obtain ⟨m, e, _, rfl⟩ := h
  positivity

theorem isFloat_zero : IsFloat 0 := ⟨0, 0, by decide, by simp⟩

/-- Floats not below `2^j` are multiples of `2^(j-52)`. -/
theorem grid {f : ℚ} (h : IsFloat f) {j : ℤ} (hj : (2 : ℚ) ^ j ≤ f) : ∃ n : ℤ, f = n * (2 : ℚ) ^ (j - 52) := by
  obtain ⟨m, e, hm, rfl⟩ := h
  have he : j - 52 ≤ e := by
    by_contra hlt
    have h1 : (2 : ℚ) ^ e ≤ 2 ^ (j - 53) := zpow_le_zpow_right₀ (by norm_num) (by omega)
    have h2 : (m : ℚ) < 2 ^ 53 := by exact_mod_cast hm
    have h3 : (m : ℚ) * 2 ^ e < 2 ^ 53 * 2 ^ (j - 53) := by
      calc (m : ℚ) * 2 ^ e ≤ m * 2 ^ (j - 53) := by gcongr
        _ < 2 ^ 53 * 2 ^ (j - 53) := by gcongr
    rw [show (2 : ℚ) ^ (53 : ℕ) = 2 ^ (53 : ℤ) by norm_num, ← zpow_add₀ (by norm_num)] at h3
    rw [show (53 : ℤ) + (j - 53) = j by ring] at h3
    linarith
  obtain ⟨k, hk⟩ := Int.eq_ofNat_of_zero_le (show 0 ≤ e - (j - 52) by omega)
  refine ⟨m * 2 ^ k, ?_⟩
  rw [show e = (k : ℤ) + (j - 52) by omega, zpow_add₀ (by norm_num)]
  push_cast
  rw [zpow_natCast]; ring

theorem isFloat_of_grid {n : ℤ} {e : ℤ} (h0 : 0 ≤ n) (h : n ≤ 2 ^ 53) : IsFloat (n * (2 : ℚ) ^ e) := by
  obtain ⟨m, rfl⟩ := Int.eq_ofNat_of_zero_le h0
  rcases Nat.lt_or_ge m (2 ^ 53) with h1 | h1
  · exact ⟨m, e, h1, by simp⟩
  · have : m = 2 ^ 53 := by omega
    subst this
    refine ⟨2 ^ 52, e + 1, by norm_num, ?_⟩
    rw [zpow_add₀ (by norm_num)]
    push_cast; ring

theorem isFloat_nat {n : ℕ} (h : n ≤ 2 ^ 53) : IsFloat (n : ℚ) := by
  have := isFloat_of_grid (n := (n : ℤ)) (e := 0) (by omega) (by exact_mod_cast h)
  simpa using this

theorem nearestEven_spec (t : ℚ) : |t - nearestEven t| ≤ 1 / 2 ∧ (|t - nearestEven t| = 1 / 2 → nearestEven t % 2 = 0) ∧ ⌊t⌋ ≤ nearestEven t ∧ nearestEven t ≤ ⌊t⌋ + 1 := by
  have h0 := Int.floor_le t
  have h1 := Int.lt_floor_add_one t
  unfold nearestEven
  split
  · next h =>
    rw [abs_of_nonneg (by linarith)]
    exact ⟨by linarith, fun h' => by linarith, by omega, by omega⟩
  · next h =>
    split
    · next h' =>
      push_cast
      rw [abs_of_nonpos (by linarith)]
      exact ⟨by linarith, fun h'' => by linarith, by omega, by omega⟩
    · next h' =>
      have : t - ⌊t⌋ = 1 / 2 := by linarith
      split
      · next h2 =>
        rw [abs_of_nonneg (by linarith)]
        exact ⟨by linarith, fun _ => h2, by omega, by omega⟩
      · next h2 =>
        push_cast
        rw [abs_of_nonpos (by linarith)]
        exact ⟨by linarith, fun _ => by omega, by omega, by omega⟩

/-- The binade of a positive number. -/
theorem binade {q : ℚ} (h : 0 < q) : (2 : ℚ) ^ (Int.log 2 q) ≤ q ∧ q < 2 ^ (Int.log 2 q + 1) := by
  have h1 := Int.zpow_log_le_self (b := 2) (by norm_num) h
  have h2 := Int.lt_zpow_succ_log_self (b := 2) (by norm_num) q
  exact ⟨by exact_mod_cast h1, by exact_mod_cast h2⟩

theorem log_eq {q : ℚ} {e : ℤ} (h1 : (2 : ℚ) ^ e ≤ q) (h2 : q < 2 ^ (e + 1)) : Int.log 2 q = e := by
  have h : 0 < q := lt_of_lt_of_le (by positivity) h1
  obtain ⟨h3, h4⟩ := binade h
  have a := (zpow_lt_zpow_iff_right₀ (a := (2 : ℚ)) (by norm_num)).1 (lt_of_le_of_lt h1 h4)
  have b := (zpow_lt_zpow_iff_right₀ (a := (2 : ℚ)) (by norm_num)).1 (lt_of_le_of_lt h3 h2)
  omega

theorem fl_eq {q : ℚ} {e : ℤ} (h1 : (2 : ℚ) ^ e ≤ q) (h2 : q < 2 ^ (e + 1)) : fl q = nearestEven (q / 2 ^ (e - 52)) * 2 ^ (e - 52) := by
  have h : 0 < q := lt_of_lt_of_le (by positivity) h1
  unfold fl
  rw [if_neg h.ne', log_eq h1 h2]

/-- The floats on either side. -/
theorem around {q : ℚ} (hq : 0 < q) {f : ℚ} (hf : IsFloat f) :
    f ≤ ⌊q / 2 ^ (Int.log 2 q - 52)⌋ * 2 ^ (Int.log 2 q - 52) ∨ q ≤ f ∧ ∃ n : ℤ, f = n * 2 ^ (Int.log 2 q - 52) := by
  obtain ⟨h1, h2⟩ := binade hq
  set e := Int.log 2 q
  have hu : (0 : ℚ) < 2 ^ (e - 52) := by positivity
  have hp : (2 : ℚ) ^ e = ((2 ^ 52 : ℤ) : ℚ) * 2 ^ (e - 52) := by
    rw [show e = 52 + (e - 52) by ring, zpow_add₀ (by norm_num)]
    norm_num
  rcases lt_or_ge f ((2 : ℚ) ^ e) with h | h
  · left
    refine le_trans h.le ?_
    rw [hp]
    gcongr
    rw [Int.le_floor, le_div_iff₀ hu, ← hp]
    exact h1
  · obtain ⟨n, hn⟩ := grid hf h
    rcases le_or_gt f q with h' | h'
    · left
      rw [hn]
      gcongr
      rw [Int.le_floor, le_div_iff₀ hu, ← hn]
      exact h'
    · right; exact ⟨h'.le, n, hn⟩

/-- `fl` rounds to nearest, ties to even. -/
theorem fl_rounded {q : ℚ} (hq : 0 ≤ q) : IsRounded q (fl q) := by
  rcases hq.eq_or_lt with rfl | hq
  · have : fl 0 = 0 := by simp [fl]
    rw [this]
    refine ⟨isFloat_zero, fun f _ => by simp, fun f _ hne h => ?_⟩
    simp at h
    exact absurd h hne
  · obtain ⟨h1, h2⟩ := binade hq
    have hfl : fl q = nearestEven (q / 2 ^ (Int.log 2 q - 52)) * 2 ^ (Int.log 2 q - 52) := by unfold fl; rw [if_neg hq.ne']
    have haround := fun f hf => around hq (f := f) hf
    set e := Int.log 2 q
    have hu : (0 : ℚ) < 2 ^ (e - 52) := by positivity
    have hp : (2 : ℚ) ^ e = ((2 ^ 52 : ℤ) : ℚ) * 2 ^ (e - 52) := by
      rw [show e = 52 + (e - 52) by ring, zpow_add₀ (by norm_num)]; norm_num
    have hp1 : (2 : ℚ) ^ (e + 1) = ((2 ^ 53 : ℤ) : ℚ) * 2 ^ (e - 52) := by
      rw [show e + 1 = 53 + (e - 52) by ring, zpow_add₀ (by norm_num)]; norm_num
    obtain ⟨n1, n2, n3, n4⟩ := nearestEven_spec (q / 2 ^ (e - 52))
    set t := q / 2 ^ (e - 52) with ht
    have hqt : q = t * 2 ^ (e - 52) := by rw [ht]; field_simp
    have hlo : (2 ^ 52 : ℤ) ≤ ⌊t⌋ := by
      rw [Int.le_floor, ht, le_div_iff₀ hu, ← hp]; exact h1
    have hhi : ⌊t⌋ < (2 ^ 53 : ℤ) := by
      rw [Int.floor_lt, ht, div_lt_iff₀ hu, ← hp1]; exact h2
    have hff := Int.floor_le t
    have hfl1 := Int.lt_floor_add_one t
    rw [hfl]
    set N := nearestEven t
    have hdist : |q - N * 2 ^ (e - 52)| = |t - N| * 2 ^ (e - 52) := by
      rw [hqt, ← sub_mul, abs_mul, abs_of_pos hu]
    -- every float is at least as far
    have key : ∀ f, IsFloat f → |t - N| * 2 ^ (e - 52) ≤ |q - f| ∧ (|q - f| = |t - N| * 2 ^ (e - 52) → f ≠ N * 2 ^ (e - 52) → |t - N| = 1 / 2) := by
      intro f hf
      rcases haround f hf with h | ⟨h, n, hn⟩
      · -- at or below the lower neighbour
        have hd : (t - ⌊t⌋) * 2 ^ (e - 52) ≤ q - f := by rw [sub_mul, ← hqt]; linarith
        have hnn : 0 ≤ q - f := le_trans (mul_nonneg (by linarith) hu.le) hd
        rw [abs_of_nonneg hnn]
        have hcmp : |t - N| ≤ t - ⌊t⌋ := by
          rcases (by omega : N = ⌊t⌋ ∨ N = ⌊t⌋ + 1) with h' | h'
          · rw [h', abs_of_nonneg (by linarith)]
          · rw [h']; push_cast
            rw [h'] at n1; push_cast at n1
            rw [abs_of_nonpos (by linarith)] at n1 ⊢
            linarith
        refine ⟨le_trans (by gcongr) hd, fun heq hne => ?_⟩
        have e1 : |t - N| = t - ⌊t⌋ := by
          have : (t - ⌊t⌋) * 2 ^ (e - 52) ≤ |t - N| * 2 ^ (e - 52) := by rw [← heq]; exact hd
          exact le_antisymm hcmp (le_of_mul_le_mul_right this hu)
        rcases (by omega : N = ⌊t⌋ ∨ N = ⌊t⌋ + 1) with h' | h'
        · exfalso
          apply hne
          rw [h']
          rw [e1, sub_mul, ← hqt] at heq
          linarith
        · rw [h'] at e1 n1 ⊢; push_cast at e1 n1 ⊢
          rw [abs_of_nonpos (by linarith)] at e1 n1 ⊢
          linarith
      · -- at or above
        have htn : t ≤ n := by
          rw [ht, div_le_iff₀ hu, ← hn]; exact h
        have hd : q - f = (t - n) * 2 ^ (e - 52) := by rw [sub_mul, ← hqt, hn]
        rw [hd, abs_mul, abs_of_pos hu, abs_of_nonpos (a := t - n) (by linarith)]
        rcases htn.eq_or_lt with heq0 | hlt
        · -- q itself is a float
          have hfl0 : ⌊t⌋ = n := by rw [heq0, Int.floor_intCast]
          have hN : N = n := by
            rcases (by omega : N = ⌊t⌋ ∨ N = ⌊t⌋ + 1) with h' | h'
            · omega
            · exfalso
              rw [h', hfl0, heq0] at n1
              push_cast at n1
              rw [abs_of_nonpos (by linarith)] at n1
              linarith
          rw [hN, heq0]
          refine ⟨by simp, fun _ hne => absurd hn hne⟩
        · have hge : ⌊t⌋ + 1 ≤ n := by
            have : ⌊t⌋ < n := Int.floor_lt.2 hlt
            omega
          have hge' : ((⌊t⌋ : ℚ)) + 1 ≤ n := by exact_mod_cast hge
          have hcmp : |t - N| ≤ ⌊t⌋ + 1 - t := by
            rcases (by omega : N = ⌊t⌋ ∨ N = ⌊t⌋ + 1) with h' | h'
            · rw [h'] at n1 ⊢
              rw [abs_of_nonneg (by linarith)] at n1 ⊢
              linarith
            · rw [h']; push_cast
              rw [abs_of_nonpos (by linarith)]; linarith
          refine ⟨by gcongr; linarith, fun heq hne => ?_⟩
          have heq' : -(t - n) = |t - N| := mul_right_cancel₀ hu.ne' heq
          rcases (by omega : N = ⌊t⌋ ∨ N = ⌊t⌋ + 1) with h' | h'
          · rw [h'] at heq' n1 ⊢
            rw [abs_of_nonneg (by linarith)] at heq' n1 ⊢
            linarith
          · exfalso
            apply hne
            rw [hn, h']
            have : (n : ℚ) = ⌊t⌋ + 1 := by linarith
            have : n = ⌊t⌋ + 1 := by exact_mod_cast this
            rw [this]
    refine ⟨isFloat_of_grid (by omega) (by omega), fun f hf => by rw [hdist]; exact (key f hf).1, fun f hf hne heq => ?_⟩
    rw [hdist] at heq
    have heven := n2 ((key f hf).2 heq hne)
    obtain ⟨m, hm⟩ := Int.eq_ofNat_of_zero_le (show 0 ≤ N by omega)
    rcases Nat.lt_or_ge m (2 ^ 53) with hlt | hge
    · exact ⟨m, e - 52, by omega, hlt, by omega, by rw [hm]; push_cast; rfl⟩
    · have : m = 2 ^ 53 := by omega
      refine ⟨2 ^ 52, e - 52 + 1, by norm_num, by norm_num, by norm_num, ?_⟩
      rw [hm, this, zpow_add₀ (by norm_num)]
      push_cast; ring

theorem fl_float {q : ℚ} (h : 0 ≤ q) : IsFloat (fl q) := (fl_rounded h).1

theorem fl_le {q f : ℚ} (h : 0 ≤ q) (hf : IsFloat f) (hq : q ≤ f) : fl q ≤ f := by
  by_contra hlt
  have := (fl_rounded h).2.1 f hf
  rw [abs_of_nonpos (by linarith), abs_of_nonpos (by linarith)] at this
  linarith

theorem le_fl {q f : ℚ} (h : 0 ≤ q) (hf : IsFloat f) (hq : f ≤ q) : f ≤ fl q := by
  by_contra hlt
  have := (fl_rounded h).2.1 f hf
  rw [abs_of_nonneg (by linarith), abs_of_nonneg (by linarith)] at this
  linarith

theorem fl_self {f : ℚ} (hf : IsFloat f) : fl f = f :=
  le_antisymm (fl_le (isFloat_nonneg hf) hf le_rfl) (le_fl (isFloat_nonneg hf) hf le_rfl)

theorem fl_mono {p q : ℚ} (h : 0 ≤ p) (hpq : p ≤ q) : fl p ≤ fl q := by
  by_contra hlt
  have h1 := (fl_rounded h).2.1 (fl q) (fl_float (le_trans h hpq))
  have h2 := (fl_rounded (le_trans h hpq)).2.1 (fl p) (fl_float h)
  have h1' := (abs_le.1 h1).1
  have : p = q := by
    rcases hpq.eq_or_lt with h' | h'
    · exact h'
    · exfalso
      -- p is not below the middle, q not above it
      have a : (fl p + fl q) / 2 ≤ p := by
        by_contra hc
        rcases le_or_gt p (fl q) with h3 | h3
        · rw [abs_of_nonpos (by linarith), abs_of_nonpos (by linarith)] at h1; linarith
        · rw [abs_of_nonpos (by linarith), abs_of_nonneg (by linarith)] at h1; linarith
      have b : q ≤ (fl p + fl q) / 2 := by
        by_contra hc
        rcases le_or_gt q (fl p) with h3 | h3
        · rw [abs_of_nonneg (by linarith), abs_of_nonpos (by linarith)] at h2; linarith
        · rw [abs_of_nonneg (by linarith), abs_of_nonneg (by linarith)] at h2; linarith
      linarith
  rw [this] at hlt
  exact hlt le_rfl

/-- Floats below 2^k are at most 2^k - 2^(k-53). -/
theorem below_pow {f : ℚ} (hf : IsFloat f) {k : ℤ} {x : ℚ} (hx : ∃ n : ℤ, x = n * (2 : ℚ) ^ (k - 53)) (hx1 : (2 : ℚ) ^ (k - 1) < x) (h : f < x) : f ≤ x - 2 ^ (k - 53) := by
  obtain ⟨n, hn⟩ := hx
  have hu : (0 : ℚ) < 2 ^ (k - 53) := by positivity
  rcases lt_or_ge f ((2 : ℚ) ^ (k - 1)) with h1 | h1
  · have hg : ∃ m : ℤ, (2 : ℚ) ^ (k - 1) = m * (2 : ℚ) ^ (k - 53) := ⟨2 ^ 52, by
      rw [show k - 1 = 52 + (k - 53) by ring, zpow_add₀ (by norm_num)]; norm_num⟩
    obtain ⟨m, hm⟩ := hg
    rw [hm, hn] at hx1
    have : m < n := by
      have := lt_of_mul_lt_mul_right hx1 hu.le
      exact_mod_cast this
    have : (m : ℚ) + 1 ≤ n := by exact_mod_cast this
    have : ((m : ℚ) + 1) * 2 ^ (k - 53) ≤ n * 2 ^ (k - 53) := by gcongr
    rw [hn]; rw [hm] at h1
    linarith
  · obtain ⟨m, hm⟩ := grid hf h1
    rw [show k - 1 - 52 = k - 53 by ring] at hm
    rw [hm, hn] at h
    have : m < n := by
      have := lt_of_mul_lt_mul_right h hu.le
      exact_mod_cast this
    have : (m : ℚ) + 1 ≤ n := by exact_mod_cast this
    have : ((m : ℚ) + 1) * 2 ^ (k - 53) ≤ n * 2 ^ (k - 53) := by gcongr
    rw [hn, hm]; linarith

/-- Scaling a float by less than one gives less, rounded or not. -/
theorem scaled_lt {rf d : ℚ} (hr : UnitFloat rf) (hd : IsFloat d) (h0 : 0 < d) : fl (rf * d) < d := by
  obtain ⟨hr0, hr1, hr2⟩ := hr
  have hrf : rf ≤ 1 - 2 ^ (-53 : ℤ) := by
    have := below_pow hr0 (k := 0) (x := 1) ⟨2 ^ 53, by norm_num⟩ (by norm_num) hr2
    simpa using this
  obtain ⟨h1, h2⟩ := binade h0
  set e := Int.log 2 d
  have hnn : 0 ≤ rf * d := mul_nonneg hr1 h0.le
  rcases h1.eq_or_lt with h1 | h1
  · -- a power of two
    have hp : IsFloat (d - 2 ^ (e - 53)) := by
      have := isFloat_of_grid (n := 2 ^ 53 - 1) (e := e - 53) (by norm_num) (by norm_num)
      convert this using 1
      rw [← h1, show e = 53 + (e - 53) by ring, zpow_add₀ (by norm_num)]
      push_cast
      rw [show (53 : ℤ) + (e - 53) - 53 = e - 53 by ring]
      norm_num
      ring
    have hle : rf * d ≤ d - 2 ^ (e - 53) := by
      have : rf * d ≤ (1 - 2 ^ (-53 : ℤ)) * d := by gcongr
      refine le_trans this (le_of_eq ?_)
      rw [sub_mul, one_mul, ← h1, ← zpow_add₀ (by norm_num)]
      congr 2; ring
    have hu : (0 : ℚ) < 2 ^ (e - 53) := by positivity
    linarith [fl_le hnn hp hle]
  · -- the float below is less than half a unit closer
    obtain ⟨n, hn⟩ := grid hd h1.le
    have hu : (0 : ℚ) < 2 ^ (e - 52) := by positivity
    have hn1 : (2 : ℚ) ^ e = ((2 ^ 52 : ℤ) : ℚ) * 2 ^ (e - 52) := by
      rw [show e = 52 + (e - 52) by ring, zpow_add₀ (by norm_num)]; norm_num
    have hn2 : (2 : ℚ) ^ (e + 1) = ((2 ^ 53 : ℤ) : ℚ) * 2 ^ (e - 52) := by
      rw [show e + 1 = 53 + (e - 52) by ring, zpow_add₀ (by norm_num)]; norm_num
    have hlo : (2 ^ 52 : ℤ) < n := by
      rw [hn, hn1] at h1
      exact_mod_cast lt_of_mul_lt_mul_right h1 hu.le
    have hhi : n < (2 ^ 53 : ℤ) := by
      rw [hn, hn2] at h2
      exact_mod_cast lt_of_mul_lt_mul_right h2 hu.le
    have hp : IsFloat (d - 2 ^ (e - 52)) := by
      have := isFloat_of_grid (n := n - 1) (e := e - 52) (by omega) (by omega)
      convert this using 1
      rw [hn]; push_cast; ring
    have hle : rf * d < d - 2 ^ (e - 53) := by
      have : rf * d ≤ (1 - 2 ^ (-53 : ℤ)) * d := by gcongr
      refine lt_of_le_of_lt this ?_
      rw [sub_mul, one_mul]
      have : (2 : ℚ) ^ (e - 53) < 2 ^ (-53 : ℤ) * d := by
        rw [show e - 53 = -53 + e by ring, zpow_add₀ (by norm_num)]
        gcongr
      linarith
    have hhalf : (2 : ℚ) ^ (e - 52) = 2 * 2 ^ (e - 53) := by
      rw [show e - 52 = 1 + (e - 53) by ring, zpow_add₀ (by norm_num)]; norm_num
    by_contra hge
    rw [not_lt] at hge
    have hnear := (fl_rounded hnn).2.1 _ hp
    rw [abs_of_nonpos (by linarith)] at hnear
    rcases le_or_gt (rf * d) (d - 2 ^ (e - 52)) with h3 | h3
    · linarith [fl_le hnn hp h3]
    · rw [abs_of_nonneg (by linarith)] at hnear
      linarith

/-- `rf * fl D`, rounded, is below `D` although `fl D` may be above. -/
theorem scaled_lt' {rf D : ℚ} (hr : UnitFloat rf) (h0 : 0 < D) (hd : 0 < fl D) : fl (rf * fl D) < D := by
  have h1 := scaled_lt hr (fl_float h0.le) hd
  have hf : IsFloat (fl (rf * fl D)) := fl_float (mul_nonneg hr.2.1 hd.le)
  by_contra hge
  rw [not_lt] at hge
  have := fl_le h0.le hf hge
  linarith

end Verif.Lemmas.RBetween
