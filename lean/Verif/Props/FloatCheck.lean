import Verif.Props.Smhasher
import Mathlib.Data.Real.Sqrt

/-! # C75 in `float64`: sharpness of the report; C110: the search for the confidence bound -/

namespace Verif.Props
open Verif Verif.Model.Smhasher Verif.Spec.Smhasher Verif.Lemmas.Smhasher
open Verif.Spec.FloatR Verif.Lemmas.FloatR

/-- C75. The rounding used in the model is IEEE 754's round to nearest, ties to even. -/
theorem C75_rounding (q : ℝ) (h : 0 ≤ q) : IsRounded q (Model.FloatR.fl q) := fl_rounded h

/-- Bounds for a rounded number. -/
theorem fl_between {q a b : ℝ} (ha : 0 ≤ a) (h1 : a ≤ q) (h2 : q ≤ b) :
    a * (1 - 1 / 2 ^ 53) ≤ Model.FloatR.fl q ∧ Model.FloatR.fl q ≤ b * (1 + 1 / 2 ^ 53) ∧ 0 ≤ Model.FloatR.fl q := by
  have hq : 0 ≤ q := le_trans ha h1
  obtain ⟨r1, r2⟩ := abs_le.1 (fl_rel hq)
  refine ⟨?_, ?_, fl_nonneg hq⟩
  · have : a * (1 - 1 / 2 ^ 53) ≤ q * (1 - 1 / 2 ^ 53) := by gcongr
    linarith
  · have : q * (1 + 1 / 2 ^ 53) ≤ b * (1 + 1 / 2 ^ 53) := by gcongr
    linarith

theorem pairs_eq' {n : ℕ} (hn : n ≤ 10 ^ 9) :
    (BitVec.ofInt 64 (n : ℤ) * BitVec.ofInt 64 ((n : ℤ) - 1) : U64).toInt.tdiv 2 = (n : ℤ) * ((n : ℤ) - 1) / 2 := by
  have h0 : (0 : ℤ) ≤ (n : ℤ) * ((n : ℤ) - 1) := by
    rcases Nat.eq_zero_or_pos n with rfl | h
    · simp
    · exact mul_nonneg (by omega) (by omega)
  have h1 : (n : ℤ) * ((n : ℤ) - 1) ≤ 10 ^ 18 := by
    have h1 : (n : ℤ) ≤ 10 ^ 9 := by exact_mod_cast hn
    have h2 : (0 : ℤ) ≤ n := by omega
    nlinarith
  rw [← BitVec.ofInt_mul, BitVec.toInt_ofInt, Int.bmod_eq_of_le (by omega) (by omega), Int.tdiv_eq_ediv_of_nonneg h0]

/-- C75. The limit of 200 million is nearly sharp: from 210 million additions on (up to 10^9) a single collision goes unreported. -/
theorem C75_single_unreported (hs : List U64) (h1 : 210 * 10 ^ 6 ≤ hs.length) (h2 : hs.length ≤ 10 ^ 9)
    (hc : hs.toFinset.card + 1 = hs.length) : ¬ (HashSet.new.addAll hs).check := by
  unfold HashSet.check
  dsimp only
  rw [addAll_card, addAll_n, hashSize_eq]
  simp only [HashSet.new, Nat.zero_add]
  generalize hs.toFinset.card = c at hc
  generalize hs.length = n at h1 h2 hc
  rw [pairs_eq' h2]
  have hp0 : (22 * 10 ^ 15 : ℤ) ≤ (n : ℤ) * ((n : ℤ) - 1) / 2 := by
    have a1 : (210 * 10 ^ 6 : ℤ) ≤ (n : ℤ) := by exact_mod_cast h1
    have a2 : (44 * 10 ^ 15 : ℤ) ≤ (n : ℤ) * ((n : ℤ) - 1) := by nlinarith
    omega
  have hP : (22 * 10 ^ 15 : ℝ) ≤ (((n : ℤ) * ((n : ℤ) - 1) / 2 : ℤ) : ℝ) := by exact_mod_cast hp0
  generalize (((n : ℤ) * ((n : ℤ) - 1) / 2 : ℤ) : ℝ) = P at hP
  obtain ⟨f1, _, f0⟩ := fl_between (by norm_num) hP le_rfl
  generalize Model.FloatR.fl P = P' at f0 f1
  have g1 : 0.00119 ≤ P' / 2 ^ 64 := by
    rw [le_div_iff₀ (by positivity)]
    norm_num at f1 ⊢
    linarith
  obtain ⟨e1, _, e0⟩ := fl_between (by norm_num) g1 le_rfl
  generalize Model.FloatR.fl (P' / 2 ^ 64) = e at e0 e1
  have hs1 : 0.0344 ≤ Real.sqrt e := by
    apply Real.le_sqrt_of_sq_le
    norm_num at e1 ⊢
    linarith
  obtain ⟨s1, _, s0⟩ := fl_between (by norm_num) hs1 le_rfl
  generalize Model.FloatR.fl (Real.sqrt e) = s at s0 s1
  have ht : 1.03 ≤ 10 * 3 * s := by norm_num at s1 ⊢; linarith
  obtain ⟨t1, _, t0⟩ := fl_between (by norm_num) ht le_rfl
  generalize Model.FloatR.fl (10 * 3 * s) = t at t0 t1
  have hu : 1.02 ≤ e + t := by norm_num at t1 ⊢; linarith
  obtain ⟨u1, _, u0⟩ := fl_between (by norm_num) hu le_rfl
  have hcast : (((n : ℤ) - (c : ℤ) : ℤ) : ℝ) = ((1 : ℕ) : ℝ) := by
    have : (n : ℤ) - (c : ℤ) = 1 := by omega
    rw [this]; norm_num
  rw [hcast, fl_self (isFloat_nat (by norm_num))]
  norm_num at u1 ⊢
  linarith

/-- There is such a sequence: 0, 0, 1, 2, 3, ... -/
example : ∃ hs : List U64, 210 * 10 ^ 6 ≤ hs.length ∧ hs.length ≤ 10 ^ 9 ∧ hs.toFinset.card + 1 = hs.length := by
  have hmain : ∀ n : Nat, 0 < n → n ≤ 2 ^ 64 → (0#64 :: (List.range n).map (BitVec.ofNat 64)).toFinset.card + 1 = (0#64 :: (List.range n).map (BitVec.ofNat 64)).length := by
    intro n h0 hn
    have hmem : 0#64 ∈ ((List.range n).map (BitVec.ofNat 64)).toFinset := by
      rw [List.mem_toFinset, List.mem_map]
      exact ⟨0, List.mem_range.2 h0, rfl⟩
    have hnd : ((List.range n).map (BitVec.ofNat 64)).Nodup := by
      rw [List.nodup_map_iff_inj_on List.nodup_range]
      intro a ha b hb hab
      have ha := List.mem_range.1 ha
      have hb := List.mem_range.1 hb
      have := congrArg BitVec.toNat hab
      simp only [BitVec.toNat_ofNat] at this
      rwa [Nat.mod_eq_of_lt (by omega), Nat.mod_eq_of_lt (by omega)] at this
    rw [List.toFinset_cons, Finset.insert_eq_of_mem hmem, List.toFinset_card_of_nodup hnd, List.length_cons]
  refine ⟨_, ?_, ?_, hmain 300000000 (by omega) (by omega)⟩
  · rw [List.length_cons, List.length_map, List.length_range]; omega
  · rw [List.length_cons, List.length_map, List.length_range]; omega

/-! ## C110 -/

/-- The values `c` takes: repeated addition of 0.1 in `float64`. -/
noncomputable def tenths : ℕ → ℝ
  | 0 => 0
  | k + 1 => Model.FloatR.fl (tenths k + Model.FloatR.fl 0.1)

theorem tenths_bounds : ∀ k : ℕ, k ≤ 90 → (0.0999 : ℝ) * k ≤ tenths k ∧ tenths k ≤ 0.1001 * k ∧ 0 ≤ tenths k := by
  intro k
  induction k with
  | zero => intro _; simp [tenths]
  | succ k ih =>
    intro hk
    obtain ⟨i1, i2, i3⟩ := ih (by omega)
    obtain ⟨a1, a2, a3⟩ := fl_between (q := (0.1 : ℝ)) (by norm_num) le_rfl le_rfl
    have hk0 : (0 : ℝ) ≤ k := by positivity
    have hk' : (k : ℝ) ≤ 89 := by exact_mod_cast (by omega : k ≤ 89)
    rw [tenths]
    obtain ⟨b1, b2, b3⟩ := fl_between (q := tenths k + Model.FloatR.fl 0.1) (a := 0.0999 * k + 0.09999) (b := 0.1001 * k + 0.10001) (by positivity)
      (by norm_num at a1 ⊢; linarith) (by norm_num at a2 ⊢; linarith)
    push_cast
    refine ⟨?_, ?_, b3⟩
    · norm_num at b1 ⊢; linarith
    · norm_num at b2 ⊢; linarith

/-- C110. The search for the confidence bound ends, with the first of the values 0, 0.1, 0.2, ... (summed in `float64`) whose probability is not
below 0.9999, after at most 86 steps - for every `erf` that is 1 from 6 on and every `pow` with `pow(1, n) = 1` (as `math.Erf` and `math.Pow`
are), and every number of experiments. The result is unique. -/
theorem C110_search (erf : ℝ → ℝ) (pow : ℝ → ℕ → ℝ) (N : ℕ) (herf : ∀ x, 6 ≤ x → erf x = 1) (hpow : ∀ n, pow 1 n = 1) :
    ∃ k ≤ 86, (∀ c, Search erf pow N 0 c ↔ c = tenths k) ∧
      ¬ pow (erf (Model.FloatR.fl (tenths k / Model.FloatR.fl (Real.sqrt 2)))) N < Model.FloatR.fl 0.9999 ∧
      ∀ j < k, pow (erf (Model.FloatR.fl (tenths j / Model.FloatR.fl (Real.sqrt 2)))) N < Model.FloatR.fl 0.9999 := by
  classical
  have hend : ¬ pow (erf (Model.FloatR.fl (tenths 86 / Model.FloatR.fl (Real.sqrt 2)))) N < Model.FloatR.fl 0.9999 := by
    have hr1 : (1.414 : ℝ) ≤ Real.sqrt 2 := by apply Real.le_sqrt_of_sq_le; norm_num
    have hr2 : Real.sqrt 2 ≤ 1.415 := by
      rw [Real.sqrt_le_left (by norm_num)]; norm_num
    obtain ⟨r1, r2, _⟩ := fl_between (by norm_num) hr1 hr2
    obtain ⟨t1, _, _⟩ := tenths_bounds 86 (by norm_num)
    generalize Model.FloatR.fl (Real.sqrt 2) = r at r1 r2
    have hq : (6.05 : ℝ) ≤ tenths 86 / r := by
      rw [le_div_iff₀ (by norm_num at r1 ⊢; linarith)]
      norm_num at r2 t1 ⊢
      linarith
    obtain ⟨q1, _, _⟩ := fl_between (by norm_num) hq le_rfl
    rw [herf _ (by norm_num at q1 ⊢; linarith), hpow]
    obtain ⟨_, x, _⟩ := fl_between (q := (0.9999 : ℝ)) (by norm_num) le_rfl le_rfl
    norm_num at x ⊢
    linarith
  have hex : ∃ k, ¬ pow (erf (Model.FloatR.fl (tenths k / Model.FloatR.fl (Real.sqrt 2)))) N < Model.FloatR.fl 0.9999 := ⟨86, hend⟩
  refine ⟨Nat.find hex, Nat.find_min' hex hend, fun c => ?_, Nat.find_spec hex, fun j hj => not_not.1 (Nat.find_min hex hj)⟩
  have hspec := Nat.find_spec hex
  have hmin : ∀ j < Nat.find hex, pow (erf (Model.FloatR.fl (tenths j / Model.FloatR.fl (Real.sqrt 2)))) N < Model.FloatR.fl 0.9999 :=
    fun j hj => not_not.1 (Nat.find_min hex hj)
  generalize Nat.find hex = k at hspec hmin
  have key : ∀ d j, j + d = k → (Search erf pow N (tenths j) c ↔ c = tenths k) := by
    intro d
    induction d with
    | zero =>
      intro j hj
      have : j = k := by omega
      subst this
      constructor
      · intro h
        cases h with
        | stop _ _ => rfl
        | next _ _ h _ => exact absurd h hspec
      · rintro rfl; exact .stop _ hspec
    | succ d ih =>
      intro j hj
      have hlt := hmin j (by omega)
      have hi := ih (j + 1) (by omega)
      constructor
      · intro h
        cases h with
        | stop _ h => exact absurd hlt h
        | next _ _ _ h => exact hi.1 h
      · intro h
        exact .next _ _ hlt (hi.2 h)
  exact key k 0 (by omega)

/-- C110. The bounds computed from it: a count of bit flips is never held against a hash function unless it differs from the mean 50000 by
something, and always if it differs by more than 6000 of the 100000 rounds - had the comparison any effect. -/
theorem C110_bounds (erf : ℝ → ℝ) (pow : ℝ → ℕ → ℝ) (N : ℕ) (c : ℝ) (herf : ∀ x, 6 ≤ x → erf x = 1) (hpow : ∀ n, pow 1 n = 1)
    (h : Search erf pow N 0 c) : 44000 ≤ (bounds c).1 ∧ (bounds c).1 ≤ 50000 ∧ 50000 ≤ (bounds c).2 ∧ (bounds c).2 ≤ 56000 := by
  obtain ⟨k, hk, hs, _⟩ := C110_search erf pow N herf hpow
  obtain ⟨_, b2, b3⟩ := tenths_bounds k (by omega)
  rw [← (hs c).1 h] at b2 b3
  have hk' : (k : ℝ) ≤ 86 := by exact_mod_cast hk
  have hc : c ≤ 8.61 := by norm_num at b2 ⊢; linarith
  unfold bounds
  dsimp only
  obtain ⟨_, c2, c3⟩ := fl_between (q := c * 4) (a := 0) (b := 34.44) le_rfl (by linarith) (by norm_num at hc ⊢; linarith)
  generalize Model.FloatR.fl (c * 4) = c' at c2 c3
  have hr2 : Real.sqrt 100000 ≤ 317 := by
    rw [Real.sqrt_le_left (by norm_num)]; norm_num
  obtain ⟨_, r2, r3⟩ := fl_between le_rfl (Real.sqrt_nonneg 100000) hr2
  generalize Model.FloatR.fl (Real.sqrt 100000) = r at r2 r3
  obtain ⟨_, s2, s3⟩ := fl_between (q := 0.5 * r) (a := 0) (b := 158.6) le_rfl (by linarith) (by norm_num at r2 ⊢; linarith)
  generalize Model.FloatR.fl (0.5 * r) = s at s2 s3
  have hcs : c' * s ≤ 34.45 * 158.7 := by
    apply mul_le_mul _ _ s3 (by norm_num)
    · norm_num at c2 ⊢; linarith
    · norm_num at s2 ⊢; linarith
  obtain ⟨_, d2, d3⟩ := fl_between (q := c' * s) (a := 0) (b := 5470) le_rfl (mul_nonneg c3 s3) (by norm_num at hcs ⊢; linarith)
  generalize Model.FloatR.fl (c' * s) = d at d2 d3
  have hd : d ≤ 5471 := by norm_num at d2 ⊢; linarith
  have l1 := le_fl (q := 50000 - d) (f := ((44000 : ℕ) : ℝ)) (by linarith) (isFloat_nat (by norm_num)) (by norm_num; linarith)
  have l2 := fl_le (q := 50000 - d) (f := ((50000 : ℕ) : ℝ)) (by linarith) (isFloat_nat (by norm_num)) (by norm_num; linarith)
  have u1 := le_fl (q := 50000 + d) (f := ((50000 : ℕ) : ℝ)) (by linarith) (isFloat_nat (by norm_num)) (by norm_num; linarith)
  have u2 := fl_le (q := 50000 + d) (f := ((56000 : ℕ) : ℝ)) (by linarith) (isFloat_nat (by norm_num)) (by norm_num; linarith)
  push_cast at l1 l2 u1 u2
  refine ⟨?_, ?_, ?_, ?_⟩
  · rw [Int.le_floor]; push_cast; exact l1
  · exact Int.cast_le (R := ℝ).1 (by rw [show ((50000 : ℤ) : ℝ) = 50000 by norm_num]; exact le_trans (Int.floor_le _) l2)
  · rw [Int.le_floor]; push_cast; exact u1
  · exact Int.cast_le (R := ℝ).1 (by rw [show ((56000 : ℤ) : ℝ) = 56000 by norm_num]; exact le_trans (Int.floor_le _) u2)

/-- Functions with the properties asked for, and a search that has to take steps. -/
example : ∃ (erf : ℝ → ℝ) (pow : ℝ → ℕ → ℝ), (∀ x, 6 ≤ x → erf x = 1) ∧ (∀ n, pow 1 n = 1) ∧ ¬ Search erf pow 64 0 0 := by
  refine ⟨fun x => if 6 ≤ x then 1 else 0, fun x n => x ^ n, fun x h => if_pos h, fun n => one_pow n, fun h => ?_⟩
  have h0 : Model.FloatR.fl (0 / Model.FloatR.fl (Real.sqrt 2)) = 0 := by simp [Model.FloatR.fl]
  obtain ⟨x, _, _⟩ := fl_between (q := (0.9999 : ℝ)) (by norm_num) le_rfl le_rfl
  cases h with
  | stop _ h =>
    apply h
    rw [h0]
    norm_num at x ⊢
    linarith
  | next _ _ _ h =>
    obtain ⟨k, hk⟩ : ∃ k, tenths (k + 1) = Model.FloatR.fl (0 + Model.FloatR.fl 0.1) := ⟨0, rfl⟩
    have hpos : ∀ c c', Search (fun x => if 6 ≤ x then 1 else 0) (fun x n => x ^ n) 64 c c' → 0 < c → 0 < c' := by
      intro c c' hs
      induction hs with
      | stop c _ => exact fun h => h
      | next c c' _ _ ih =>
        intro hc
        apply ih
        obtain ⟨a1, _, a3⟩ := fl_between (q := (0.1 : ℝ)) (by norm_num) le_rfl le_rfl
        obtain ⟨b1, _, _⟩ := fl_between (q := c + Model.FloatR.fl 0.1) (a := 0.05) (by norm_num) (by norm_num at a1 ⊢; linarith) le_rfl
        norm_num at b1
        linarith
    obtain ⟨t1, _, _⟩ := tenths_bounds 1 (by norm_num)
    have h1 : (0 : ℝ) < Model.FloatR.fl (0 + Model.FloatR.fl 0.1) := by
      have : tenths 1 = Model.FloatR.fl (0 + Model.FloatR.fl 0.1) := rfl
      rw [← this]
      norm_num at t1
      linarith
    exact absurd (hpos _ _ h h1) (lt_irrefl _)

end Verif.Props
