import Verif.Props.Print
import Verif.Props.Quality
import Verif.Props.Parking

/-! Property C140: what the printed quality still tells after rounding to `float64`. -/

namespace Verif.Props.Printed
open Verif Verif.HashTable Verif.Spec.HashTable Verif.Lemmas.Print Verif.Props.Quality
open Verif.Model.Print (Flt print ofNat)
open Verif.Model.RBetween (fl)
open Verif.Lemmas.RBetween (fl_self isFloat_nat fl_mono le_fl fl_le)

variable {κ : Type}

theorem pairs_le (l : List Nat) : 2 * eqPairs l + l.length ≤ l.length * l.length := by
  induction l with
  | nil => simp [eqPairs]
  | cons a l ih =>
    have h : l.countP (fun y => y = a) ≤ l.length := List.countP_le_length
    rw [eqPairs, List.length_cons]
    nlinarith

/-- What rounding makes of the ratio of C129. -/
def rounded (n m e : Nat) : ℚ := fl (fl (((2 * n + 2 * e : Nat) : ℚ) * m) / fl ((n : ℚ) * ((n + 2 * m - 1 : Nat) : ℚ)))

theorem fl_bounds {q : ℚ} (h : 0 ≤ q) : q * (1 - 1 / 2 ^ 53) ≤ fl q ∧ fl q ≤ q * (1 + 1 / 2 ^ 53) := by
  have := abs_le.1 (fl_rel h)
  constructor <;> linarith [this.1, this.2]

theorem den_pos {n m : Nat} (hn : 0 < n) (hm : 0 < m) : (0 : ℚ) < (n : ℚ) * ((n + 2 * m - 1 : Nat) : ℚ) := by
  apply mul_pos
  · exact_mod_cast hn
  · exact_mod_cast (by omega : 0 < n + 2 * m - 1)

theorem fl_pos {q : ℚ} (h : 0 < q) : 0 < fl q := by
  have := (fl_bounds h.le).1
  have h2 : 0 < q * (1 - 1 / 2 ^ 53) := mul_pos h (by norm_num)
  linarith

theorem rounded_mono (n m e e' : Nat) (h : e ≤ e') : rounded n m e ≤ rounded n m e' := by
  have hd : (0 : ℚ) ≤ fl ((n : ℚ) * ((n + 2 * m - 1 : Nat) : ℚ)) := fl_nonneg (by positivity)
  have hx : (0 : ℚ) ≤ fl (((2 * n + 2 * e : Nat) : ℚ) * m) := fl_nonneg (by positivity)
  unfold rounded
  apply fl_mono (div_nonneg hx hd)
  apply div_le_div_of_nonneg_right _ hd
  apply fl_mono (by positivity)
  apply mul_le_mul_of_nonneg_right _ (by positivity)
  exact_mod_cast (by omega : 2 * n + 2 * e ≤ 2 * n + 2 * e')

theorem rounded_strict (n m e e' : Nat) (hn : 0 < n) (hm : 0 < m) (hb : 2 * n + 2 * e ≤ 2 ^ 51) (h : e < e') : rounded n m e < rounded n m e' := by
  have hD := fl_pos (den_pos hn hm)
  unfold rounded
  generalize fl ((n : ℚ) * ((n + 2 * m - 1 : Nat) : ℚ)) = D at hD
  have hS : (0 : ℚ) < ((2 * n + 2 * e : Nat) : ℚ) := by exact_mod_cast (by omega : 0 < 2 * n + 2 * e)
  have hm' : (0 : ℚ) < (m : ℚ) := by exact_mod_cast hm
  have hS' : ((2 * n + 2 * e : Nat) : ℚ) * (1 + 1 / 2 ^ 50) ≤ ((2 * n + 2 * e' : Nat) : ℚ) := by
    have h1 : ((2 * n + 2 * e : Nat) : ℚ) ≤ 2 ^ 51 := by exact_mod_cast hb
    have h2 : ((2 * n + 2 * e : Nat) : ℚ) + 2 ≤ ((2 * n + 2 * e' : Nat) : ℚ) := by exact_mod_cast (by omega : 2 * n + 2 * e + 2 ≤ 2 * n + 2 * e')
    have h3 : ((2 * n + 2 * e : Nat) : ℚ) * (1 / 2 ^ 50) ≤ 2 := by
      calc _ ≤ (2 ^ 51 : ℚ) * (1 / 2 ^ 50) := mul_le_mul_of_nonneg_right h1 (by norm_num)
        _ = 2 := by norm_num
    linarith
  generalize ((2 * n + 2 * e : Nat) : ℚ) = S at hS hS'
  generalize ((2 * n + 2 * e' : Nat) : ℚ) = S' at hS'
  have hx : 0 < S * m := mul_pos hS hm'
  have hxx : S * m * (1 + 1 / 2 ^ 50) ≤ S' * m := by
    calc _ = S * (1 + 1 / 2 ^ 50) * m := by ring
      _ ≤ _ := mul_le_mul_of_nonneg_right hS' hm'.le
  generalize S * (m : ℚ) = x at hx hxx ⊢
  generalize S' * (m : ℚ) = x' at hxx ⊢
  have hx' : 0 < x' := by nlinarith
  have b1 := (fl_bounds hx.le).2
  have b2 := (fl_bounds hx'.le).1
  have hy : 0 < fl x := fl_pos hx
  have hy' : 0 < fl x' := fl_pos hx'
  generalize fl x = y at b1 hy
  generalize fl x' = y' at b2 hy'
  have b3 := (fl_bounds (div_pos hy hD).le).2
  have b4 := (fl_bounds (div_pos hy' hD).le).1
  have key : y * (1 + 1 / 2 ^ 53) < y' * (1 - 1 / 2 ^ 53) := by
    calc y * (1 + 1 / 2 ^ 53) ≤ x * (1 + 1 / 2 ^ 53) * (1 + 1 / 2 ^ 53) := mul_le_mul_of_nonneg_right b1 (by norm_num)
      _ = x * ((1 + 1 / 2 ^ 53) * (1 + 1 / 2 ^ 53)) := by ring
      _ < x * ((1 + 1 / 2 ^ 50) * (1 - 1 / 2 ^ 53) * (1 - 1 / 2 ^ 53)) := mul_lt_mul_of_pos_left (by norm_num) hx
      _ = x * (1 + 1 / 2 ^ 50) * (1 - 1 / 2 ^ 53) * (1 - 1 / 2 ^ 53) := by ring
      _ ≤ x' * (1 - 1 / 2 ^ 53) * (1 - 1 / 2 ^ 53) := mul_le_mul_of_nonneg_right (mul_le_mul_of_nonneg_right hxx (by norm_num)) (by norm_num)
      _ ≤ y' * (1 - 1 / 2 ^ 53) := mul_le_mul_of_nonneg_right b2 (by norm_num)
  calc fl (y / D) ≤ y / D * (1 + 1 / 2 ^ 53) := b3
    _ = y * (1 + 1 / 2 ^ 53) / D := by ring
    _ < y' * (1 - 1 / 2 ^ 53) / D := div_lt_div_of_pos_right key hD
    _ = y' / D * (1 - 1 / 2 ^ 53) := by ring
    _ ≤ fl (y' / D) := b4

/-- Against one: `N` pairs weighed by the buckets, `D` the denominator. -/
theorem quotient_one (N D : Nat) (hD : 0 < D) (hs : D ≤ 2 ^ 52) : (fl (fl (N : ℚ) / fl (D : ℚ)) < 1 ↔ N < D) ∧ (fl (fl (N : ℚ) / fl (D : ℚ)) = 1 ↔ N = D) := by
  rw [fl_self (isFloat_nat (show D ≤ 2 ^ 53 by omega))]
  have hD' : (0 : ℚ) < (D : ℚ) := by exact_mod_cast hD
  have hinv : (1 : ℚ) / 2 ^ 52 ≤ 1 / D := one_div_le_one_div_of_le hD' (by exact_mod_cast hs)
  have lt : N < D → fl (fl (N : ℚ) / (D : ℚ)) < 1 := by
    intro h
    have h1 : fl (N : ℚ) ≤ D - 1 := by
      rw [fl_self (isFloat_nat (by omega))]
      have : (N : ℚ) + 1 ≤ D := by exact_mod_cast h
      linarith
    have h0 : 0 ≤ fl (N : ℚ) := fl_nonneg (by positivity)
    have h2 : fl (N : ℚ) / D ≤ 1 - 1 / D := by
      rw [div_le_iff₀ hD', sub_mul, one_mul, one_div, inv_mul_cancel₀ hD'.ne']
      exact h1
    have h3 := (fl_bounds (div_nonneg h0 hD'.le)).2
    have h4 : fl (N : ℚ) / D * (1 + 1 / 2 ^ 53) ≤ (1 - 1 / 2 ^ 52) * (1 + 1 / 2 ^ 53) := mul_le_mul_of_nonneg_right (by linarith) (by norm_num)
    have h5 : ((1 : ℚ) - 1 / 2 ^ 52) * (1 + 1 / 2 ^ 53) < 1 := by norm_num
    linarith
  have eq : N = D → fl (fl (N : ℚ) / (D : ℚ)) = 1 := by
    rintro rfl
    rw [fl_self (isFloat_nat (show N ≤ 2 ^ 53 by omega)), div_self hD'.ne']
    have := fl_self (isFloat_nat (show 1 ≤ 2 ^ 53 by norm_num))
    simpa using this
  have gt : D < N → 1 < fl (fl (N : ℚ) / (D : ℚ)) := by
    intro h
    have h1 : (D : ℚ) + 1 ≤ fl (N : ℚ) := by
      have := le_fl (q := (N : ℚ)) (f := ((D + 1 : Nat) : ℚ)) (by positivity) (isFloat_nat (by omega)) (by exact_mod_cast h)
      push_cast at this
      exact this
    have h0 : 0 ≤ fl (N : ℚ) := by linarith
    have h2 : 1 + 1 / (D : ℚ) ≤ fl (N : ℚ) / D := by
      rw [le_div_iff₀ hD', add_mul, one_mul, one_div, inv_mul_cancel₀ hD'.ne']
      exact h1
    have h3 := (fl_bounds (div_nonneg h0 hD'.le)).1
    have h4 : (1 + 1 / 2 ^ 52) * (1 - 1 / 2 ^ 53) ≤ fl (N : ℚ) / D * (1 - 1 / 2 ^ 53) := mul_le_mul_of_nonneg_right (by linarith) (by norm_num)
    have h5 : 1 < ((1 : ℚ) + 1 / 2 ^ 52) * (1 - 1 / 2 ^ 53) := by norm_num
    linarith
  refine ⟨⟨fun h => ?_, lt⟩, ⟨fun h => ?_, eq⟩⟩
  · rcases Nat.lt_trichotomy N D with g | g | g
    · exact g
    · rw [eq g] at h; exact absurd h (lt_irrefl _)
    · exact absurd (h.trans (gt g)) (lt_irrefl _)
  · rcases Nat.lt_trichotomy N D with g | g | g
    · exact absurd h (lt g).ne
    · exact g
    · exact absurd h (gt g).ne'

theorem rounded_one (n m e : Nat) (hn : 0 < n) (hm : 0 < m) (hs : n * (n + 2 * m - 1) ≤ 2 ^ 52) :
    (rounded n m e < 1 ↔ 2 * e * m < n * (n - 1)) ∧ (rounded n m e = 1 ↔ 2 * e * m = n * (n - 1)) := by
  have e1 : ((2 * n + 2 * e : Nat) : ℚ) * m = (((2 * n + 2 * e) * m : Nat) : ℚ) := by push_cast; ring
  have e2 : (n : ℚ) * ((n + 2 * m - 1 : Nat) : ℚ) = ((n * (n + 2 * m - 1) : Nat) : ℚ) := by push_cast; ring
  obtain ⟨h1, h2⟩ := quotient_one ((2 * n + 2 * e) * m) (n * (n + 2 * m - 1)) (Nat.mul_pos hn (by omega)) hs
  unfold rounded
  rw [e1, e2, h1, h2]
  obtain ⟨k, rfl⟩ : ∃ k, n = k + 1 := ⟨n - 1, by omega⟩
  have e3 : (k + 1) * (k + 1 + 2 * m - 1) = (k + 1) * k + 2 * (k + 1) * m := by
    rw [show k + 1 + 2 * m - 1 = k + 2 * m by omega]; ring
  have e4 : (2 * (k + 1) + 2 * e) * m = 2 * e * m + 2 * (k + 1) * m := by ring
  rw [e3, e4, Nat.add_sub_cancel]
  constructor <;> omega

/-- The quality printed after any inserts, as a function of the pairs of keys that share a bucket. -/
theorem printed_eq (H : κ → U64 → U64) (np : Int → Int) (size seed extra : Int) (pd prime : Bool) (ht0 : HT κ) (ks : List κ) (dups2 : Int) (dur : Nat)
    (hnew : newHashTable np size seed extra pd false prime = .ok ht0) (hpos : 0 < ht0.buckets.length) (hks : ks ≠ []) (hsmall : ks.length ≤ 2 ^ 26) :
    ∃ ht, insertAll (pureEnv H (fun _ => true)) () ht0 ks = .ok ((), ht) ∧
      ("q", .float (.num (rounded ks.length ht0.buckets.length (eqPairs (ks.map fun k => homeOf prime ht0.buckets.length (H k ht0.seed)))))) ∈ print ht dups2 dur := by
  obtain ⟨ht, h1, hc⟩ := C04_chain_contents H np size seed extra pd prime ht0 ks hnew hpos
  obtain ⟨_, ht', h1', s1, s2, s3, s4, s5, s6⟩ := C05_chain_stats (pureEnv H (fun _ => true)) (fun _ => rfl) np size seed extra pd prime ht0 () ks hnew hpos
  rw [h1] at h1'
  cases h1'
  obtain ⟨hsz, hoa⟩ : ht.size.toNat = ht0.buckets.length ∧ ht.oa = false := by
    rcases insertAll_same (e := pureEnv H (fun _ => true)) (fun _ => rfl) ks () ht0 (newHashTable_wf hnew hpos) _ h1 with ⟨_, _, ha, hb⟩ | ⟨_, hb⟩
    · cases ha
      refine ⟨by rw [hb.size, (newHashTable_wf hnew hpos).len], ?_⟩
      rw [hb.oa, (newHashTable_ok hnew).2.2.1]
    · cases hb
  have hs0 : ht0.size.toNat = ht0.buckets.length := (newHashTable_wf hnew hpos).len.symm
  have hlim : ht0.buckets.length * 24 ≤ 2 ^ 48 := by rw [← hs0]; exact Print.size_small hnew
  refine ⟨ht, h1, ?_⟩
  have hS : (ht.buckets.map fun b => b.length * (b.length + 1)).sum =
      2 * ks.length + 2 * eqPairs (ks.map fun k => homeOf prime ht0.buckets.length (H k ht0.seed)) := by
    have := sum_sq (fun k => homeOf prime ht0.buckets.length (H k ht0.seed)) ht0.buckets.length ks (fun k _ => homeOf_lt _ _ hpos _)
    rw [← sum_range] at this
    rw [hc, List.map_map, ← this]
    simp only [load, Function.comp_def, List.countP_eq_length_filter]
  have hpl := pairs_le (ks.map fun k => homeOf prime ht0.buckets.length (H k ht0.seed))
  rw [List.length_map] at hpl
  have hle : ks.length * ks.length ≤ 2 ^ 26 * 2 ^ 26 := Nat.mul_le_mul hsmall hsmall
  have hq : Model.Print.hashQuality ht =
      .num (rounded ks.length ht0.buckets.length (eqPairs (ks.map fun k => homeOf prime ht0.buckets.length (H k ht0.seed)))) := by
    have hlen := List.length_pos_iff.2 hks
    generalize eqPairs (ks.map fun k => homeOf prime ht0.buckets.length (H k ht0.seed)) = e at *
    generalize ht0.buckets.length = m at *
    unfold Model.Print.hashQuality
    rw [if_neg (by omega)]
    have e0 := Print.fold_exact ht.buckets 0 (by omega)
    rw [Nat.zero_add, hS, show ((0 : Nat) : ℚ) = 0 by norm_num] at e0
    dsimp only
    rw [e0, hsz, s1]
    generalize ks.length = n at *
    rw [ofNat_exact (show m ≤ 2 ^ 53 by omega), ofNat_exact (show n ≤ 2 ^ 53 by omega)]
    have e1 : fl (2 * (m : ℚ)) = ((2 * m : Nat) : ℚ) := by
      rw [show 2 * (m : ℚ) = ((2 * m : Nat) : ℚ) by push_cast; ring]; exact fl_self (isFloat_nat (by omega))
    have e2 : fl ((n : ℚ) + ((2 * m : Nat) : ℚ)) = ((n + 2 * m : Nat) : ℚ) := by
      rw [show (n : ℚ) + ((2 * m : Nat) : ℚ) = ((n + 2 * m : Nat) : ℚ) by push_cast; ring]; exact fl_self (isFloat_nat (by omega))
    have e3 : fl (((n + 2 * m : Nat) : ℚ) - 1) = ((n + 2 * m - 1 : Nat) : ℚ) := by
      have : ((n + 2 * m : Nat) : ℚ) - 1 = ((n + 2 * m - 1 : Nat) : ℚ) := by
        rw [Nat.cast_sub (by omega)]; simp
      rw [this]; exact fl_self (isFloat_nat (by omega))
    rw [e1, e2, e3]
    unfold Flt.div
    rw [if_neg (fl_pos (den_pos hlen hpos)).ne']
    rfl
  unfold print
  simp [hoa, hq]

/-- C140. Of two hash functions on the same keys and table, at most 2^25 keys, `Print` shows the smaller quality for the one with fewer pairs of keys in one bucket, and the
same number for both exactly when the pairs are as many: rounding to `float64` neither hides a difference nor makes one up. -/
theorem C140_order (H H' : κ → U64 → U64) (np : Int → Int) (size seed extra : Int) (pd prime : Bool) (ht0 : HT κ) (ks : List κ) (dups2 dups2' : Int) (dur dur' : Nat)
    (hnew : newHashTable np size seed extra pd false prime = .ok ht0) (hpos : 0 < ht0.buckets.length) (hks : ks ≠ []) (hsmall : ks.length ≤ 2 ^ 25) :
    ∃ ht ht' q q', insertAll (pureEnv H (fun _ => true)) () ht0 ks = .ok ((), ht) ∧ insertAll (pureEnv H' (fun _ => true)) () ht0 ks = .ok ((), ht') ∧
      ("q", .float (.num q)) ∈ print ht dups2 dur ∧ ("q", .float (.num q')) ∈ print ht' dups2' dur' ∧
      (q < q' ↔ eqPairs (ks.map fun k => homeOf prime ht0.buckets.length (H k ht0.seed)) < eqPairs (ks.map fun k => homeOf prime ht0.buckets.length (H' k ht0.seed))) ∧
      (q = q' ↔ eqPairs (ks.map fun k => homeOf prime ht0.buckets.length (H k ht0.seed)) = eqPairs (ks.map fun k => homeOf prime ht0.buckets.length (H' k ht0.seed))) := by
  obtain ⟨ht, h1, h2⟩ := printed_eq H np size seed extra pd prime ht0 ks dups2 dur hnew hpos hks (by omega)
  obtain ⟨ht', h1', h2'⟩ := printed_eq H' np size seed extra pd prime ht0 ks dups2' dur' hnew hpos hks (by omega)
  have hle : ks.length * ks.length ≤ 2 ^ 25 * 2 ^ 25 := Nat.mul_le_mul hsmall hsmall
  have p1 := pairs_le (ks.map fun k => homeOf prime ht0.buckets.length (H k ht0.seed))
  have p2 := pairs_le (ks.map fun k => homeOf prime ht0.buckets.length (H' k ht0.seed))
  rw [List.length_map] at p1 p2
  refine ⟨ht, ht', _, _, h1, h1', h2, h2', ?_⟩
  have hlen := List.length_pos_iff.2 hks
  generalize eqPairs (ks.map fun k => homeOf prime ht0.buckets.length (H k ht0.seed)) = e at *
  generalize eqPairs (ks.map fun k => homeOf prime ht0.buckets.length (H' k ht0.seed)) = e' at *
  have l1 : e < e' → rounded ks.length ht0.buckets.length e < rounded ks.length ht0.buckets.length e' := rounded_strict _ _ _ _ hlen hpos (by omega)
  have l2 : e' < e → rounded ks.length ht0.buckets.length e' < rounded ks.length ht0.buckets.length e := rounded_strict _ _ _ _ hlen hpos (by omega)
  refine ⟨⟨fun h => ?_, l1⟩, ⟨fun h => ?_, fun h => by rw [h]⟩⟩
  · rcases Nat.lt_trichotomy e e' with g | g | g
    · exact g
    · rw [g] at h; exact absurd h (lt_irrefl _)
    · exact absurd (h.trans (l2 g)) (lt_irrefl _)
  · rcases Nat.lt_trichotomy e e' with g | g | g
    · exact absurd h (l1 g).ne
    · exact g
    · exact absurd h (l2 g).ne'

/-- C140_order at work: one pair of three keys shares a bucket against three, and the printed numbers say so. -/
example : ∃ (ht0 ht ht' : HT (List U8)) (q q' : ℚ), newHashTable id 3 0 0 false false false = .ok ht0 ∧
    insertAll (pureEnv (fun k s => BitVec.ofNat 64 (leNat k) + s) (fun _ => true)) () ht0 [[1], [5], [2]] = .ok ((), ht) ∧
    insertAll (pureEnv (fun _ _ => 7) (fun _ => true)) () ht0 [[1], [5], [2]] = .ok ((), ht') ∧
    ("q", .float (.num q)) ∈ print ht 0 1000 ∧ ("q", .float (.num q')) ∈ print ht' 0 2000 ∧ q < q' :=
  have ⟨ht, ht', q, q', h1, h2, h3, h4, h5, _⟩ := C140_order (fun k s => BitVec.ofNat 64 (leNat k) + s) (fun _ _ => 7) id 3 0 0 false false _ [[1], [5], [2]] 0 0 1000 2000
    rfl (by decide) (by decide) (by decide)
  ⟨_, ht, ht', q, q', rfl, h1, h2, h3, h4, h5.2 (by decide +kernel)⟩

/-- C140. The printed quality is below (exactly) 1 if and only if the number of pairs of keys in one bucket is below (exactly) what a function chosen at random has on average,
n(n-1)/2 divided by the number of buckets, as long as n(n+2Size-1) is at most 2^52. -/
theorem C140_one (H : κ → U64 → U64) (np : Int → Int) (size seed extra : Int) (pd prime : Bool) (ht0 : HT κ) (ks : List κ) (dups2 : Int) (dur : Nat)
    (hnew : newHashTable np size seed extra pd false prime = .ok ht0) (hpos : 0 < ht0.buckets.length) (hks : ks ≠ [])
    (hsmall : ks.length * (ks.length + 2 * ht0.buckets.length - 1) ≤ 2 ^ 52) :
    ∃ ht q, insertAll (pureEnv H (fun _ => true)) () ht0 ks = .ok ((), ht) ∧ ("q", .float (.num q)) ∈ print ht dups2 dur ∧
      (q < 1 ↔ 2 * eqPairs (ks.map fun k => homeOf prime ht0.buckets.length (H k ht0.seed)) * ht0.buckets.length < ks.length * (ks.length - 1)) ∧
      (q = 1 ↔ 2 * eqPairs (ks.map fun k => homeOf prime ht0.buckets.length (H k ht0.seed)) * ht0.buckets.length = ks.length * (ks.length - 1)) := by
  have hlen := List.length_pos_iff.2 hks
  have h26 : ks.length ≤ 2 ^ 26 := by
    by_contra hc
    have h1 : (2 ^ 26 + 1) * (2 ^ 26 + 1) ≤ ks.length * (ks.length + 2 * ht0.buckets.length - 1) := Nat.mul_le_mul (by omega) (by omega)
    omega
  obtain ⟨ht, h1, h2⟩ := printed_eq H np size seed extra pd prime ht0 ks dups2 dur hnew hpos hks h26
  exact ⟨ht, _, h1, h2, rounded_one _ _ _ hlen hpos hsmall⟩

/-- C140_one at work: three keys in four buckets, one pair in one bucket, are worse than random (three quarters of a pair). -/
example : ∃ (ht0 ht : HT (List U8)) (q : ℚ), newHashTable id 3 0 0 false false false = .ok ht0 ∧
    insertAll (pureEnv (fun k s => BitVec.ofNat 64 (leNat k) + s) (fun _ => true)) () ht0 [[1], [5], [2]] = .ok ((), ht) ∧
    ("q", .float (.num q)) ∈ print ht 0 1000 ∧ 1 < q :=
  have ⟨ht, q, h1, h2, h3, h4⟩ := C140_one (fun k s => BitVec.ofNat 64 (leNat k) + s) id 3 0 0 false false _ [[1], [5], [2]] 0 1000
    rfl (by decide) (by decide) (by decide)
  ⟨_, ht, q, rfl, h1, h2, lt_of_le_of_ne (not_lt.1 fun h => absurd (h3.1 h) (by decide +kernel)) fun h => absurd (h4.1 h.symm) (by decide +kernel)⟩

theorem fl_apart {x x' : ℚ} (hx : 0 < x) (h : x * (1 + 1 / 2 ^ 50) ≤ x') : fl x * (1 + 1 / 2 ^ 51) ≤ fl x' := by
  have hx' : 0 ≤ x' := le_trans (mul_nonneg hx.le (by norm_num)) h
  have b1 := (fl_bounds hx.le).2
  have b2 := (fl_bounds hx').1
  calc fl x * (1 + 1 / 2 ^ 51) ≤ x * (1 + 1 / 2 ^ 53) * (1 + 1 / 2 ^ 51) := mul_le_mul_of_nonneg_right b1 (by norm_num)
    _ = x * ((1 + 1 / 2 ^ 53) * (1 + 1 / 2 ^ 51)) := by ring
    _ ≤ x * ((1 + 1 / 2 ^ 50) * (1 - 1 / 2 ^ 53)) := mul_le_mul_of_nonneg_left (by norm_num) hx.le
    _ = x * (1 + 1 / 2 ^ 50) * (1 - 1 / 2 ^ 53) := by ring
    _ ≤ x' * (1 - 1 / 2 ^ 53) := mul_le_mul_of_nonneg_right h (by norm_num)
    _ ≤ fl x' := b2

theorem fl_apart' {x x' : ℚ} (hx : 0 < x) (h : x * (1 + 1 / 2 ^ 51) ≤ x') : fl x < fl x' := by
  have hx' : 0 ≤ x' := le_trans (mul_nonneg hx.le (by norm_num)) h
  have b1 := (fl_bounds hx.le).2
  have b2 := (fl_bounds hx').1
  calc fl x ≤ x * (1 + 1 / 2 ^ 53) := b1
    _ < x * ((1 + 1 / 2 ^ 51) * (1 - 1 / 2 ^ 53)) := mul_lt_mul_of_pos_left (by norm_num) hx
    _ = x * (1 + 1 / 2 ^ 51) * (1 - 1 / 2 ^ 53) := by ring
    _ ≤ x' * (1 - 1 / 2 ^ 53) := mul_le_mul_of_nonneg_right h (by norm_num)
    _ ≤ fl x' := b2

/-- Dividing two counts by the same count, and showing the percentage, keeps their order. -/
theorem ratio_strict (c c' n : Nat) (hn : 0 < n) (hc : c ≤ 2 ^ 50) (h : c < c') :
    fl ((c : ℚ) / n) < fl ((c' : ℚ) / n) ∧ fl (fl ((c : ℚ) / n) * 100) < fl (fl ((c' : ℚ) / n) * 100) := by
  have hn' : (0 : ℚ) < n := by exact_mod_cast hn
  have hc' : (0 : ℚ) < c' := by exact_mod_cast (by omega : 0 < c')
  have hp : 0 < fl ((c' : ℚ) / n) := fl_pos (div_pos hc' hn')
  rcases Nat.eq_zero_or_pos c with rfl | h0
  · have e : fl (((0 : Nat) : ℚ) / n) = 0 := by
      have := fl_self (isFloat_nat (show 0 ≤ 2 ^ 53 by norm_num))
      simpa using this
    have e' : fl (0 * 100) = 0 := by
      have := fl_self (isFloat_nat (show 0 ≤ 2 ^ 53 by norm_num))
      simpa using this
    rw [e, e']
    exact ⟨hp, fl_pos (mul_pos hp (by norm_num))⟩
  · have h0' : (0 : ℚ) < c := by exact_mod_cast h0
    have h1 : (c : ℚ) * (1 + 1 / 2 ^ 50) ≤ c' := by
      have h2 : (c : ℚ) ≤ 2 ^ 50 := by exact_mod_cast hc
      have h3 : (c : ℚ) + 1 ≤ c' := by exact_mod_cast h
      have h4 : (c : ℚ) * (1 / 2 ^ 50) ≤ 1 := by
        calc _ ≤ (2 ^ 50 : ℚ) * (1 / 2 ^ 50) := mul_le_mul_of_nonneg_right h2 (by norm_num)
          _ = 1 := by norm_num
      linarith
    have h5 : (c : ℚ) / n * (1 + 1 / 2 ^ 50) ≤ (c' : ℚ) / n := by
      rw [div_mul_eq_mul_div]
      exact div_le_div_of_nonneg_right h1 hn'.le
    have hq := fl_pos (div_pos h0' hn')
    have h6 := fl_apart (div_pos h0' hn') h5
    refine ⟨?_, fl_apart' (mul_pos hq (by norm_num)) ?_⟩
    · have : fl ((c : ℚ) / n) * 1 < fl ((c : ℚ) / n) * (1 + 1 / 2 ^ 51) := mul_lt_mul_of_pos_left (by norm_num) hq
      linarith
    · calc _ = fl ((c : ℚ) / n) * (1 + 1 / 2 ^ 51) * 100 := by ring
        _ ≤ _ := mul_le_mul_of_nonneg_right h6 (by norm_num)

theorem shown_oa (H : κ → U64 → U64) (np : Int → Int) (size seed extra : Int) (pd prime : Bool) (ht0 : HT κ) (ks : List κ) (dups2 : Int) (dur : Nat)
    (hnew : newHashTable np size seed extra pd true prime = .ok ht0) (hpos : 0 < ht0.buckets.length) (hroom : ks.length ≤ ht0.buckets.length) (hks : 0 < ks.length) (hsmall : ks.length ≤ 2 ^ 25) :
    ∃ ht, insertAll (pureEnv H (fun _ => true)) () ht0 ks = .ok ((), ht) ∧ ht.cols ≤ 2 ^ 50 ∧ ht.probes ≤ 2 ^ 50 ∧
      ("cpi", .float (.num (fl (fl ((ht.cols : ℚ) / ks.length) * 100)))) ∈ print ht dups2 dur ∧ ("ppi", .float (.num (fl ((ht.probes : ℚ) / ks.length)))) ∈ print ht dups2 dur := by
  obtain ⟨ht, h1, h2, _⟩ := Parking.C131_extremes H np size seed extra pd prime ht0 ks hnew hpos hroom
  obtain ⟨ht', h1', s1, _⟩ := C09_oa_stats H np size seed extra pd prime ht0 ks hnew hpos hroom
  rw [h1] at h1'
  cases h1'
  have hoa : ht.oa = true := by
    rcases insertAll_same (e := pureEnv H (fun _ => true)) (fun _ => rfl) ks () ht0 (newHashTable_wf hnew hpos) _ h1 with ⟨_, _, ha, hb⟩ | ⟨_, hb⟩
    · cases ha
      rw [hb.oa, (newHashTable_ok hnew).2.2.1]
    · cases hb
  have hle : ks.length * (ks.length - 1) ≤ 2 ^ 25 * 2 ^ 25 := Nat.mul_le_mul hsmall (by omega)
  have b1 : ht.cols ≤ 2 ^ 50 := by omega
  have b2 : ht.probes ≤ 2 ^ 50 := by omega
  refine ⟨ht, h1, b1, b2, ?_⟩
  have hn : ((ks.length : Nat) : ℚ) ≠ 0 := by exact_mod_cast hks.ne'
  unfold print
  rw [s1, ofNat_exact (show ks.length ≤ 2 ^ 53 by omega), ofNat_exact (show ht.cols ≤ 2 ^ 53 by omega), ofNat_exact (show ht.probes ≤ 2 ^ 53 by omega)]
  simp only [hoa, if_true, Flt.div, if_neg hn, Flt.times100]
  exact ⟨by simp, by simp⟩

/-- C140. With open addressing, at most 2^25 keys, of any two runs of equally many inserts into the same table the printed probes per insert and collisions in percent
compare as `Probes` and `Cols` do. -/
theorem C140_oa (H H' : κ → U64 → U64) (np : Int → Int) (size seed extra : Int) (pd prime : Bool) (ht0 : HT κ) (ks ks' : List κ) (dups2 dups2' : Int) (dur dur' : Nat)
    (hnew : newHashTable np size seed extra pd true prime = .ok ht0) (hpos : 0 < ht0.buckets.length) (hroom : ks.length ≤ ht0.buckets.length)
    (hks : ks ≠ []) (hsame : ks'.length = ks.length) (hsmall : ks.length ≤ 2 ^ 25) :
    ∃ ht ht' c c' p p', insertAll (pureEnv H (fun _ => true)) () ht0 ks = .ok ((), ht) ∧ insertAll (pureEnv H' (fun _ => true)) () ht0 ks' = .ok ((), ht') ∧
      ("cpi", .float (.num c)) ∈ print ht dups2 dur ∧ ("cpi", .float (.num c')) ∈ print ht' dups2' dur' ∧
      ("ppi", .float (.num p)) ∈ print ht dups2 dur ∧ ("ppi", .float (.num p')) ∈ print ht' dups2' dur' ∧
      (c < c' ↔ ht.cols < ht'.cols) ∧ (c = c' ↔ ht.cols = ht'.cols) ∧ (p < p' ↔ ht.probes < ht'.probes) ∧ (p = p' ↔ ht.probes = ht'.probes) := by
  have hlen := List.length_pos_iff.2 hks
  obtain ⟨ht, h1, b1, b2, b3, b4⟩ := shown_oa H np size seed extra pd prime ht0 ks dups2 dur hnew hpos hroom hlen hsmall
  obtain ⟨ht', g1, g2, g3, g4, g5⟩ := shown_oa H' np size seed extra pd prime ht0 ks' dups2' dur' hnew hpos (by omega) (by omega) (by omega)
  rw [hsame] at g4 g5
  have tri : ∀ (f : Nat → ℚ) (a a' : Nat), (a < a' → f a < f a') → (a' < a → f a' < f a) → (f a < f a' ↔ a < a') ∧ (f a = f a' ↔ a = a') := by
    intro f a a' l1 l2
    refine ⟨⟨fun h => ?_, l1⟩, ⟨fun h => ?_, fun h => by rw [h]⟩⟩
    · rcases Nat.lt_trichotomy a a' with g | g | g
      · exact g
      · rw [g] at h; exact absurd h (lt_irrefl _)
      · exact absurd (h.trans (l2 g)) (lt_irrefl _)
    · rcases Nat.lt_trichotomy a a' with g | g | g
      · exact absurd h (l1 g).ne
      · exact g
      · exact absurd h (l2 g).ne'
  have t1 := tri (fun a : Nat => fl (fl ((a : ℚ) / (ks.length : Nat)) * 100)) ht.cols ht'.cols (fun h => (ratio_strict _ _ _ hlen b1 h).2) (fun h => (ratio_strict _ _ _ hlen g2 h).2)
  have t2 := tri (fun a : Nat => fl ((a : ℚ) / (ks.length : Nat))) ht.probes ht'.probes (fun h => (ratio_strict _ _ _ hlen b2 h).1) (fun h => (ratio_strict _ _ _ hlen g3 h).1)
  exact ⟨ht, ht', _, _, _, _, h1, g1, b3, g4, b4, g5, t1.1, t1.2, t2.1, t2.2⟩

/-- C140_oa at work: the two orders of three keys of C130 differ in `Probes` (5 and 4) and in `Cols` (0 and 1), and so do the printed ratios. -/
example : ∃ (ht0 ht ht' : HT (List U8)) (c c' p p' : ℚ), newHashTable id 3 0 0 false true false = .ok ht0 ∧
    insertAll (pureEnv (fun k _ => BitVec.ofNat 64 (leNat k)) (fun _ => true)) () ht0 [[0], [4], [1]] = .ok ((), ht) ∧
    insertAll (pureEnv (fun k _ => BitVec.ofNat 64 (leNat k)) (fun _ => true)) () ht0 [[0], [1], [4]] = .ok ((), ht') ∧
    ("cpi", .float (.num c)) ∈ print ht 0 0 ∧ ("cpi", .float (.num c')) ∈ print ht' 0 0 ∧ ("ppi", .float (.num p)) ∈ print ht 0 0 ∧
      ("ppi", .float (.num p')) ∈ print ht' 0 0 ∧ c < c' ∧ p' < p := by
  obtain ⟨t', t, c', c, p', p, g1, g2, a1, a2, a3, a4, _, _, a5, _⟩ := C140_oa (fun k _ => BitVec.ofNat 64 (leNat k)) (fun k _ => BitVec.ofNat 64 (leNat k)) id 3 0 0 false false _
    ([[0], [1], [4]] : List (List U8)) [[0], [4], [1]] 0 0 0 0 rfl (by decide) (by decide) (by decide) rfl (by decide)
  obtain ⟨u, u', d, d', r, r', k1, k2, b1, b2, b3, b4, b5, _, _, _⟩ := C140_oa (fun k _ => BitVec.ofNat 64 (leNat k)) (fun k _ => BitVec.ofNat 64 (leNat k)) id 3 0 0 false false _
    ([[0], [4], [1]] : List (List U8)) [[0], [1], [4]] 0 0 0 0 rfl (by decide) (by decide) (by decide) rfl (by decide)
  have e1 : t.probes = 5 ∧ u.cols = 0 := ⟨by cases Except.ok.inj g2; decide +kernel, by cases Except.ok.inj k1; decide +kernel⟩
  have e2 : t'.probes = 4 ∧ u'.cols = 1 := ⟨by cases Except.ok.inj g1; decide +kernel, by cases Except.ok.inj k2; decide +kernel⟩
  have hu : u = t := by rw [g2] at k1; exact (congrArg Prod.snd (Except.ok.inj k1)).symm
  have hu' : u' = t' := by rw [g1] at k2; exact (congrArg Prod.snd (Except.ok.inj k2)).symm
  rw [hu] at k1 b1
  rw [hu'] at k2 b2
  exact ⟨_, t, t', d, d', p, p', rfl, k1, k2, b1, b2, a4, a3, b5.2 (by omega), a5.2 (by omega)⟩

end Verif.Props.Printed
