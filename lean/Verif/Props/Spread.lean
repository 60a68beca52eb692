import Verif.Props.Random
import Mathlib.Tactic.Positivity

/-! Property C133: how far a function chosen at random strays from the means of C129 and C132. -/

namespace Verif.Props.Spread
open Verif Verif.HashTable Verif.Spec.HashTable Verif.Parking

variable {κ : Type}

theorem eqPairs_snoc : ∀ (l : List Nat) (a : Nat), eqPairs (l ++ [a]) = eqPairs l + l.count a
  | [], a => by simp [eqPairs]
  | x :: l, a => by
    rw [List.cons_append, eqPairs, eqPairs, eqPairs_snoc l a, List.countP_append, List.count_cons]
    have : [a].countP (fun y => decide (y = x)) = if x == a then 1 else 0 := by
      by_cases h : a = x
      · subst h; simp
      · have h' : ¬ x = a := fun e => h e.symm
        simp [h, h']
    rw [this]
    omega

theorem load_id (l : List Nat) (i : Nat) : Verif.Props.Quality.load id l i = l.count i := by
  unfold Verif.Props.Quality.load List.count
  apply List.countP_congr
  intro x _
  simp

theorem sum_count {n m : Nat} (g : Fin n → Fin m) :
    ∑ a : Fin m, (homes g).count a.val = n := by
  have h := Verif.Props.Quality.sum_load id m (homes g) (homes_lt g)
  rw [homes_length] at h
  simp only [load_id] at h
  rw [Fin.sum_univ_eq_sum_range (fun a => (homes g).count a), h]

theorem sum_count_sq {n m : Nat} (g : Fin n → Fin m) :
    ∑ a : Fin m, (homes g).count a.val ^ 2 = n + 2 * eqPairs (homes g) := by
  have h := Verif.Props.Quality.sum_sq id m (homes g) (homes_lt g)
  have h0 := Verif.Props.Quality.sum_load id m (homes g) (homes_lt g)
  rw [homes_length] at h h0
  simp only [load_id, List.map_id] at h h0
  rw [Fin.sum_univ_eq_sum_range (fun a => (homes g).count a ^ 2)]
  have : ∀ i, (homes g).count i * ((homes g).count i + 1) = (homes g).count i ^ 2 + (homes g).count i := fun i => by ring
  simp only [this, Finset.sum_add_distrib, h0] at h
  omega

theorem sum_eqPairs_sq_succ (m n : Nat) : ∑ f : Fin (n + 1) → Fin m, eqPairs (homes f) ^ 2 =
    m * ∑ f : Fin n → Fin m, eqPairs (homes f) ^ 2 + (2 * n + 2) * ∑ f : Fin n → Fin m, eqPairs (homes f) + n * m ^ n := by
  rw [sum_snoc, Finset.mul_sum, Finset.mul_sum, ← Finset.sum_add_distrib]
  have hc : n * m ^ n = ∑ _f : Fin n → Fin m, n := by
    simp only [Finset.sum_const, Finset.card_univ, Fintype.card_fun, Fintype.card_fin, smul_eq_mul]; ring
  rw [hc, ← Finset.sum_add_distrib]
  refine Finset.sum_congr rfl fun g _ => ?_
  have : ∀ a : Fin m, eqPairs (homes (Fin.snoc (α := fun _ => Fin m) g a)) ^ 2 =
      eqPairs (homes g) ^ 2 + 2 * eqPairs (homes g) * (homes g).count a.val + (homes g).count a.val ^ 2 := by
    intro a
    rw [homes_snoc, eqPairs_snoc]; ring
  simp only [this, Finset.sum_add_distrib, ← Finset.mul_sum, sum_count, sum_count_sq, Finset.sum_const, Finset.card_univ, Fintype.card_fin, smul_eq_mul]
  ring

theorem sum_eqPairs_rat (m n : Nat) : 2 * ((m : Rat) * ∑ f : Fin n → Fin m, (eqPairs (homes f) : Rat)) = n * (n - 1) * (m : Rat) ^ n := by
  have h1 := congrArg (Nat.cast (R := Rat)) (sum_eqPairs m n)
  rcases Nat.eq_zero_or_pos n with h0 | h0
  · subst h0; simp at h1 ⊢; exact h1
  · push_cast [Nat.cast_sub h0] at h1
    exact h1

theorem sum_eqPairs_sq (m : Nat) : ∀ n : Nat, 4 * (m : Rat) ^ 2 * ∑ f : Fin n → Fin m, (eqPairs (homes f) : Rat) ^ 2 =
    (n * (n - 1) * (2 * m) + n * (n - 1) * (n * (n - 1) - 2)) * (m : Rat) ^ n
  | 0 => by simp [homes, eqPairs]
  | n + 1 => by
    have h1 := congrArg (Nat.cast (R := Rat)) (sum_eqPairs_sq_succ m n)
    have h2 := sum_eqPairs_rat m n
    have ih := sum_eqPairs_sq m n
    push_cast at h1 ⊢
    rw [h1, pow_succ]
    linear_combination (m : Rat) * ih + 2 * m * (2 * n + 2) * h2

/-- The squared distances of the number of pairs from its mean. -/
theorem sum_dev (m n : Nat) (hm : 0 < m) :
    (∑ f : Fin n → Fin m, ((eqPairs (homes f) : Rat) - n * (n - 1) / (2 * m)) ^ 2) / ((m ^ n : Nat) : Rat) =
      n * (n - 1) / (2 * m) * (1 - 1 / m) := by
  have hm' : (m : Rat) ≠ 0 := by exact_mod_cast (by omega : m ≠ 0)
  have hp := pow_ne_zero n hm'
  have h1 := sum_eqPairs_rat m n
  have h2 := sum_eqPairs_sq m n
  have : ∀ x : Rat, (x - n * (n - 1) / (2 * m)) ^ 2 = x ^ 2 - n * (n - 1) / m * x + (n * (n - 1) / (2 * m)) ^ 2 := by
    intro x; field_simp; ring
  simp only [this, Finset.sum_add_distrib, Finset.sum_sub_distrib, ← Finset.mul_sum, Finset.sum_const, Finset.card_univ, Fintype.card_fun, Fintype.card_fin, nsmul_eq_mul]
  push_cast
  rw [div_eq_iff hp]
  generalize (∑ f : Fin n → Fin m, (eqPairs (homes f) : Rat) ^ 2) = A at *
  generalize (∑ f : Fin n → Fin m, (eqPairs (homes f) : Rat)) = B at *
  field_simp
  linear_combination h2 - 2 * (n : Rat) * (n - 1) * h1

/-- Chebyshev's inequality for a finite sum. -/
theorem chebyshev {Ω : Type} [Fintype Ω] (x : Ω → Rat) (c t : Rat) (ht : 0 < t) :
    ((Finset.univ.filter fun w => t ≤ |x w - c|).card : Rat) * t ^ 2 ≤ ∑ w, (x w - c) ^ 2 := by
  rw [Finset.card_filter]
  push_cast
  rw [Finset.sum_mul]
  refine Finset.sum_le_sum fun w _ => ?_
  split
  · rename_i h
    rw [one_mul, ← sq_abs (x w - c)]
    exact pow_le_pow_left₀ ht.le h 2
  · rw [zero_mul]; positivity

/-- Over all ways to give `n` keys one of `V` hash values each, in both modes: the variance of `Dups` is
`n(n-1)/(2V) · (1 - 1/V)`, so `Dups` is `t` or more away from its mean in a share of at most `n(n-1)/(2V t²)`. -/
theorem C133_dups (np : Int → Int) (size seed extra : Int) (pd oa prime : Bool) (ht0 : HT κ)
    (n : Nat) (key : Fin n → κ)
    (hnew : newHashTable np size seed extra pd oa prime = .ok ht0)
    (hpos : 0 < ht0.buckets.length) (hroom : oa = true → n ≤ ht0.buckets.length)
    (V : Nat) (hV : 0 < V) (H : (Fin n → Fin V) → κ → U64 → U64)
    (hH : ∀ f i, (H f (key i) ht0.seed).toNat = f i) :
    ∃ r : (Fin n → Fin V) → HT κ,
      (∀ f, insertAll (pureEnv (H f) (fun _ => true)) () ht0 (List.ofFn key) = .ok ((), r f)) ∧
      (∑ f, ((r f).dups - n * (n - 1) / (2 * V) : Rat) ^ 2) / ((V ^ n : Nat) : Rat) = n * (n - 1) / (2 * V) * (1 - 1 / V) ∧
      ∀ t : Rat, 0 < t → ((Finset.univ.filter fun f => t ≤ |((r f).dups : Rat) - n * (n - 1) / (2 * V)|).card : Rat) / ((V ^ n : Nat) : Rat) ≤
        n * (n - 1) / (2 * V * t ^ 2) := by
  have : ∀ f, ∃ ht : HT κ, insertAll (pureEnv (H f) (fun _ => true)) () ht0 (List.ofFn key) = .ok ((), ht) ∧
      ht.dups = eqPairs (homes f) := by
    intro f
    have e : eqPairs ((List.ofFn key).map fun k => H f k ht0.seed) = eqPairs (homes f) := by
      rw [← Random.eqPairs_map BitVec.toNat (fun x y h => BitVec.eq_of_toNat_eq h), List.map_ofFn, List.map_ofFn, homes]
      congr 2
      funext i
      exact hH f i
    rw [← e]
    cases oa with
    | false => exact C06_chain_dups (H f) np size seed extra pd prime ht0 (List.ofFn key) hnew hpos
    | true => exact C06_oa_dups (H f) np size seed extra pd prime ht0 (List.ofFn key) hnew hpos (by rw [List.length_ofFn]; exact hroom rfl)
  have hV' : (0 : Rat) < V := by exact_mod_cast hV
  have hp : (0 : Rat) < ((V ^ n : Nat) : Rat) := by exact_mod_cast Nat.pow_pos hV
  have hvar : (∑ f, (((this f).choose.dups : Rat) - n * (n - 1) / (2 * V)) ^ 2) / ((V ^ n : Nat) : Rat) = n * (n - 1) / (2 * V) * (1 - 1 / V) := by
    simp only [fun f => (this f).choose_spec.2]
    exact sum_dev V n hV
  refine ⟨fun f => (this f).choose, fun f => (this f).choose_spec.1, hvar, fun t ht => ?_⟩
  have hc := chebyshev (fun f => ((this f).choose.dups : Rat)) (n * (n - 1) / (2 * V)) t ht
  have hn : (0 : Rat) ≤ n * (n - 1) / (2 * V) := by
    rcases Nat.eq_zero_or_pos n with h0 | h0
    · subst h0; simp
    · have : (1 : Rat) ≤ n := by exact_mod_cast h0
      have : (0 : Rat) ≤ n - 1 := by linarith
      positivity
  have h1 : n * (n - 1) / (2 * V * t ^ 2) = (n * (n - 1) / (2 * V)) / t ^ 2 := by rw [div_div]
  rw [h1, le_div_iff₀ (by positivity), div_mul_eq_mul_div]
  refine (div_le_div_of_nonneg_right hc hp.le).trans ?_
  rw [hvar]
  have : (0 : Rat) ≤ 1 / V := by positivity
  nlinarith

/-- C133_dups at work: two keys, three hash values, nine assignments. -/
example : ∃ ht0 : HT (Fin 2), newHashTable id 3 0 0 false true false = .ok ht0 ∧ ∃ r : (Fin 2 → Fin 3) → HT (Fin 2),
    (∀ f, insertAll (pureEnv (fun k _ => BitVec.ofNat 64 (f k).val) (fun _ => true)) () ht0 (List.ofFn id) = .ok ((), r f)) ∧
    (∑ f, ((r f).dups - (2 : Nat) * ((2 : Nat) - 1) / (2 * (3 : Nat)) : Rat) ^ 2) / ((3 ^ 2 : Nat) : Rat) = 2 / 9 :=
  have ⟨r, h1, h2, _⟩ := C133_dups id 3 0 0 false true false _ 2 id rfl (by decide) (fun _ => by decide) 3 (by decide) (fun f k _ => BitVec.ofNat 64 (f k).val)
    (fun f i => by
      have : ∀ a : Fin 3, (BitVec.ofNat 64 a.val).toNat = a := by decide
      exact this (f i))
  ⟨_, rfl, r, h1, h2.trans (by decide +kernel)⟩

theorem quality_spread (n m : Nat) (hn : 0 < n) (hpos : 0 < m) (q : (Fin n → Fin m) → Rat)
    (hq : ∀ f, q f = Quality.valueFor n m (eqPairs (homes f))) :
    (∑ f, (q f - 1) ^ 2) / ((m ^ n : Nat) : Rat) = 2 * (n - 1) * (m - 1) / (n * (n + 2 * m - 1) ^ 2) ∧
    ∀ ε : Rat, 0 < ε → ((Finset.univ.filter fun f => ε ≤ |q f - 1|).card : Rat) / ((m ^ n : Nat) : Rat) ≤ 1 / (2 * m * ε ^ 2) := by
  have hm : (1 : Rat) ≤ m := by exact_mod_cast hpos
  have hn' : (1 : Rat) ≤ n := by exact_mod_cast hn
  have hp : (0 : Rat) < ((m ^ n : Nat) : Rat) := by exact_mod_cast Nat.pow_pos hpos
  have hd : (0 : Rat) < n + 2 * m - 1 := by linarith
  have hd' := hd.ne'
  have hm0 : (m : Rat) ≠ 0 := by linarith
  have hn0 : (n : Rat) ≠ 0 := by linarith
  have hvar : (∑ f, (q f - 1) ^ 2) / ((m ^ n : Nat) : Rat) = 2 * (n - 1) * (m - 1) / (n * (n + 2 * m - 1) ^ 2) := by
    simp only [hq, Quality.valueFor]
    have he : ∀ e : Rat, (m * (2 * n + 2 * e) / (n * (n + 2 * m - 1)) - 1) ^ 2 =
        (2 * m / (n * (n + 2 * m - 1))) ^ 2 * (e - n * (n - 1) / (2 * m)) ^ 2 := by
      intro e
      have hb : (n : Rat) * (n + 2 * m - 1) ≠ 0 := mul_ne_zero hn0 hd'
      rw [← mul_pow, div_mul_eq_mul_div, div_sub_one hb]
      congr 2
      field_simp
      ring
    simp only [he, ← Finset.mul_sum]
    rw [mul_div_assoc, sum_dev m n hpos]
    field_simp
  refine ⟨hvar, fun ε hε => ?_⟩
  have hc := chebyshev q 1 ε hε
  have h1 : (1 : Rat) / (2 * m * ε ^ 2) = (1 / (2 * m)) / ε ^ 2 := by rw [div_div]
  rw [h1, le_div_iff₀ (by positivity), div_mul_eq_mul_div]
  refine (div_le_div_of_nonneg_right hc hp.le).trans ?_
  rw [hvar, div_le_div_iff₀ (by positivity) (by positivity)]
  have a1 : (2 * m : Rat) ^ 2 ≤ (n + 2 * m - 1) ^ 2 := pow_le_pow_left₀ (by linarith) (by linarith) 2
  have a2 : (n : Rat) * (2 * m) ^ 2 ≤ n * (n + 2 * m - 1) ^ 2 := mul_le_mul_of_nonneg_left a1 (by linarith)
  have a3 : (0 : Rat) ≤ n * m := by positivity
  nlinarith [mul_nonneg (sub_nonneg.2 hn') (sub_nonneg.2 hm), mul_nonneg a3 (by linarith : (0 : Rat) ≤ m)]

/-- Chaining, over all `Size^n` ways to send `n` keys to buckets: `HashQuality` has mean 1 and variance `2(n-1)(Size-1)/(n(n+2Size-1)²)`,
so, whatever `n`, it is `ε` or more away from 1 in a share of at most `1/(2 Size ε²)`. -/
theorem C133_quality (np : Int → Int) (size seed extra : Int) (pd prime : Bool) (ht0 : HT κ)
    (n : Nat) (key : Fin n → κ) (hn : 0 < n)
    (hnew : newHashTable np size seed extra pd false prime = .ok ht0)
    (hpos : 0 < ht0.buckets.length)
    (H : (Fin n → Fin ht0.buckets.length) → κ → U64 → U64)
    (hH : ∀ f i, homeOf prime ht0.buckets.length (H f (key i) ht0.seed) = f i) :
    ∃ r : (Fin n → Fin ht0.buckets.length) → HT κ,
      (∀ f, insertAll (pureEnv (H f) (fun _ => true)) () ht0 (List.ofFn key) = .ok ((), r f)) ∧
      (∑ f, (hashQuality (r f) - 1) ^ 2) / ((ht0.buckets.length ^ n : Nat) : Rat) =
        2 * (n - 1) * (ht0.buckets.length - 1) / (n * (n + 2 * ht0.buckets.length - 1) ^ 2) ∧
      ∀ ε : Rat, 0 < ε → ((Finset.univ.filter fun f => ε ≤ |hashQuality (r f) - 1|).card : Rat) / ((ht0.buckets.length ^ n : Nat) : Rat) ≤
        1 / (2 * ht0.buckets.length * ε ^ 2) := by
  have hks : List.ofFn key ≠ [] := by
    intro h; have := congrArg List.length h; rw [List.length_ofFn] at this; simp at this; omega
  have : ∀ f, ∃ ht : HT κ, insertAll (pureEnv (H f) (fun _ => true)) () ht0 (List.ofFn key) = .ok ((), ht) ∧
      hashQuality ht = Quality.valueFor n ht0.buckets.length (eqPairs (homes f)) := by
    intro f
    obtain ⟨ht, h1, h2⟩ := Quality.C129_pairs (H f) np size seed extra pd prime ht0 (List.ofFn key) hnew hpos hks
    refine ⟨ht, h1, h2.trans ?_⟩
    rw [List.length_ofFn, List.map_ofFn, homes]
    congr 3
    funext i
    exact hH f i
  obtain ⟨a, b⟩ := quality_spread n ht0.buckets.length hn hpos (fun f => hashQuality (this f).choose) fun f => (this f).choose_spec.2
  exact ⟨fun f => (this f).choose, fun f => (this f).choose_spec.1, a, b⟩

/-- C133_quality at work: two keys, four buckets, all sixteen assignments. -/
example : ∃ ht0 : HT (Fin 2), newHashTable id 3 0 0 false false false = .ok ht0 ∧ ∃ r : (Fin 2 → Fin 4) → HT (Fin 2),
    (∀ f, insertAll (pureEnv (fun k _ => BitVec.ofNat 64 (f k).val) (fun _ => true)) () ht0 (List.ofFn id) = .ok ((), r f)) ∧
    (∑ f, (hashQuality (r f) - 1) ^ 2) / ((4 ^ 2 : Nat) : Rat) = 1 / 27 :=
  have ⟨r, h1, h2, _⟩ := C133_quality id 3 0 0 false false _ 2 id (by decide) rfl (by decide) (fun f k _ => BitVec.ofNat 64 (f k).val)
    (fun f i => by
      have : ∀ a : Fin 4, homeOf false 4 (BitVec.ofNat 64 a.val) = a := by decide
      exact this (f i))
  ⟨_, rfl, r, h1, h2.trans (by decide +kernel)⟩

/-! ### Heads -/

theorem avoid2 (n m : Nat) (s t : Fin m) (hst : s ≠ t) :
    (Finset.univ.filter fun f : Fin n → Fin m => (∀ i, f i ≠ s) ∧ ∀ i, f i ≠ t).card = (m - 2) ^ n := by
  have e : (Finset.univ.filter fun f : Fin n → Fin m => (∀ i, f i ≠ s) ∧ ∀ i, f i ≠ t) =
      Finset.univ.filter fun f : Fin n → Fin m => ∀ i, ¬ (f i = s ∨ f i = t) := by
    ext f
    simp only [Finset.mem_filter, Finset.mem_univ, true_and, not_or, forall_and]
  rw [e, ← Fintype.card_subtype, Fintype.card_congr (Equiv.subtypePiEquivPi (p := fun _ x => ¬ (x = s ∨ x = t))), Fintype.card_fun, Fintype.card_fin]
  congr 1
  rw [Fintype.card_subtype_compl, Fintype.card_fin, Fintype.card_subtype]
  have : (Finset.univ.filter fun x : Fin m => x = s ∨ x = t) = {s, t} := by
    ext x; simp
  rw [this, Finset.card_pair hst]

/-- The number of buckets left empty. -/
def empties {n m : Nat} (f : Fin n → Fin m) : Nat := (Finset.univ.filter fun s => ∀ i, f i ≠ s).card

theorem empties_used {n m : Nat} (f : Fin n → Fin m) :
    empties f + (Finset.univ.filter fun s => ∃ i, f i = s).card = m := by
  have h := Finset.card_filter_add_card_filter_not (s := (Finset.univ : Finset (Fin m))) (fun s => ∃ i, f i = s)
  rw [Finset.card_univ, Fintype.card_fin] at h
  have e : (Finset.univ.filter fun s : Fin m => ¬ ∃ i, f i = s) = Finset.univ.filter fun s => ∀ i, f i ≠ s := by
    ext s; simp
  rw [e] at h
  unfold empties
  omega

theorem sum_empties (n m : Nat) : ∑ f : Fin n → Fin m, empties f = m * (m - 1) ^ n := by
  have : ∑ f : Fin n → Fin m, empties f = ∑ s : Fin m, (Finset.univ.filter fun f : Fin n → Fin m => ∀ i, f i ≠ s).card := by
    unfold empties
    simp only [Finset.card_filter]
    rw [Finset.sum_comm]
  rw [this]
  simp only [Random.avoid, Finset.sum_const, Finset.card_univ, Fintype.card_fin, smul_eq_mul]

theorem sum_empties_sq (n m : Nat) : ∑ f : Fin n → Fin m, empties f ^ 2 = m * (m - 1) ^ n + m * ((m - 1) * (m - 2) ^ n) := by
  have h1 : ∑ f : Fin n → Fin m, empties f ^ 2 =
      ∑ s : Fin m, ∑ t : Fin m, (Finset.univ.filter fun f : Fin n → Fin m => (∀ i, f i ≠ s) ∧ ∀ i, f i ≠ t).card := by
    unfold empties
    simp only [Finset.card_filter, sq, Finset.sum_mul_sum]
    rw [Finset.sum_comm]
    refine Finset.sum_congr rfl fun s _ => ?_
    rw [Finset.sum_comm]
    refine Finset.sum_congr rfl fun t _ => Finset.sum_congr rfl fun f _ => ?_
    by_cases a : ∀ i, f i ≠ s
    · by_cases b : ∀ i, f i ≠ t
      · rw [if_pos a, if_pos b, if_pos ⟨a, b⟩, Nat.mul_one]
      · rw [if_pos a, if_neg b, if_neg fun h => b h.2, Nat.mul_zero]
    · rw [if_neg a, Nat.zero_mul, if_neg fun h => a h.1]
  have h2 : ∀ s : Fin m, ∑ t : Fin m, (Finset.univ.filter fun f : Fin n → Fin m => (∀ i, f i ≠ s) ∧ ∀ i, f i ≠ t).card =
      (m - 1) ^ n + (m - 1) * (m - 2) ^ n := by
    intro s
    rw [← Finset.add_sum_erase _ _ (Finset.mem_univ s)]
    congr 1
    · simp only [and_self, Random.avoid]
    · rw [Finset.sum_congr rfl fun t ht => avoid2 n m s t (fun e => (Finset.mem_erase.1 ht).1 e.symm)]
      rw [Finset.sum_const, Finset.card_erase_of_mem (Finset.mem_univ s), Finset.card_univ, Fintype.card_fin, smul_eq_mul]
  rw [h1]
  simp only [h2, Finset.sum_const, Finset.card_univ, Fintype.card_fin, smul_eq_mul]
  ring

/-- Chaining, over all `Size^n` ways to send `n` keys to buckets: the variance of `Heads`. -/
theorem C133_heads (np : Int → Int) (size seed extra : Int) (pd prime : Bool) (ht0 : HT κ)
    (n : Nat) (key : Fin n → κ)
    (hnew : newHashTable np size seed extra pd false prime = .ok ht0)
    (hpos : 0 < ht0.buckets.length)
    (H : (Fin n → Fin ht0.buckets.length) → κ → U64 → U64)
    (hH : ∀ f i, homeOf prime ht0.buckets.length (H f (key i) ht0.seed) = f i) :
    ∃ r : (Fin n → Fin ht0.buckets.length) → HT κ,
      (∀ f, insertAll (pureEnv (H f) (fun _ => true)) () ht0 (List.ofFn key) = .ok ((), r f)) ∧
      let m : Rat := ht0.buckets.length
      (∑ f, ((r f).heads - (m - m * (1 - 1 / m) ^ n)) ^ 2) / ((ht0.buckets.length ^ n : Nat) : Rat) =
        m * (1 - 1 / m) ^ n + m * (m - 1) * (1 - 2 / m) ^ n - m ^ 2 * (1 - 1 / m) ^ (2 * n) := by
  have : ∀ f, ∃ ht : HT κ, insertAll (pureEnv (H f) (fun _ => true)) () ht0 (List.ofFn key) = .ok ((), ht) ∧
      (ht.heads : Rat) = ht0.buckets.length - empties f := by
    intro f
    obtain ⟨ht, h1, _, h3⟩ := Random.heads_eq (H f) np size seed extra pd prime ht0 (List.ofFn key) hnew hpos
    refine ⟨ht, h1, ?_⟩
    have hset : (Finset.univ.filter fun s : Fin ht0.buckets.length => ∃ k ∈ List.ofFn key, homeOf prime ht0.buckets.length (H f k ht0.seed) = s) =
        Finset.univ.filter fun s : Fin ht0.buckets.length => ∃ i, f i = s := by
      ext s
      simp only [Finset.mem_filter, Finset.mem_univ, true_and, List.mem_ofFn]
      constructor
      · rintro ⟨k, ⟨i, rfl⟩, hk⟩
        exact ⟨i, Fin.ext (by rw [← hH f i]; exact hk)⟩
      · rintro ⟨i, rfl⟩
        exact ⟨key i, ⟨i, rfl⟩, hH f i⟩
    rw [hset] at h3
    have := congrArg (Nat.cast (R := Rat)) (empties_used f)
    rw [← h3] at this
    push_cast at this
    linarith
  refine ⟨fun f => (this f).choose, fun f => (this f).choose_spec.1, ?_⟩
  simp only [fun f => (this f).choose_spec.2]
  have key : ∀ m : Nat, 0 < m → (∑ f : Fin n → Fin m, ((m - empties f : Rat) - (m - m * (1 - 1 / m) ^ n)) ^ 2) / ((m ^ n : Nat) : Rat) =
        m * (1 - 1 / m) ^ n + m * (m - 1) * (1 - 2 / m) ^ n - m ^ 2 * (1 - 1 / m) ^ (2 * n) := by
    intro m hpos
    have hm : (m : Rat) ≠ 0 := by exact_mod_cast (by omega : m ≠ 0)
    have hp := pow_ne_zero n hm
    have h1 := congrArg (Nat.cast (R := Rat)) (sum_empties n m)
    have h2 := congrArg (Nat.cast (R := Rat)) (sum_empties_sq n m)
    push_cast [Nat.cast_sub (show 1 ≤ m from hpos)] at h1 h2
    have h3 : ((m : Rat) - 1) * ((m - 2 : Nat) : Rat) ^ n = (m - 1) * (m - 2) ^ n := by
      rcases Nat.lt_or_ge 1 m with h | h
      · push_cast [Nat.cast_sub (show 2 ≤ m from h)]; rfl
      · have : m = 1 := by omega
        subst this; simp
    rw [h3] at h2
    have a1 : (1 - 1 / m : Rat) = (m - 1) / m := by field_simp
    have a2 : (1 - 2 / m : Rat) = (m - 2) / m := by field_simp
    rw [a1, a2, Nat.mul_comm 2 n, pow_mul, div_pow, div_pow]
    have e : ∀ x : Rat, ((m - x) - (m - m * ((m - 1) ^ n / m ^ n))) ^ 2 =
        x ^ 2 - 2 * (m * ((m - 1) ^ n / m ^ n)) * x + (m * ((m - 1) ^ n / m ^ n)) ^ 2 := fun x => by ring
    simp only [e, Finset.sum_add_distrib, Finset.sum_sub_distrib, ← Finset.mul_sum, h1, h2, Finset.sum_const, Finset.card_univ, Fintype.card_fun, Fintype.card_fin, nsmul_eq_mul]
    push_cast
    field_simp
    ring
  exact key _ hpos

/-- C133_heads at work: two keys, four buckets, all sixteen assignments. -/
example : ∃ ht0 : HT (Fin 2), newHashTable id 3 0 0 false false false = .ok ht0 ∧ ∃ r : (Fin 2 → Fin 4) → HT (Fin 2),
    (∀ f, insertAll (pureEnv (fun k _ => BitVec.ofNat 64 (f k).val) (fun _ => true)) () ht0 (List.ofFn id) = .ok ((), r f)) ∧
    (∑ f, (((r f).heads : Rat) - ((4 : Nat) - (4 : Nat) * (1 - 1 / (4 : Nat)) ^ 2)) ^ 2) / ((4 ^ 2 : Nat) : Rat) = 3 / 16 :=
  have ⟨r, h1, h2⟩ := C133_heads id 3 0 0 false false _ 2 id rfl (by decide) (fun f k _ => BitVec.ofNat 64 (f k).val)
    (fun f i => by
      have : ∀ a : Fin 4, homeOf false 4 (BitVec.ofNat 64 a.val) = a := by decide
      exact this (f i))
  ⟨_, rfl, r, h1, h2.trans (by decide +kernel)⟩

end Verif.Props.Spread
