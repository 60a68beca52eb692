import Verif.Props.Random
import Mathlib.Tactic.LinearCombination
import Mathlib.Algebra.Order.Field.Basic
import Mathlib.Tactic.Positivity

/-! Property C138: what the next insert costs. -/

namespace Verif.Props.NextInsert
open Verif Verif.HashTable Verif.Spec.HashTable Verif.Parking Verif.Props.Parking

variable {κ : Type}

theorem desc_diff (n k : Nat) : (n + 1).descFactorial (k + 1) = n.descFactorial (k + 1) + (k + 1) * n.descFactorial k := by
  rw [Nat.succ_descFactorial_succ, Nat.descFactorial_succ]
  rcases Nat.lt_or_ge n k with h | h
  · rw [Nat.descFactorial_of_lt h]; simp
  · rw [← Nat.add_mul]
    congr 1
    omega

theorem desc_le (n : Nat) : ∀ k, n.descFactorial k ≤ n ^ k := Nat.descFactorial_le_pow n

/-- The first terms of the series of `1 / (1 - a)^2 - 1`. -/
theorem series (a : Rat) (N : Nat) :
    (∑ k ∈ Finset.range N, ((k : Rat) + 2) * a ^ (k + 1)) * (1 - a) ^ 2 = 1 - (1 - a) ^ 2 - ((N + 2) - (N + 1) * a) * a ^ (N + 1) := by
  induction N with
  | zero => simp; ring
  | succ N ih =>
    rw [Finset.sum_range_succ, add_mul, ih]
    push_cast
    ring

theorem series_le (a : Rat) (h0 : 0 ≤ a) (h1 : a < 1) (N : Nat) :
    ∑ k ∈ Finset.range N, ((k : Rat) + 2) * a ^ (k + 1) ≤ 1 / (1 - a) ^ 2 - 1 := by
  have hp : 0 < (1 - a) ^ 2 := by have : 0 < 1 - a := by linarith
                                  positivity
  have hs := series a N
  have hn : 0 ≤ ((N + 2) - (N + 1) * a) * a ^ (N + 1) := by
    have : (0 : Rat) ≤ (N + 2) - (N + 1) * a := by
      have : (0 : Rat) ≤ N := Nat.cast_nonneg N
      nlinarith
    positivity
  have hr : (1 / (1 - a) ^ 2 - 1) * (1 - a) ^ 2 = 1 - (1 - a) ^ 2 := by rw [sub_mul, one_mul, one_div, inv_mul_cancel₀ hp.ne']
  refine le_of_mul_le_mul_right ?_ hp
  rw [hs, hr]
  linarith

/-- One more key after `n` others. -/
theorem one_more (H : κ → U64 → U64) (np : Int → Int) (size seed extra : Int) (pd prime : Bool) (ht0 : HT κ) (ks : List κ) (k : κ)
    (hnew : newHashTable np size seed extra pd true prime = .ok ht0) (hroom : ks.length < ht0.buckets.length) :
    ∃ ht ht', insertAll (pureEnv H (fun _ => true)) () ht0 ks = .ok ((), ht) ∧
      insert (pureEnv H (fun _ => true)) () ht k = .ok ((), ht') ∧
      ht'.cols + ht'.probes + walked ht0.buckets.length (ks.map fun k => homeOf prime ht0.buckets.length (H k ht0.seed)) =
        ht.cols + ht.probes + 1 + walked ht0.buckets.length ((ks ++ [k]).map fun k => homeOf prime ht0.buckets.length (H k ht0.seed)) := by
  have hpos : 0 < ht0.buckets.length := by omega
  have hm : ht0.size.toNat = ht0.buckets.length := (newHashTable_wf hnew hpos).len.symm
  obtain ⟨ht, h1, h2⟩ := sim_main H np size seed extra pd prime ht0 ks hnew hpos (by omega)
  obtain ⟨ht', h3, h4⟩ := sim_step (k := k) h2 (by omega)
  refine ⟨ht, ht', h1, h3, ?_⟩
  have a1 := h2.probes
  have a2 := h2.cols
  have b1 := h4.probes
  have b2 := h4.cols
  rw [hm] at a1 a2 b1 b2
  rw [List.length_append, List.length_singleton] at b1
  omega

/-- C138. Over all `Size^(n+1)` ways to send `n + 1` keys to home slots, `n < Size`: the mean number of occupied slots the last of the inserts steps over is
`1/2 · ∑ (k+2) · n(n-1)…(n-k) / Size^(k+1)`, and at a load `a = n/Size` it is at most `1/2 · (1/(1-a)^2 - 1)`, whatever the size of the table. -/
theorem C138_next (np : Int → Int) (size seed extra : Int) (pd prime : Bool) (ht0 : HT κ)
    (n : Nat) (key : Fin (n + 1) → κ) (hn : n < ht0.buckets.length)
    (hnew : newHashTable np size seed extra pd true prime = .ok ht0)
    (H : (Fin (n + 1) → Fin ht0.buckets.length) → κ → U64 → U64)
    (hH : ∀ f i, homeOf prime ht0.buckets.length (H f (key i) ht0.seed) = f i) :
    ∃ r r' : (Fin (n + 1) → Fin ht0.buckets.length) → HT κ,
      (∀ f, insertAll (pureEnv (H f) (fun _ => true)) () ht0 (List.ofFn fun i : Fin n => key i.castSucc) = .ok ((), r f)) ∧
      (∀ f, insert (pureEnv (H f) (fun _ => true)) () (r f) (key (Fin.last n)) = .ok ((), r' f)) ∧
      (∑ f, ((((r' f).cols + (r' f).probes : Nat) : Rat) - (((r f).cols + (r f).probes : Nat) : Rat) - 1)) / ((ht0.buckets.length ^ (n + 1) : Nat) : Rat) =
        1 / 2 * ∑ k ∈ Finset.range n, ((k : Rat) + 2) * n.descFactorial (k + 1) / (ht0.buckets.length : Rat) ^ (k + 1) ∧
      1 / 2 * ∑ k ∈ Finset.range n, ((k : Rat) + 2) * n.descFactorial (k + 1) / (ht0.buckets.length : Rat) ^ (k + 1) ≤
        1 / 2 * (1 / (1 - (n : Rat) / ht0.buckets.length) ^ 2 - 1) := by
  have hall : ∀ f, ∃ x : HT κ × HT κ, insertAll (pureEnv (H f) (fun _ => true)) () ht0 (List.ofFn fun i : Fin n => key i.castSucc) = .ok ((), x.1) ∧
      insert (pureEnv (H f) (fun _ => true)) () x.1 (key (Fin.last n)) = .ok ((), x.2) ∧
      x.2.cols + x.2.probes + walked ht0.buckets.length (homes fun i : Fin n => f i.castSucc) =
        x.1.cols + x.1.probes + 1 + walked ht0.buckets.length (homes f) := by
    intro f
    obtain ⟨ht, ht', h1, h2, h3⟩ := one_more (H f) np size seed extra pd prime ht0 (List.ofFn fun i : Fin n => key i.castSucc) (key (Fin.last n)) hnew
      (by rw [List.length_ofFn]; exact hn)
    refine ⟨(ht, ht'), h1, h2, ?_⟩
    have e1 : ((List.ofFn fun i : Fin n => key i.castSucc).map fun k => homeOf prime ht0.buckets.length (H f k ht0.seed)) = homes fun i : Fin n => f i.castSucc := by
      rw [List.map_ofFn, homes]; congr 1; funext i; exact hH f i.castSucc
    have e2 : (((List.ofFn fun i : Fin n => key i.castSucc) ++ [key (Fin.last n)]).map fun k => homeOf prime ht0.buckets.length (H f k ht0.seed)) = homes f := by
      rw [List.map_append, e1, homes, homes, List.ofFn_succ', List.concat_eq_append, List.map_singleton, hH]
    rw [e1, e2] at h3
    exact h3
  choose x hx1 hx2 hx3 using hall
  refine ⟨fun f => (x f).1, fun f => (x f).2, hx1, hx2, ?_, ?_⟩
  · have hd : ∀ f, ((((x f).2.cols + (x f).2.probes : Nat) : Rat) - (((x f).1.cols + (x f).1.probes : Nat) : Rat) - 1) =
        (walked ht0.buckets.length (homes f) : Rat) - (walked ht0.buckets.length (homes fun i : Fin n => f i.castSucc) : Rat) := by
      intro f
      have := congrArg (Nat.cast (R := Rat)) (hx3 f)
      push_cast at this ⊢
      linear_combination this
    simp only [hd, Finset.sum_sub_distrib]
    generalize hm : ht0.buckets.length = m at *
    have hm0 : (m : Rat) ≠ 0 := by exact_mod_cast (by omega : m ≠ 0)
    have s1 := congrArg (Nat.cast (R := Rat)) (sum_walked (m := m) (n + 1) (by omega))
    have s2 := congrArg (Nat.cast (R := Rat)) (sum_walked (m := m) n (by omega))
    push_cast at s1 s2
    have s3 : ∑ f : Fin (n + 1) → Fin m, (walked m (homes fun i : Fin n => f i.castSucc) : Rat) = m * ∑ g : Fin n → Fin m, (walked m (homes g) : Rat) := by
      have := congrArg (Nat.cast (R := Rat)) (sum_snoc fun f : Fin (n + 1) → Fin m => walked m (homes fun i : Fin n => f i.castSucc))
      push_cast at this
      rw [this, Finset.mul_sum]
      refine Finset.sum_congr rfl fun g _ => ?_
      simp
    rw [s3]
    have t1 : ∑ f : Fin (n + 1) → Fin m, (walked m (homes f) : Rat) = 1 / 2 * ∑ k ∈ Finset.range (n + 1), ((n + 1).descFactorial (k + 2) : Rat) * (m : Rat) ^ (n - k) := by
      rw [← s1]; ring
    have t2 : ∑ f : Fin n → Fin m, (walked m (homes f) : Rat) = 1 / 2 * ∑ k ∈ Finset.range n, (n.descFactorial (k + 2) : Rat) * (m : Rat) ^ (n - 1 - k) := by
      rw [← s2]; ring
    rw [t1, t2, Finset.sum_range_succ, Nat.descFactorial_of_lt (show n + 1 < n + 2 by omega)]
    push_cast
    have hp := pow_ne_zero (n + 1) hm0
    rw [div_eq_iff hp, zero_mul, add_zero, mul_left_comm (m : Rat), ← mul_sub, mul_assoc, Finset.mul_sum, ← Finset.sum_sub_distrib, Finset.sum_mul]
    congr 1
    refine Finset.sum_congr rfl fun k hk => ?_
    have hk' := Finset.mem_range.1 hk
    have hdd := congrArg (Nat.cast (R := Rat)) (desc_diff n (k + 1))
    push_cast at hdd
    rw [show k + 1 + 1 = k + 2 from rfl] at hdd
    rw [hdd, show n - k = (n - 1 - k) + 1 from by omega, show n + 1 = (k + 1) + ((n - 1 - k) + 1) from by omega, pow_add (m : Rat) (k + 1)]
    field_simp
    ring
  · have ha0 : (0 : Rat) ≤ (n : Rat) / ht0.buckets.length := by positivity
    have hm : (0 : Rat) < ht0.buckets.length := by exact_mod_cast (by omega : 0 < ht0.buckets.length)
    have ha1 : (n : Rat) / ht0.buckets.length < 1 := by rw [div_lt_one hm]; exact_mod_cast hn
    refine mul_le_mul_of_nonneg_left (le_trans (Finset.sum_le_sum fun k _ => ?_) (series_le _ ha0 ha1 n)) (by norm_num)
    rw [div_pow, mul_div_assoc]
    refine mul_le_mul_of_nonneg_left ?_ (by positivity)
    rw [div_le_div_iff_of_pos_right (by positivity)]
    exact_mod_cast desc_le n (k + 1)

/-- C138 at work: the third key of a table with four slots, all sixty-four assignments. -/
example : ∃ ht0 : HT (Fin 3), newHashTable id 3 0 0 false true false = .ok ht0 ∧ ∃ r r' : (Fin 3 → Fin 4) → HT (Fin 3),
    (∀ f, insertAll (pureEnv (fun k _ => BitVec.ofNat 64 (f k).val) (fun _ => true)) () ht0 [0, 1] = .ok ((), r f)) ∧
    (∀ f, insert (pureEnv (fun k _ => BitVec.ofNat 64 (f k).val) (fun _ => true)) () (r f) 2 = .ok ((), r' f)) ∧
    (∑ f, ((((r' f).cols + (r' f).probes : Nat) : Rat) - (((r f).cols + (r f).probes : Nat) : Rat) - 1)) / ((4 ^ 3 : Nat) : Rat) = 11 / 16 :=
  have ⟨r, r', h1, h2, h3, _⟩ := C138_next id 3 0 0 false false _ 2 id (by decide) rfl (fun f k _ => BitVec.ofNat 64 (f k).val)
    (fun f i => by
      have : ∀ a : Fin 4, homeOf false 4 (BitVec.ofNat 64 a.val) = a := by decide
      exact this (f i))
  ⟨_, rfl, r, r', h1, h2, h3.trans (by decide +kernel)⟩

theorem geom (a : Rat) (N : Nat) : (∑ k ∈ Finset.range N, a ^ (k + 1)) * (1 - a) = a - a ^ (N + 1) := by
  induction N with
  | zero => simp
  | succ N ih => rw [Finset.sum_range_succ, add_mul, ih]; ring

/-- C138. Over all assignments of `n < Size` keys, at a load `a = n/Size`: the mean number of occupied slots all the inserts together step over is at most
`n/2 · a/(1-a)`. -/
theorem C138_total (np : Int → Int) (size seed extra : Int) (pd prime : Bool) (ht0 : HT κ)
    (n : Nat) (key : Fin n → κ) (hn : n < ht0.buckets.length)
    (hnew : newHashTable np size seed extra pd true prime = .ok ht0)
    (H : (Fin n → Fin ht0.buckets.length) → κ → U64 → U64)
    (hH : ∀ f i, homeOf prime ht0.buckets.length (H f (key i) ht0.seed) = f i) :
    ∃ r : (Fin n → Fin ht0.buckets.length) → HT κ,
      (∀ f, insertAll (pureEnv (H f) (fun _ => true)) () ht0 (List.ofFn key) = .ok ((), r f)) ∧
      (∑ f, (((r f).cols + ((r f).probes - (r f).inserts) : Nat) : Rat)) / ((ht0.buckets.length ^ n : Nat) : Rat) ≤
        (n : Rat) / 2 * (((n : Rat) / ht0.buckets.length) / (1 - (n : Rat) / ht0.buckets.length)) := by
  obtain ⟨r, h1, h2⟩ := C131_walk np size seed extra pd prime ht0 n key (by omega) hnew (by omega) H hH
  refine ⟨r, h1, h2.trans_le ?_⟩
  have ha0 : (0 : Rat) ≤ (n : Rat) / ht0.buckets.length := by positivity
  have hm : (0 : Rat) < ht0.buckets.length := by exact_mod_cast (by omega : 0 < ht0.buckets.length)
  have ha1 : (n : Rat) / ht0.buckets.length < 1 := by rw [div_lt_one hm]; exact_mod_cast hn
  have hterm : ∀ k ∈ Finset.range n, (n.descFactorial (k + 2) : Rat) / (ht0.buckets.length : Rat) ^ (k + 1) ≤ n * ((n : Rat) / ht0.buckets.length) ^ (k + 1) := by
    intro k _
    rw [div_pow, ← mul_div_assoc, div_le_div_iff_of_pos_right (by positivity), ← pow_succ']
    exact_mod_cast desc_le n (k + 2)
  have hsum := Finset.sum_le_sum hterm
  rw [← Finset.mul_sum] at hsum
  have hg := geom ((n : Rat) / ht0.buckets.length) n
  generalize (n : Rat) / ht0.buckets.length = a at *
  have h1a : 0 < 1 - a := by linarith
  have hge : ∑ k ∈ Finset.range n, a ^ (k + 1) ≤ a / (1 - a) := by
    rw [le_div_iff₀ h1a, hg]
    have : 0 ≤ a ^ (n + 1) := by positivity
    linarith
  have hn0 : (0 : Rat) ≤ n := Nat.cast_nonneg n
  have := mul_le_mul_of_nonneg_left hge hn0
  linarith

/-- C138_total at work: three keys in four slots. -/
example : ∃ ht0 : HT (Fin 3), newHashTable id 3 0 0 false true false = .ok ht0 ∧ ∃ r : (Fin 3 → Fin 4) → HT (Fin 3),
    (∀ f, insertAll (pureEnv (fun k _ => BitVec.ofNat 64 (f k).val) (fun _ => true)) () ht0 (List.ofFn id) = .ok ((), r f)) ∧
    (∑ f, (((r f).cols + ((r f).probes - (r f).inserts) : Nat) : Rat)) / ((4 ^ 3 : Nat) : Rat) ≤ 9 / 2 :=
  have ⟨r, h1, h2⟩ := C138_total id 3 0 0 false false _ 3 id (by decide) rfl (fun f k _ => BitVec.ofNat 64 (f k).val)
    (fun f i => by
      have : ∀ a : Fin 4, homeOf false 4 (BitVec.ofNat 64 a.val) = a := by decide
      exact this (f i))
  ⟨_, rfl, r, h1, h2.trans (by decide +kernel)⟩

end Verif.Props.NextInsert
