import Verif.Props.Parking
import Verif.Props.Smhasher
import Mathlib.Data.Fintype.CardEmbedding
import Mathlib.Data.Set.Card
import Mathlib.SetTheory.Cardinal.Finite

/-! Property C132: what a function chosen at random scores: `Heads` and `Nbuckets` of a chained table, `Dups`, and the
collision check of the SMHasher tests. -/

namespace Verif.Props.Random
open Verif Verif.HashTable Verif.Spec.HashTable Verif.Parking

variable {κ : Type}

/-- How many assignments leave a value out. -/
theorem avoid (n m : Nat) (s : Fin m) :
    (Finset.univ.filter fun f : Fin n → Fin m => ∀ i, f i ≠ s).card = (m - 1) ^ n := by
  rw [← Fintype.card_subtype, Fintype.card_congr (Equiv.subtypePiEquivPi (p := fun _ x => x ≠ s)), Fintype.card_fun, Fintype.card_fin]
  congr 1
  rw [Fintype.card_subtype_compl, Fintype.card_fin, Fintype.card_subtype_eq]

theorem sum_used (n m : Nat) :
    ∑ f : Fin n → Fin m, (Finset.univ.filter fun s => ∃ i, f i = s).card + m * (m - 1) ^ n = m * m ^ n := by
  have h1 : ∑ f : Fin n → Fin m, (Finset.univ.filter fun s => ∃ i, f i = s).card + ∑ s : Fin m, (Finset.univ.filter fun f : Fin n → Fin m => ∀ i, f i ≠ s).card =
      m * m ^ n := by
    simp only [Finset.card_filter]
    rw [Finset.sum_comm, ← Finset.sum_add_distrib]
    have : ∀ s : Fin m, (∑ f : Fin n → Fin m, if ∃ i, f i = s then 1 else 0) + (∑ f : Fin n → Fin m, if ∀ i, f i ≠ s then 1 else 0) = m ^ n := by
      intro s
      rw [← Finset.sum_add_distrib]
      have : ∀ f : Fin n → Fin m, ((if ∃ i, f i = s then 1 else 0) + if ∀ i, f i ≠ s then 1 else 0) = 1 := by
        intro f
        by_cases h : ∃ i, f i = s
        · rw [if_pos h, if_neg (fun g => h.elim fun i hi => g i hi)]
        · rw [if_neg h, if_pos (fun i hi => h ⟨i, hi⟩)]
      simp only [this, Finset.sum_const, Finset.card_univ, Fintype.card_fun, Fintype.card_fin, smul_eq_mul, mul_one]
    simp only [this, Finset.sum_const, Finset.card_univ, Fintype.card_fin, smul_eq_mul]
  simp only [avoid, Finset.sum_const, Finset.card_univ, Fintype.card_fin, smul_eq_mul] at h1
  exact h1

/-- The non-empty buckets of a chained table are the homes of its keys. -/
theorem heads_eq (H : κ → U64 → U64) (np : Int → Int)
    (size seed extra : Int) (pd prime : Bool) (ht0 : HT κ) (ks : List κ)
    (hnew : newHashTable np size seed extra pd false prime = .ok ht0)
    (hpos : 0 < ht0.buckets.length) :
    ∃ ht, insertAll (pureEnv H (fun _ => true)) () ht0 ks = .ok ((), ht) ∧ ht.nbuckets = ks.length - ht.heads ∧
      ht.heads = (Finset.univ.filter fun s : Fin ht0.buckets.length => ∃ k ∈ ks, homeOf prime ht0.buckets.length (H k ht0.seed) = s).card := by
  obtain ⟨ht, h1, h2⟩ := C04_chain_contents H np size seed extra pd prime ht0 ks hnew hpos
  obtain ⟨_, a, e1, _, _, _, a4, a5, _⟩ := C05_chain_stats (pureEnv H (fun _ => true)) (fun _ => rfl)
    np size seed extra pd prime ht0 () ks hnew hpos
  rw [h1] at e1
  cases e1
  refine ⟨ht, h1, a5, ?_⟩
  rw [a4, h2, occupied, List.countP_map, Finset.card_filter,
    Fin.sum_univ_eq_sum_range (fun s => if ∃ k ∈ ks, homeOf prime ht0.buckets.length (H k ht0.seed) = s then 1 else 0)]
  have hc : ∀ (m : Nat) (p : Nat → Bool) (q : Nat → Prop) [DecidablePred q], (∀ i, p i = true ↔ q i) →
      (List.range m).countP p = ∑ i ∈ Finset.range m, if q i then 1 else 0 := by
    intro m p q _ hpq
    induction m with
    | zero => rfl
    | succ m ih =>
      rw [List.range_succ, List.countP_append, Finset.sum_range_succ, ih, List.countP_singleton]
      simp only [hpq]
  apply hc
  intro i
  simp only [Function.comp_apply, Bool.not_eq_true', List.isEmpty_eq_false_iff, ne_eq, List.filter_eq_nil_iff, decide_eq_true_eq]
  push Not
  rfl

/-- Chaining, over all `Size^n` ways to send `n` keys to buckets: the mean of `Heads` is `Size - Size(1 - 1/Size)^n`, and the mean of
`Nbuckets` is what is missing to `n`. -/
theorem C132_heads (np : Int → Int) (size seed extra : Int) (pd prime : Bool) (ht0 : HT κ)
    (n : Nat) (key : Fin n → κ)
    (hnew : newHashTable np size seed extra pd false prime = .ok ht0)
    (hpos : 0 < ht0.buckets.length)
    (H : (Fin n → Fin ht0.buckets.length) → κ → U64 → U64)
    (hH : ∀ f i, homeOf prime ht0.buckets.length (H f (key i) ht0.seed) = f i) :
    ∃ r : (Fin n → Fin ht0.buckets.length) → HT κ,
      (∀ f, insertAll (pureEnv (H f) (fun _ => true)) () ht0 (List.ofFn key) = .ok ((), r f)) ∧
      (∑ f, ((r f).heads : Rat)) / (ht0.buckets.length ^ n : Nat) =
        ht0.buckets.length - ht0.buckets.length * (1 - 1 / ht0.buckets.length) ^ n ∧
      (∑ f, ((r f).nbuckets : Rat)) / (ht0.buckets.length ^ n : Nat) =
        n - (ht0.buckets.length - ht0.buckets.length * (1 - 1 / ht0.buckets.length) ^ n) := by
  have : ∀ f, ∃ ht : HT κ, insertAll (pureEnv (H f) (fun _ => true)) () ht0 (List.ofFn key) = .ok ((), ht) ∧
      ht.nbuckets + ht.heads = n ∧
      ht.heads = (Finset.univ.filter fun s : Fin ht0.buckets.length => ∃ i, f i = s).card := by
    intro f
    obtain ⟨ht, h1, h2, h3⟩ := heads_eq (H f) np size seed extra pd prime ht0 (List.ofFn key) hnew hpos
    have hset : (Finset.univ.filter fun s : Fin ht0.buckets.length => ∃ k ∈ List.ofFn key, homeOf prime ht0.buckets.length (H f k ht0.seed) = s) =
        Finset.univ.filter fun s : Fin ht0.buckets.length => ∃ i, f i = s := by
      ext s
      simp only [Finset.mem_filter, Finset.mem_univ, true_and, List.mem_ofFn]
      constructor
      · rintro ⟨k, ⟨i, rfl⟩, hk⟩
        exact ⟨i, Fin.ext (by rw [← hH f i]; exact hk)⟩
      · rintro ⟨i, rfl⟩
        exact ⟨key i, ⟨i, rfl⟩, hH f i⟩
    rw [hset] at h3
    rw [List.length_ofFn] at h2
    have hle : (Finset.univ.filter fun s : Fin ht0.buckets.length => ∃ i, f i = s).card ≤ n := by
      have : (Finset.univ.filter fun s : Fin ht0.buckets.length => ∃ i, f i = s) = Finset.univ.image f := by
        ext s; simp
      rw [this]
      have := Finset.card_image_le (s := Finset.univ) (f := f)
      rwa [Finset.card_univ, Fintype.card_fin] at this
    exact ⟨ht, h1, by omega, h3⟩
  obtain ⟨r, hr⟩ : ∃ r : (Fin n → Fin ht0.buckets.length) → HT κ, ∀ f, insertAll (pureEnv (H f) (fun _ => true)) () ht0 (List.ofFn key) = .ok ((), r f) ∧
      (r f).nbuckets + (r f).heads = n ∧
      (r f).heads = (Finset.univ.filter fun s : Fin ht0.buckets.length => ∃ i, f i = s).card :=
    ⟨fun f => (this f).choose, fun f => (this f).choose_spec⟩
  have hm : (ht0.buckets.length : Rat) ≠ 0 := by exact_mod_cast (by omega : ht0.buckets.length ≠ 0)
  have hp := pow_ne_zero n hm
  have h1 := congrArg (Nat.cast (R := Rat)) (sum_used n ht0.buckets.length)
  push_cast [Nat.cast_sub (show 1 ≤ ht0.buckets.length from hpos)] at h1
  have h2 : (1 - 1 / ht0.buckets.length : Rat) ^ n = (ht0.buckets.length - 1) ^ n / ht0.buckets.length ^ n := by
    rw [← div_pow]
    congr 1
    field_simp
  have hheads : (∑ f, ((r f).heads : Rat)) / (ht0.buckets.length ^ n : Nat) =
      ht0.buckets.length - ht0.buckets.length * (1 - 1 / ht0.buckets.length) ^ n := by
    simp only [fun f => (hr f).2.2]
    push_cast
    rw [h2, div_eq_iff hp, sub_mul, mul_assoc, div_mul_cancel₀ _ hp]
    linear_combination h1
  refine ⟨r, fun f => (hr f).1, hheads, ?_⟩
  rw [← hheads]
  have hn : ∀ f, ((r f).nbuckets : Rat) = n - (r f).heads := by
    intro f
    have := congrArg (Nat.cast (R := Rat)) (hr f).2.1
    push_cast at this
    linarith
  simp only [hn, Finset.sum_sub_distrib, Finset.sum_const, Finset.card_univ, Fintype.card_fun, Fintype.card_fin, nsmul_eq_mul]
  rw [sub_div]
  congr 1
  push_cast
  field_simp

/-- C132_heads at work: two keys, four buckets, all sixteen assignments. -/
example : ∃ ht0 : HT (Fin 2), newHashTable id 3 0 0 false false false = .ok ht0 ∧ ∃ r : (Fin 2 → Fin 4) → HT (Fin 2),
    (∀ f, insertAll (pureEnv (fun k _ => BitVec.ofNat 64 (f k).val) (fun _ => true)) () ht0 (List.ofFn id) = .ok ((), r f)) ∧
    (∑ f, ((r f).heads : Rat)) / (4 ^ 2 : Nat) = 7 / 4 :=
  have ⟨r, h1, h2, _⟩ := C132_heads id 3 0 0 false false _ 2 id rfl (by decide) (fun f k _ => BitVec.ofNat 64 (f k).val)
    (fun f i => by
      have : ∀ a : Fin 4, homeOf false 4 (BitVec.ofNat 64 a.val) = a := by decide
      exact this (f i))
  ⟨_, rfl, r, h1, h2.trans (by decide +kernel)⟩

theorem eqPairs_map {α β : Type} [DecidableEq α] [DecidableEq β] (g : α → β) (hg : ∀ x y, g x = g y → x = y) :
    ∀ l : List α, eqPairs (l.map g) = eqPairs l
  | [] => rfl
  | x :: l => by
    rw [List.map_cons, eqPairs, eqPairs, eqPairs_map g hg l, List.countP_map]
    congr 1
    apply List.countP_congr
    intro y _
    simp only [Function.comp_apply, decide_eq_true_eq]
    exact ⟨hg y x, congrArg g⟩

/-- `Dups`, over all ways to give `n` keys one of `V` hash values each: the mean is `n(n-1)/(2V)`, in both modes. -/
theorem C132_dups (np : Int → Int) (size seed extra : Int) (pd oa prime : Bool) (ht0 : HT κ)
    (n : Nat) (key : Fin n → κ)
    (hnew : newHashTable np size seed extra pd oa prime = .ok ht0)
    (hpos : 0 < ht0.buckets.length) (hroom : oa = true → n ≤ ht0.buckets.length)
    (V : Nat) (hV : 0 < V) (H : (Fin n → Fin V) → κ → U64 → U64)
    (hH : ∀ f i, (H f (key i) ht0.seed).toNat = f i) :
    ∃ r : (Fin n → Fin V) → HT κ,
      (∀ f, insertAll (pureEnv (H f) (fun _ => true)) () ht0 (List.ofFn key) = .ok ((), r f)) ∧
      (∑ f, ((r f).dups : Rat)) / (V ^ n : Nat) = n * (n - 1) / (2 * V) := by
  have : ∀ f, ∃ ht : HT κ, insertAll (pureEnv (H f) (fun _ => true)) () ht0 (List.ofFn key) = .ok ((), ht) ∧
      ht.dups = eqPairs (homes f) := by
    intro f
    have e : eqPairs ((List.ofFn key).map fun k => H f k ht0.seed) = eqPairs (homes f) := by
      rw [← eqPairs_map BitVec.toNat (fun x y h => BitVec.eq_of_toNat_eq h), List.map_ofFn, List.map_ofFn, homes]
      congr 2
      funext i
      exact hH f i
    rw [← e]
    cases oa with
    | false => exact C06_chain_dups (H f) np size seed extra pd prime ht0 (List.ofFn key) hnew hpos
    | true => exact C06_oa_dups (H f) np size seed extra pd prime ht0 (List.ofFn key) hnew hpos (by rw [List.length_ofFn]; exact hroom rfl)
  refine ⟨fun f => (this f).choose, fun f => (this f).choose_spec.1, ?_⟩
  simp only [fun f => (this f).choose_spec.2]
  have h1 := congrArg (Nat.cast (R := Rat)) (sum_eqPairs V n)
  have hm : (V : Rat) ≠ 0 := by exact_mod_cast (by omega : V ≠ 0)
  have hp := pow_ne_zero n hm
  have h2 : (2 * ((V : Rat) * ∑ f : Fin n → Fin V, (eqPairs (homes f) : Rat))) = n * (n - 1) * (V : Rat) ^ n := by
    rcases Nat.eq_zero_or_pos n with h0 | h0
    · subst h0; simp at h1 ⊢; exact h1
    · push_cast [Nat.cast_sub h0] at h1
      exact h1
  push_cast
  rw [div_eq_div_iff hp (mul_ne_zero two_ne_zero hm)]
  linear_combination h2

/-- C132_dups at work: two keys, three hash values, nine assignments. -/
example : ∃ ht0 : HT (Fin 2), newHashTable id 3 0 0 false true false = .ok ht0 ∧ ∃ r : (Fin 2 → Fin 3) → HT (Fin 2),
    (∀ f, insertAll (pureEnv (fun k _ => BitVec.ofNat 64 (f k).val) (fun _ => true)) () ht0 (List.ofFn id) = .ok ((), r f)) ∧
    (∑ f, ((r f).dups : Rat)) / (3 ^ 2 : Nat) = 1 / 3 :=
  have ⟨r, h1, h2⟩ := C132_dups id 3 0 0 false true false _ 2 id rfl (by decide) (fun _ => by decide) 3 (by decide) (fun f k _ => BitVec.ofNat 64 (f k).val)
    (fun f i => by
      have : ∀ a : Fin 3, (BitVec.ofNat 64 a.val).toNat = a := by decide
      exact this (f i))
  ⟨_, rfl, r, h1, h2.trans (by decide +kernel)⟩

/-- Open addressing, over all `Size^n` ways to send `n ≤ Size` keys to home slots: the mean of `Cols`, the occupied slots stepped over
beyond the first. -/
theorem C132_cols (np : Int → Int) (size seed extra : Int) (pd prime : Bool) (ht0 : HT κ)
    (n : Nat) (key : Fin n → κ) (hn : n ≤ ht0.buckets.length)
    (hnew : newHashTable np size seed extra pd true prime = .ok ht0)
    (hpos : 0 < ht0.buckets.length)
    (H : (Fin n → Fin ht0.buckets.length) → κ → U64 → U64)
    (hH : ∀ f i, homeOf prime ht0.buckets.length (H f (key i) ht0.seed) = f i) :
    ∃ r : (Fin n → Fin ht0.buckets.length) → HT κ,
      (∀ f, insertAll (pureEnv (H f) (fun _ => true)) () ht0 (List.ofFn key) = .ok ((), r f)) ∧
      (∑ f, ((r f).cols : Rat)) / (ht0.buckets.length ^ n : Nat) =
        1 / 2 * ∑ k ∈ Finset.range n, (n.descFactorial (k + 3) : Rat) / ht0.buckets.length ^ (k + 2) := by
  obtain ⟨r, hr⟩ := Parking.runs np size seed extra pd prime ht0 n key hn hnew hpos H hH
  obtain ⟨r1, h1, h2⟩ := Parking.C131_walk np size seed extra pd prime ht0 n key hn hnew hpos H hH
  obtain ⟨r2, h1', h2'⟩ := Parking.C131_probes np size seed extra pd prime ht0 n key hn hnew hpos H hH
  have e1 : ∀ f, r1 f = r f := fun f => congrArg Prod.snd (Except.ok.inj ((h1 f).symm.trans (hr f).1))
  have e2 : ∀ f, r2 f = r f := fun f => congrArg Prod.snd (Except.ok.inj ((h1' f).symm.trans (hr f).1))
  simp only [e1] at h2
  simp only [e2] at h2'
  refine ⟨r, fun f => (hr f).1, ?_⟩
  have hc : ∀ f, ((r f).cols : Rat) = (((r f).cols + ((r f).probes - (r f).inserts) : Nat) : Rat) - (r f).probes + n := by
    intro f
    have hi := (hr f).2.1
    have hp := (hr f).2.2.1
    have : (r f).cols + n + ((r f).probes - (r f).inserts) = (r f).cols + (r f).probes := by omega
    have h3 := congrArg (Nat.cast (R := Rat)) this
    push_cast at h3 ⊢
    linarith
  have hm : (ht0.buckets.length : Rat) ≠ 0 := by exact_mod_cast (by omega : ht0.buckets.length ≠ 0)
  have hp : ((ht0.buckets.length ^ n : Nat) : Rat) ≠ 0 := by push_cast; exact pow_ne_zero n hm
  simp only [hc, Finset.sum_add_distrib, Finset.sum_sub_distrib, Finset.sum_const, Finset.card_univ, Fintype.card_fun, Fintype.card_fin, nsmul_eq_mul]
  rw [add_div, sub_div, h2, h2', mul_div_cancel_left₀ _ hp]
  cases n with
  | zero => simp
  | succ n =>
    rw [Finset.sum_range_succ', Finset.sum_range_succ (n := n), Nat.descFactorial_of_lt (show n + 1 < n + 3 by omega)]
    have h0 : ((n + 1).descFactorial (0 + 2) : Rat) = (n + 1) * n := by
      have : (n + 1).descFactorial (0 + 2) = (n + 1) * n := by
        rw [Nat.descFactorial_succ, Nat.descFactorial_one]; simp [Nat.mul_comm]
      rw [this]; push_cast; ring
    rw [h0]
    push_cast
    field_simp
    ring

/-- C132_cols at work: three keys, four slots: `Cols` is 1 in twelve of the 64 assignments. -/
example : ∃ ht0 : HT (Fin 3), newHashTable id 3 0 0 false true false = .ok ht0 ∧ ∃ r : (Fin 3 → Fin 4) → HT (Fin 3),
    (∀ f, insertAll (pureEnv (fun k _ => BitVec.ofNat 64 (f k).val) (fun _ => true)) () ht0 (List.ofFn id) = .ok ((), r f)) ∧
    (∑ f, ((r f).cols : Rat)) / (4 ^ 3 : Nat) = 3 / 16 :=
  have ⟨r, h1, h2⟩ := C132_cols id 3 0 0 false false _ 3 id (by decide) rfl (by decide) (fun f k _ => BitVec.ofNat 64 (f k).val)
    (fun f i => by
      have : ∀ a : Fin 4, homeOf false 4 (BitVec.ofNat 64 a.val) = a := by decide
      exact this (f i))
  ⟨_, rfl, r, h1, h2.trans (by decide +kernel)⟩

/-! ### The SMHasher check -/

theorem birthday (V : Nat) : ∀ n, 2 * V * V ^ n ≤ n * (n - 1) * V ^ n + 2 * V * V.descFactorial n
  | 0 => by simp
  | n + 1 => by
    have ih := birthday V n
    have hd : V.descFactorial n ≤ V ^ n := Nat.descFactorial_le_pow V n
    rw [Nat.descFactorial_succ, pow_succ, Nat.add_sub_cancel]
    have h1 : n * (n - 1) + 2 * n = (n + 1) * n := by cases n with
      | zero => rfl
      | succ k => rw [Nat.add_sub_cancel]; ring
    have h2 : V * V.descFactorial n ≤ n * V.descFactorial n + (V - n) * V.descFactorial n := by
      rw [← Nat.add_mul]; exact Nat.mul_le_mul_right _ (by omega)
    calc 2 * V * (V ^ n * V) = V * (2 * V * V ^ n) := by ring
      _ ≤ V * (n * (n - 1) * V ^ n + 2 * V * V.descFactorial n) := Nat.mul_le_mul_left _ ih
      _ = n * (n - 1) * (V ^ n * V) + 2 * V * (V * V.descFactorial n) := by ring
      _ ≤ n * (n - 1) * (V ^ n * V) + 2 * V * (n * V.descFactorial n + (V - n) * V.descFactorial n) :=
          Nat.add_le_add_left (Nat.mul_le_mul_left _ h2) _
      _ = n * (n - 1) * (V ^ n * V) + 2 * n * (V * V.descFactorial n) + 2 * V * ((V - n) * V.descFactorial n) := by ring
      _ ≤ n * (n - 1) * (V ^ n * V) + 2 * n * (V * V ^ n) + 2 * V * ((V - n) * V.descFactorial n) := by
          gcongr
      _ = (n * (n - 1) + 2 * n) * (V ^ n * V) + 2 * V * ((V - n) * V.descFactorial n) := by ring
      _ = _ := by rw [h1]

/-- The collision check of the SMHasher tests reports a function that gives `n` keys (up to 2·10^8) independent uniformly distributed
64-bit values with probability exactly `1 - V(V-1)…(V-n+1)/V^n`, `V = 2^64`, which is at most `n(n-1)/2^65`. -/
theorem C132_false_alarm (n : Nat) (hn : n ≤ 2 * 10 ^ 8) :
    {f : Fin n → U64 | (Model.Smhasher.HashSet.new.addAll (List.ofFn f)).check}.ncard = (2 ^ 64) ^ n - (2 ^ 64).descFactorial n ∧
    {f : Fin n → U64 | (Model.Smhasher.HashSet.new.addAll (List.ofFn f)).check}.ncard * 2 ^ 65 ≤ n * (n - 1) * (2 ^ 64) ^ n := by
  let e : U64 ≃ Fin (2 ^ 64) := ⟨fun b => ⟨b.toNat, b.isLt⟩, fun i => BitVec.ofNat 64 i.val, fun b => by simp, fun i => by
    apply Fin.ext
    simp only [BitVec.toNat_ofNat]
    exact Nat.mod_eq_of_lt i.2⟩
  let _ : Fintype U64 := Fintype.ofEquiv _ e.symm
  have hcard : Fintype.card U64 = 2 ^ 64 := by rw [Fintype.card_congr e, Fintype.card_fin]
  have hset : {f : Fin n → U64 | (Model.Smhasher.HashSet.new.addAll (List.ofFn f)).check} = {f : Fin n → U64 | Function.Injective f}ᶜ := by
    ext f
    show _ ↔ ¬ Function.Injective f
    rw [← List.nodup_ofFn]
    exact Verif.Lemmas.Smhasher.check_iff (List.ofFn f) (by rw [List.length_ofFn]; exact hn)
  have hinj : {f : Fin n → U64 | Function.Injective f}.ncard = (2 ^ 64).descFactorial n := by
    rw [← Nat.card_coe_set_eq]
    refine (Nat.card_congr (Equiv.subtypeInjectiveEquivEmbedding (Fin n) U64)).trans ?_
    rw [Nat.card_eq_fintype_card, Fintype.card_embedding_eq, hcard, Fintype.card_fin]
  have htot : Nat.card (Fin n → U64) = (2 ^ 64) ^ n := by
    rw [Nat.card_eq_fintype_card, Fintype.card_fun, hcard, Fintype.card_fin]
  have hc : {f : Fin n → U64 | (Model.Smhasher.HashSet.new.addAll (List.ofFn f)).check}.ncard = (2 ^ 64) ^ n - (2 ^ 64).descFactorial n := by
    rw [hset, Set.ncard_compl, htot, hinj]
  refine ⟨hc, ?_⟩
  rw [hc]
  generalize hV : 2 ^ 64 = V
  have hb := birthday V n
  have hd := Nat.descFactorial_le_pow V n
  have h65 : 2 ^ 65 = 2 * V := by rw [← hV]; rfl
  rw [h65, Nat.sub_mul, Nat.mul_comm (V ^ n), Nat.mul_comm (V.descFactorial n)]
  omega

/-- C132_false_alarm at work: two keys collide in `2^64` of the `2^128` assignments. -/
example : {f : Fin 2 → U64 | (Model.Smhasher.HashSet.new.addAll (List.ofFn f)).check}.ncard = 2 ^ 64 :=
  (C132_false_alarm 2 (by decide)).1.trans (by decide +kernel)

end Verif.Props.Random
