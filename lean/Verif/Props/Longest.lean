import Verif.Props.Spread

/-! Property C136: the longest chain of a function chosen at random. -/

namespace Verif.Props.Longest
open Verif Verif.HashTable Verif.Spec.HashTable Verif.Parking

variable {κ : Type}

theorem le_longest {α : Type} (k : Nat) (hk : 0 < k) : ∀ bs : List (List α), k ≤ longest bs ↔ ∃ b ∈ bs, k ≤ b.length
  | [] => by simp [longest]; omega
  | b :: bs => by
    have ih := le_longest k hk bs
    rw [show longest (b :: bs) = max b.length (longest bs) from rfl, le_max_iff, ih]
    simp

theorem countP_ofFn {α : Type} (p : α → Bool) : ∀ (n : Nat) (g : Fin n → α), (List.ofFn g).countP p = (Finset.univ.filter fun i => p (g i) = true).card
  | 0, g => by simp
  | n + 1, g => by
    rw [List.ofFn_succ, List.countP_cons, countP_ofFn p n, Finset.card_filter, Finset.card_filter, Fin.sum_univ_succ, Nat.add_comm]

/-- `LongestChain`, by the homes: `k ≥ 2` keys share a bucket. -/
theorem longest_eq (H : κ → U64 → U64) (np : Int → Int)
    (size seed extra : Int) (pd prime : Bool) (ht0 : HT κ) (n : Nat) (key : Fin n → κ)
    (hnew : newHashTable np size seed extra pd false prime = .ok ht0)
    (hpos : 0 < ht0.buckets.length) (f : Fin n → Fin ht0.buckets.length)
    (hf : ∀ i, homeOf prime ht0.buckets.length (H (key i) ht0.seed) = f i) :
    ∃ ht, insertAll (pureEnv H (fun _ => true)) () ht0 (List.ofFn key) = .ok ((), ht) ∧
      ∀ k, 2 ≤ k → (k ≤ ht.longestChain ↔ ∃ s, k ≤ (Finset.univ.filter fun i => f i = s).card) := by
  obtain ⟨ht, h1, h2⟩ := C04_chain_contents H np size seed extra pd prime ht0 (List.ofFn key) hnew hpos
  obtain ⟨_, a, e1, _, _, _, _, _, a6⟩ := C05_chain_stats (pureEnv H (fun _ => true)) (fun _ => rfl)
    np size seed extra pd prime ht0 () (List.ofFn key) hnew hpos
  rw [h1] at e1
  cases e1
  refine ⟨ht, h1, fun k hk => ?_⟩
  have h3 : k ≤ ht.longestChain ↔ k ≤ longest ht.buckets := by
    rw [a6]; split <;> omega
  rw [h3, le_longest k (by omega), h2]
  have hcount : ∀ s : Fin ht0.buckets.length, ((List.ofFn key).filter fun x => homeOf prime ht0.buckets.length (H x ht0.seed) = s.val).length =
      (Finset.univ.filter fun i => f i = s).card := by
    intro s
    rw [← List.countP_eq_length_filter]
    rw [countP_ofFn]
    congr 1
    ext i
    simp only [Finset.mem_filter, Finset.mem_univ, true_and, decide_eq_true_eq, hf, Fin.ext_iff]
  constructor
  · rintro ⟨b, hb, hkb⟩
    obtain ⟨s, hs, rfl⟩ := List.mem_map.1 hb
    exact ⟨⟨s, List.mem_range.1 hs⟩, by rw [← hcount]; exact hkb⟩
  · rintro ⟨s, hs⟩
    exact ⟨_, List.mem_map.2 ⟨s.val, List.mem_range.2 s.isLt, rfl⟩, by rw [hcount]; exact hs⟩

/-- The assignments that send all of `T` to `s`. -/
theorem card_all {n m : Nat} (T : Finset (Fin n)) (s : Fin m) :
    (Finset.univ.filter fun f : Fin n → Fin m => ∀ i ∈ T, f i = s).card * m ^ T.card = m ^ n := by
  have : ∀ f : Fin n → Fin m, (∀ i ∈ T, f i = s) ↔ f ∈ Fintype.piFinset fun i => if i ∈ T then {s} else Finset.univ := by
    intro f
    rw [Fintype.mem_piFinset]
    refine forall_congr' fun i => ?_
    split
    · rename_i h; simp [h]
    · rename_i h; simp [h]
  rw [show (Finset.univ.filter fun f : Fin n → Fin m => ∀ i ∈ T, f i = s) = Fintype.piFinset fun i => if i ∈ T then {s} else Finset.univ by
    ext f; simp only [Finset.mem_filter, Finset.mem_univ, true_and]; exact this f]
  rw [Fintype.card_piFinset]
  have h2 : m ^ T.card = ∏ i : Fin n, if i ∈ T then m else 1 := by
    rw [Finset.prod_ite_mem, Finset.univ_inter, Finset.prod_const]
  rw [h2, ← Finset.prod_mul_distrib]
  have : ∀ i : Fin n, (if i ∈ T then ({s} : Finset (Fin m)) else Finset.univ).card * (if i ∈ T then m else 1) = m := by
    intro i; split <;> simp
  simp [this]

theorem tail (n m k : Nat) :
    (Finset.univ.filter fun f : Fin n → Fin m => ∃ s, k ≤ (Finset.univ.filter fun i => f i = s).card).card * m ^ k ≤ m * n.choose k * m ^ n := by
  have hsub : (Finset.univ.filter fun f : Fin n → Fin m => ∃ s, k ≤ (Finset.univ.filter fun i => f i = s).card) ⊆
      (Finset.univ : Finset (Fin m)).biUnion fun s => (Finset.powersetCard k Finset.univ).biUnion fun T =>
        Finset.univ.filter fun f : Fin n → Fin m => ∀ i ∈ T, f i = s := by
    intro f hf
    obtain ⟨s, hs⟩ := (Finset.mem_filter.1 hf).2
    obtain ⟨T, hT1, hT2⟩ := Finset.exists_subset_card_eq hs
    refine Finset.mem_biUnion.2 ⟨s, Finset.mem_univ _, Finset.mem_biUnion.2 ⟨T, Finset.mem_powersetCard.2 ⟨Finset.subset_univ _, hT2⟩, ?_⟩⟩
    exact Finset.mem_filter.2 ⟨Finset.mem_univ _, fun i hi => (Finset.mem_filter.1 (hT1 hi)).2⟩
  have h1 := (Finset.card_le_card hsub).trans Finset.card_biUnion_le
  have h2 : ∀ s : Fin m, ((Finset.powersetCard k Finset.univ).biUnion fun T => Finset.univ.filter fun f : Fin n → Fin m => ∀ i ∈ T, f i = s).card * m ^ k ≤
      n.choose k * m ^ n := by
    intro s
    refine (Nat.mul_le_mul_right _ Finset.card_biUnion_le).trans ?_
    rw [Finset.sum_mul]
    have : ∀ T ∈ Finset.powersetCard k (Finset.univ : Finset (Fin n)), (Finset.univ.filter fun f : Fin n → Fin m => ∀ i ∈ T, f i = s).card * m ^ k = m ^ n := by
      intro T hT
      rw [← (Finset.mem_powersetCard.1 hT).2]; exact card_all T s
    rw [Finset.sum_congr rfl this, Finset.sum_const, Finset.card_powersetCard, Finset.card_univ, Fintype.card_fin, smul_eq_mul]
  refine (Nat.mul_le_mul_right _ h1).trans ?_
  rw [Finset.sum_mul]
  refine (Finset.sum_le_sum fun s _ => h2 s).trans ?_
  rw [Finset.sum_const, Finset.card_univ, Fintype.card_fin, smul_eq_mul, Nat.mul_assoc]

/-- Chaining, over all `Size^n` ways to send `n` keys to buckets: `LongestChain` is `k` or more (`k ≥ 2`) in a share of at most
`C(n,k)/Size^(k-1)`, and 0 (no two keys share a bucket) in exactly `Size(Size-1)…(Size-n+1)` of them. -/
theorem C136_longest (np : Int → Int) (size seed extra : Int) (pd prime : Bool) (ht0 : HT κ)
    (n : Nat) (key : Fin n → κ)
    (hnew : newHashTable np size seed extra pd false prime = .ok ht0)
    (hpos : 0 < ht0.buckets.length)
    (H : (Fin n → Fin ht0.buckets.length) → κ → U64 → U64)
    (hH : ∀ f i, homeOf prime ht0.buckets.length (H f (key i) ht0.seed) = f i) :
    ∃ r : (Fin n → Fin ht0.buckets.length) → HT κ,
      (∀ f, insertAll (pureEnv (H f) (fun _ => true)) () ht0 (List.ofFn key) = .ok ((), r f)) ∧
      (∀ k, 2 ≤ k → ((Finset.univ.filter fun f => k ≤ (r f).longestChain).card : Rat) / ((ht0.buckets.length ^ n : Nat) : Rat) ≤
        n.choose k / (ht0.buckets.length : Rat) ^ (k - 1)) ∧
      (Finset.univ.filter fun f => (r f).longestChain = 0).card = ht0.buckets.length.descFactorial n := by
  have hex := fun f => longest_eq (H f) np size seed extra pd prime ht0 n key hnew hpos f (hH f)
  refine ⟨fun f => (hex f).choose, fun f => (hex f).choose_spec.1, fun k hk => ?_, ?_⟩
  · have e : (Finset.univ.filter fun f => k ≤ (hex f).choose.longestChain) =
        Finset.univ.filter fun f : Fin n → Fin ht0.buckets.length => ∃ s, k ≤ (Finset.univ.filter fun i => f i = s).card := by
      ext f
      simp only [Finset.mem_filter, Finset.mem_univ, true_and]
      exact (hex f).choose_spec.2 k hk
    rw [e]
    have h := tail n ht0.buckets.length k
    have hm : (0 : Rat) < ht0.buckets.length := by exact_mod_cast hpos
    have hp : (0 : Rat) < ((ht0.buckets.length ^ n : Nat) : Rat) := by exact_mod_cast Nat.pow_pos hpos
    have h' := (Nat.cast_le (α := Rat)).2 h
    rw [div_le_div_iff₀ hp (pow_pos hm _)]
    obtain ⟨j, rfl⟩ : ∃ j, k = j + 1 := ⟨k - 1, by omega⟩
    rw [Nat.add_sub_cancel]
    push_cast [pow_succ] at h' ⊢
    refine le_of_mul_le_mul_right ?_ hm
    linarith
  · have e : (Finset.univ.filter fun f => (hex f).choose.longestChain = 0) =
        Finset.univ.filter fun f : Fin n → Fin ht0.buckets.length => Function.Injective f := by
      ext f
      simp only [Finset.mem_filter, Finset.mem_univ, true_and]
      have h2 := (hex f).choose_spec.2 2 (by omega)
      have h1 : (hex f).choose.longestChain = 0 ↔ ¬ 2 ≤ (hex f).choose.longestChain := by
        obtain ⟨_, a, e1, _, _, _, _, _, a6⟩ := C05_chain_stats (pureEnv (H f) (fun _ => true)) (fun _ => rfl)
          np size seed extra pd prime ht0 () (List.ofFn key) hnew hpos
        rw [(hex f).choose_spec.1] at e1
        have e2 : (hex f).choose = a := congrArg Prod.snd (Except.ok.inj e1)
        rw [e2, a6]
        split <;> omega
      rw [h1, h2]
      constructor
      · intro hno i j hij
        by_contra hne
        refine hno ⟨f i, ?_⟩
        rw [← Finset.card_pair hne]
        refine Finset.card_le_card fun x hx => Finset.mem_filter.2 ⟨Finset.mem_univ _, ?_⟩
        rcases Finset.mem_insert.1 hx with rfl | hx
        · rfl
        · rw [Finset.mem_singleton.1 hx, hij]
      · rintro hinj ⟨s, hs⟩
        obtain ⟨i, hi, j, hj, hij⟩ := Finset.one_lt_card.1 hs
        exact hij (hinj ((Finset.mem_filter.1 hi).2.trans (Finset.mem_filter.1 hj).2.symm))
    rw [e, ← Fintype.card_subtype, Fintype.card_congr (Equiv.subtypeInjectiveEquivEmbedding _ _), Fintype.card_embedding_eq, Fintype.card_fin, Fintype.card_fin]

/-- C136_longest at work: three keys, four buckets: all three together in at most 1/16 of the assignments (4 of 64), all apart in 24. -/
example : ∃ ht0 : HT (Fin 3), newHashTable id 3 0 0 false false false = .ok ht0 ∧ ∃ r : (Fin 3 → Fin 4) → HT (Fin 3),
    (∀ f, insertAll (pureEnv (fun k _ => BitVec.ofNat 64 (f k).val) (fun _ => true)) () ht0 (List.ofFn id) = .ok ((), r f)) ∧
    ((Finset.univ.filter fun f => 3 ≤ (r f).longestChain).card : Rat) / ((4 ^ 3 : Nat) : Rat) ≤ 1 / 16 ∧
    (Finset.univ.filter fun f => (r f).longestChain = 0).card = 24 :=
  have ⟨r, h1, h2, h3⟩ := C136_longest id 3 0 0 false false _ 3 id rfl (by decide) (fun f k _ => BitVec.ofNat 64 (f k).val)
    (fun f i => by
      have : ∀ a : Fin 4, homeOf false 4 (BitVec.ofNat 64 a.val) = a := by decide
      exact this (f i))
  ⟨_, rfl, r, h1, (h2 3 (by decide)).trans (by decide +kernel), h3.trans (by decide +kernel)⟩

end Verif.Props.Longest
