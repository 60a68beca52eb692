import Verif.Props.RunSM
import Verif.Props.Random

/-! Property C135: how often a run of the SMHasher tests accuses a function chosen at random. -/

namespace Verif.Props.Alarm
open Verif Verif.Model.Smhasher Verif.Model.RunSM Verif.Spec.Smhasher Verif.Spec.RunSM Verif.Lemmas.RunSM
open Verif.Spec.HashTable (eqPairs)

theorem eqPairs_zero {α : Type} [DecidableEq α] : ∀ l : List α, eqPairs l = 0 → l.Nodup
  | [], _ => List.nodup_nil
  | x :: l, h => by
    rw [eqPairs] at h
    refine List.nodup_cons.2 ⟨fun hx => ?_, eqPairs_zero l (by omega)⟩
    have h0 : l.countP (fun y => decide (y = x)) = 0 := by omega
    have := List.countP_eq_zero.1 h0 x hx
    simp at this

/-- The pairs of members that collide, summed over a family. -/
theorem sum_le {Ω : Type} [Fintype Ω] (n m : Nat) (g : Ω → Fin n → Nat)
    (hg : ∀ i j, i < j → (Finset.univ.filter fun w => g w i = g w j).card * m ≤ Fintype.card Ω) :
    2 * (m * ∑ w, eqPairs (List.ofFn (g w))) ≤ n * (n - 1) * Fintype.card Ω := by
  rw [Quality.sum_pairs, ← Quality.pairs_below, Finset.mul_sum, Finset.mul_sum, Finset.sum_mul]
  refine Finset.sum_le_sum fun j _ => ?_
  rw [Finset.mul_sum, Finset.mul_sum, Finset.sum_mul]
  refine Finset.sum_le_sum fun i _ => ?_
  split
  · rename_i h; have := hg i j h; nlinarith
  · simp

/-- Any two different members of a set get the same hash in at most one of `2^64` members of the family. -/
def Universal {Ω : Type} [Fintype Ω] (H : Ω → List U8 → U64 → U64) (S : KeySet) : Prop :=
  ∀ k s k' s', S.mem k s → S.mem k' s' → (k, s) ≠ (k', s') →
    (Finset.univ.filter fun w => H w k s = H w k' s').card * 2 ^ 64 ≤ Fintype.card Ω

theorem set_le {Ω : Type} [Fintype Ω] (H : Ω → List U8 → U64 → U64) (S : KeySet) (cs : List (List U8 × U64)) (hm : Match S cs)
    (hu : Universal H S) : {w | Collide (H w) S}.ncard * 2 ^ 65 ≤ S.size * (S.size - 1) * Fintype.card Ω := by
  classical
  obtain ⟨h1, h2, h3⟩ := hm
  have hs := sum_le cs.length (2 ^ 64) (fun w i => (H w cs[i].1 cs[i].2).toNat) (by
    intro i j hij
    have hne : (cs[i].1, cs[i].2) ≠ (cs[j].1, cs[j].2) := by
      intro h
      exact absurd ((List.Nodup.getElem_inj_iff h1).1 (show cs[i.val] = cs[j.val] from h)) (Nat.ne_of_lt hij)
    have := hu cs[i].1 cs[i].2 cs[j].1 cs[j].2 ((h2 _ _).1 (List.getElem_mem _)) ((h2 _ _).1 (List.getElem_mem _)) hne
    simpa only [BitVec.toNat_inj] using this)
  have hle : {w | Collide (H w) S}.ncard ≤ ∑ w, eqPairs (List.ofFn fun i : Fin cs.length => (H w cs[i].1 cs[i].2).toNat) := by
    have : {w | Collide (H w) S} = ↑(Finset.univ.filter fun w => Collide (H w) S) := by ext w; simp
    rw [this, Set.ncard_coe_finset, Finset.card_filter]
    refine Finset.sum_le_sum fun w _ => ?_
    split
    · rename_i hc
      by_contra h0
      have hn := eqPairs_zero _ (Nat.eq_zero_of_not_pos h0)
      rw [List.nodup_ofFn] at hn
      obtain ⟨k, s, k', s', a, b, c, d⟩ := hc
      obtain ⟨i, hi, ei⟩ := List.getElem_of_mem ((h2 _ _).2 a)
      obtain ⟨i', hi', ei'⟩ := List.getElem_of_mem ((h2 _ _).2 b)
      have := @hn ⟨i, hi⟩ ⟨i', hi'⟩ (by
        show (H w cs[i].1 cs[i].2).toNat = (H w cs[i'].1 cs[i'].2).toNat
        rw [ei, ei', d])
      have e2 : i = i' := congrArg Fin.val this
      subst e2
      exact c (ei.symm.trans ei')
    · exact Nat.zero_le _
  rw [← h3]
  calc {w | Collide (H w) S}.ncard * 2 ^ 65 ≤ (∑ w, eqPairs (List.ofFn fun i : Fin cs.length => (H w cs[i].1 cs[i].2).toNat)) * 2 ^ 65 := Nat.mul_le_mul_right _ hle
    _ = 2 * (2 ^ 64 * ∑ w, eqPairs (List.ofFn fun i : Fin cs.length => (H w cs[i].1 cs[i].2).toNat)) := by ring
    _ ≤ _ := hs

theorem union_le {Ω : Type} [Finite Ω] {α : Type} (l : List α) (A : α → Set Ω) : {w | ∃ a ∈ l, w ∈ A a}.ncard ≤ (l.map fun a => (A a).ncard).sum := by
  induction l with
  | nil => simp
  | cons a l ih =>
    have : {w | ∃ b ∈ a :: l, w ∈ A b} = A a ∪ {w | ∃ b ∈ l, w ∈ A b} := by
      ext w; simp
    rw [this, List.map_cons, List.sum_cons]
    exact (Set.ncard_union_le _ _).trans (Nat.add_le_add_left ih _)

/-- All sets of a run. -/
def allSets (r : Nat → U32) : List KeySet := order.flatMap (sets r)

theorem pairs_Sanity (r : Nat → U32) : ((sets r .Sanity).map fun S : KeySet => S.size * (S.size - 1)).sum = 0 := rfl

theorem pairs_Avalanche (r : Nat → U32) : ((sets r .Avalanche).map fun S : KeySet => S.size * (S.size - 1)).sum = 0 := rfl

theorem pairs_Seed (r : Nat → U32) : ((sets r .Seed).map fun S : KeySet => S.size * (S.size - 1)).sum = 9999900000 := by
  simp only [sets, List.map_cons, List.map_nil, List.sum_cons, List.sum_nil]
  norm_num

theorem pairs_Text (r : Nat → U32) : ((sets r .Text).map fun S : KeySet => S.size * (S.size - 1)).sum = 117187481250000 := by
  simp only [sets, keys, List.map_cons, List.map_nil, List.sum_cons, List.sum_nil]
  norm_num

theorem pairs_Cyclic (r : Nat → U32) : ((sets r .Cyclic).map fun S : KeySet => S.size * (S.size - 1)).sum = 8999991000000 := by
  simp only [sets, keys, List.map_cons, List.map_nil, List.sum_cons, List.sum_nil]
  norm_num

theorem pairs_SmallKeys (r : Nat → U32) : ((sets r .SmallKeys).map fun S : KeySet => S.size * (S.size - 1)).sum = 283686901645056 := by
  simp only [sets, keys, List.map_cons, List.map_nil, List.sum_cons, List.sum_nil]
  norm_num

theorem pairs_AppendedZeros (r : Nat → U32) : ((sets r .AppendedZeros).map fun S : KeySet => S.size * (S.size - 1)).sum = 68382 := by
  simp only [sets, keys, List.map_cons, List.map_nil, List.sum_cons, List.sum_nil]
  norm_num

theorem pairs_Permutation (r : Nat → U32) : ((sets r .Permutation).map fun S : KeySet => S.size * (S.size - 1)).sum = 893021089132260 := by
  simp only [sets, keys]
  decide +kernel

theorem pairs_Sparse (r : Nat → U32) : ((sets r .Sparse).map fun S : KeySet => S.size * (S.size - 1)).sum = 137161468308024 := by
  simp only [sets, keys, choose_desc]
  decide +kernel

theorem pairs_TwoNonzero (r : Nat → U32) : ((sets r .TwoNonzero).map fun S : KeySet => S.size * (S.size - 1)).sum = 1958189897822160 := by
  simp only [sets, keys, choose_desc]
  decide +kernel

theorem pairs_Windowed (r : Nat → U32) : ((sets r .Windowed).map fun S : KeySet => S.size * (S.size - 1)).sum = 4810289971200 := by
  have e : sets r .Windowed = winSets 32 ++ (winSets 64 ++ (winSets 1024 ++ [])) := rfl
  have f : ∀ n, ((winSets n).map fun S : KeySet => S.size * (S.size - 1)).sum = n * 4294901760 := by
    intro n
    unfold winSets
    have : ∀ l : List Nat, ((l.map fun i => keys (fun k => 8 * k.length = n ∧ ∀ p, bit k p = true → inWindow n i p) (2 ^ 16)).map
        fun S : KeySet => S.size * (S.size - 1)).sum = l.length * 4294901760 := by
      intro l
      induction l with
      | nil => simp
      | cons a l ih =>
        rw [List.map_cons, List.map_cons, List.sum_cons, ih, List.length_cons]
        simp only [keys]
        omega
    rw [this, List.length_range]
  rw [e, List.append_nil, List.map_append, List.map_append, List.sum_append, List.sum_append, f, f, f]

theorem all_pairs (r : Nat → U32) : ((allSets r).map fun S : KeySet => S.size * (S.size - 1)).sum = 3403067119097082 := by
  have hf : ∀ ts : List TestFn, ((ts.flatMap (sets r)).map fun S : KeySet => S.size * (S.size - 1)).sum =
      (ts.map fun t => ((sets r t).map fun S : KeySet => S.size * (S.size - 1)).sum).sum := by
    intro ts
    induction ts with
    | nil => rfl
    | cons t ts ih => rw [List.flatMap_cons, List.map_append, List.sum_append, ih, List.map_cons, List.sum_cons]
  rw [allSets, hf]
  simp only [order, List.map_cons, List.map_nil, List.sum_cons, List.sum_nil, pairs_Sanity, pairs_Seed, pairs_Text, pairs_Windowed, pairs_Avalanche,
    pairs_Permutation, pairs_Sparse, pairs_Cyclic, pairs_TwoNonzero, pairs_SmallKeys, pairs_AppendedZeros]
  norm_num

/-- The members of the sets can be listed. -/
theorem listed (r : Nat → U32) (t : TestFn) : ∀ S ∈ sets r t, ∃ cs, Match S cs := by
  by_cases ht : t = .Sanity
  · subst ht; intro S h; exact (nomatch h)
  · have hS : Sem (fun (_ : Unit) (_ : List U8) (_ : U64) => .ok ((), 0#64)) (fun _ _ => True) (fun _ _ _ => 0) := ⟨fun w _ k s _ => ⟨(), rfl, trivial⟩⟩
    obtain ⟨ss, h, h'⟩ := runs_all hS r t ht
    clear h'
    generalize sets r t = Ss at h
    induction h with
    | nil => intro S h; exact (nomatch h)
    | cons h _ ih =>
      intro S hS'
      rcases List.mem_cons.1 hS' with rfl | hS'
      · exact ⟨_, h⟩
      · exact ih S hS'

/-- A test that says anything has found a set with a collision. -/
theorem said {H : List U8 → U64 → U64} {r : Nat → U32} {t : TestFn} {o : Out} (h : Judged H r t o) (ho : o ≠ ⟨false, []⟩) :
    ∃ S ∈ sets r t, Collide H S := by
  obtain ⟨found, h1, h2, h3⟩ := h
  by_contra hno
  push Not at hno
  have hnone : ∀ x ∈ found, x = none := by
    clear h2 h3 ho
    generalize sets r t = Ss at *
    induction h1 with
    | nil => intro x hx; exact (nomatch hx)
    | cons h _ ih =>
      intro x hx
      rcases List.mem_cons.1 hx with rfl | hx
      · by_contra hx; exact hno _ (by simp) (h.1.1 hx)
      · exact ih (fun S hS => hno S (by simp [hS])) x hx
  refine ho ?_
  have e1 : o.events = [] := by
    rw [h2, List.filterMap_eq_nil_iff]
    intro x hx; rw [hnone x hx]; rfl
  have e2 : o.ret = false := by
    by_contra hr
    obtain ⟨_, x, hx, hx'⟩ := h3.1 (by simpa using hr)
    exact hx' (hnone x hx)
  cases o
  simp only at e1 e2
  rw [e1, e2]

/-- C135. A family of hash functions in which two different (key, seed) pairs of one key set collide in at most one member of `2^64`, all of which
are functions of key and seed that return: the members with which a run of the SMHasher tests reports anything, or returns true from any test, are a share of at most
`3403067119097082 / 2^65`, less than one of 10000. -/
theorem C135_run {Ω ω : Type} [Fintype Ω] [Nonempty Ω] (H : Ω → List U8 → U64 → U64) (r : Nat → U32)
    (hu : ∀ t ∈ order, ∀ S ∈ sets r t, Universal H S)
    (hf : Ω → Hash ω) (Inv : Ω → ω → Prop) (hstep : ∀ h w k s, Inv h w → ∃ w', hf h w k s = .ok (w', H h k s) ∧ Inv h w')
    (name : String) (v : Bool) (w : ω) (hw : ∀ h, Inv h w) :
    ∃ os : Ω → List (TestFn × Out), (∀ h, ∃ w', RunSMhasher (hf h) r name v w = .ok (w', os h)) ∧
      {h | ∃ x ∈ os h, x.2 ≠ ⟨false, []⟩}.ncard * 2 ^ 65 ≤ 3403067119097082 * Fintype.card Ω ∧
      {h | ∃ x ∈ os h, x.2 ≠ ⟨false, []⟩}.ncard * 10000 < Fintype.card Ω := by
  have hrun := fun h => C109_function (hf h) (H h) (Inv h) (hstep h) r name v w (hw h)
  let os : Ω → List (TestFn × Out) := fun h => (hrun h).choose_spec.choose
  have hos : ∀ h, ∃ w', RunSMhasher (hf h) r name v w = .ok (w', os h) ∧ (os h).map (·.1) = order ∧ ∀ x ∈ os h, Judged (H h) r x.1 x.2 :=
    fun h => ⟨(hrun h).choose, (hrun h).choose_spec.choose_spec.1, (hrun h).choose_spec.choose_spec.2.2.1, (hrun h).choose_spec.choose_spec.2.2.2⟩
  have hsub : {h | ∃ x ∈ os h, x.2 ≠ ⟨false, []⟩} ⊆ {h | ∃ S ∈ allSets r, h ∈ {h | Collide (H h) S}} := by
    rintro h ⟨x, hx, hne⟩
    obtain ⟨_, _, h2, h3⟩ := hos h
    obtain ⟨S, hS, hc⟩ := said (h3 x hx) hne
    refine ⟨S, List.mem_flatMap.2 ⟨x.1, ?_, hS⟩, hc⟩
    rw [← h2]
    exact List.mem_map_of_mem hx
  have hle := (Set.ncard_le_ncard hsub (Set.toFinite _)).trans (union_le (allSets r) fun S => {h | Collide (H h) S})
  have hsum : ∀ l : List KeySet, (∀ S ∈ l, Universal H S ∧ ∃ cs, Match S cs) →
      (l.map fun S => {h | Collide (H h) S}.ncard).sum * 2 ^ 65 ≤ (l.map fun S : KeySet => S.size * (S.size - 1)).sum * Fintype.card Ω := by
    intro l hl
    induction l with
    | nil => simp
    | cons S l ih =>
      rw [List.map_cons, List.sum_cons, List.map_cons, List.sum_cons, Nat.add_mul, Nat.add_mul]
      obtain ⟨h1, cs, h2⟩ := hl S (by simp)
      exact Nat.add_le_add (set_le H S cs h2 h1) (ih fun S hS => hl S (by simp [hS]))
  have h1 := hsum (allSets r) fun S hS => by
    obtain ⟨t, ht, hS⟩ := List.mem_flatMap.1 hS
    exact ⟨hu t ht S hS, listed r t S hS⟩
  rw [all_pairs] at h1
  have h2 := (Nat.mul_le_mul_right (2 ^ 65) hle).trans h1
  have hpos : 0 < Fintype.card Ω := Fintype.card_pos
  refine ⟨os, fun h => ⟨_, (hos h).choose_spec.1⟩, h2, ?_⟩
  revert h2
  generalize {h | ∃ x ∈ os h, x.2 ≠ ⟨false, []⟩}.ncard = A
  intro h2
  omega

/-- C135. In particular over all ways to give the tested (key, seed) pairs (and any others) one of the `2^64` values each. -/
theorem C135_random {ω : Type} (r : Nat → U32) (n : Nat) (e : Fin n → List U8 × U64)
    (he : ∀ t ∈ order, ∀ S ∈ sets r t, ∀ k s, S.mem k s → ∃ i, e i = (k, s))
    (H : (Fin n → Fin (2 ^ 64)) → List U8 → U64 → U64) (hH : ∀ f i, (H f (e i).1 (e i).2).toNat = f i)
    (hf : (Fin n → Fin (2 ^ 64)) → Hash ω) (Inv : (Fin n → Fin (2 ^ 64)) → ω → Prop)
    (hstep : ∀ h w k s, Inv h w → ∃ w', hf h w k s = .ok (w', H h k s) ∧ Inv h w')
    (name : String) (v : Bool) (w : ω) (hw : ∀ h, Inv h w) :
    ∃ os : (Fin n → Fin (2 ^ 64)) → List (TestFn × Out), (∀ h, ∃ w', RunSMhasher (hf h) r name v w = .ok (w', os h)) ∧
      {h | ∃ x ∈ os h, x.2 ≠ ⟨false, []⟩}.ncard * 10000 < Fintype.card (Fin n → Fin (2 ^ 64)) := by
  obtain ⟨os, h1, _, h3⟩ := C135_run H r (by
    intro t ht S hS k s k' s' hk hk' hne
    obtain ⟨i, hi⟩ := he t ht S hS k s hk
    obtain ⟨j, hj⟩ := he t ht S hS k' s' hk'
    have hij : i ≠ j := fun h => hne (by rw [← hi, ← hj, h])
    rw [← Quality.together n (2 ^ 64) i j hij]
    refine Nat.mul_le_mul_right _ (Finset.card_le_card fun f hf => ?_)
    have hf' := (Finset.mem_filter.1 hf).2
    refine Finset.mem_filter.2 ⟨Finset.mem_univ _, Fin.ext ?_⟩
    rw [← hH f i, ← hH f j, hi, hj, hf']) hf Inv hstep name v w hw
  exact ⟨os, h1, h3⟩

/-- The pairs tested are finitely many, and functions as in C135_random exist. -/
example (r : Nat → U32) : ∃ (n : Nat) (e : Fin n → List U8 × U64) (H : (Fin n → Fin (2 ^ 64)) → List U8 → U64 → U64),
    (∀ t ∈ order, ∀ S ∈ sets r t, ∀ k s, S.mem k s → ∃ i, e i = (k, s)) ∧ (∀ f i, (H f (e i).1 (e i).2).toNat = f i) ∧
    ∀ h w k s, True → ∃ w', (fun h (w : Unit) k s => (.ok (w, H h k s) : Go (Unit × U64))) h w k s = .ok (w', H h k s) ∧ True := by
  have hall : ∀ l : List KeySet, (∀ S ∈ l, ∃ cs, Match S cs) → ∃ all : List (List U8 × U64), ∀ S ∈ l, ∀ k s, S.mem k s → (k, s) ∈ all := by
    intro l hl
    induction l with
    | nil => exact ⟨[], fun S h => (nomatch h)⟩
    | cons S l ih =>
      obtain ⟨all, h1⟩ := ih fun S hS => hl S (by simp [hS])
      obtain ⟨cs, h2⟩ := hl S (by simp)
      refine ⟨cs ++ all, fun S' hS' k s hm => ?_⟩
      rcases List.mem_cons.1 hS' with rfl | hS'
      · exact List.mem_append_left _ ((h2.2.1 k s).2 hm)
      · exact List.mem_append_right _ (h1 S' hS' k s hm)
  obtain ⟨all, ha⟩ := hall (allSets r) fun S hS => by
    obtain ⟨t, _, hS⟩ := List.mem_flatMap.1 hS
    exact listed r t S hS
  have hnd := List.nodup_dedup all
  refine ⟨all.dedup.length, fun i => all.dedup[i], fun f k s => if h : all.dedup.idxOf (k, s) < all.dedup.length then BitVec.ofNat 64 (f ⟨_, h⟩).val else 0, ?_, ?_, ?_⟩
  · intro t ht S hS k s hm
    obtain ⟨i, hi, e⟩ := List.getElem_of_mem (List.mem_dedup.2 (ha S (List.mem_flatMap.2 ⟨t, ht, hS⟩) k s hm))
    exact ⟨⟨i, hi⟩, e⟩
  · intro f i
    have hidx : all.dedup.idxOf all.dedup[i] = i.val := List.Nodup.idxOf_getElem hnd i.val i.isLt
    have hlt : all.dedup.idxOf (all.dedup[i].1, all.dedup[i].2) < all.dedup.length := by
      show all.dedup.idxOf all.dedup[i] < _
      rw [hidx]; exact i.isLt
    show BitVec.toNat (if h : all.dedup.idxOf (all.dedup[i].1, all.dedup[i].2) < all.dedup.length then BitVec.ofNat 64 (f ⟨_, h⟩).val else 0) = _
    rw [dif_pos hlt, BitVec.toNat_ofNat, Nat.mod_eq_of_lt (f _).isLt]
    congr 2
    exact Fin.ext hidx
  · intro h w k s _
    exact ⟨w, rfl, trivial⟩

end Verif.Props.Alarm
