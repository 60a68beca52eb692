import Verif.Lemmas.HtConc3

/-! Lemmas on the small-step `Insert`: the invariant of calls without a lock. -/

namespace Verif.Lemmas.HtConc
open Verif Verif.HashTable Verif.Model.HtConc Verif.Spec.HtConc

variable {κ : Type}

theorem home_lt {m0 : Mem κ} (wf : WF m0.view) (H : κ → U64 → U64) (k : κ) : home H m0.view k < m0.slots.length := by
  have h := wf.len
  have : m0.view.buckets.length = m0.slots.length := by simp [Mem.view]
  rw [← this, h]
  exact homeOf_lt _ wf.pos _

theorem ustep {H : κ → U64 → U64} {grow : Nat → Nat} {n : Nat} {ks : Fin n → κ} {m0 : Mem κ} {c : Conc κ n} {own lab} (wf : WF m0.view) (inv : UInv H ks m0 c own lab) (g : Fin n) :
    ∃ own' lab', UInv H ks m0 (c.step H grow ks g) own' lab' := by
  have hlt := home_lt wf H (ks g)
  rw [← inv.len] at hlt
  -- a step that only moves on
  have move : ∀ (pc0 pc : Pc) (r : HT κ), c.pcs g = pc0 → step H grow (ks g) c.m pc0 = some ({ c.m with rest := r }, pc) →
      (r.seed = c.m.rest.seed ∧ r.prime = c.m.rest.prime ∧ r.size = c.m.rest.size ∧ r.sizeMask = c.m.rest.sizeMask ∧ r.oa = c.m.rest.oa) →
      (before pc0 = false → before pc = false) → (∀ x, pending pc = some x → pending pc0 = some x) →
      (m0.rest.oa = false → at_ (home H m0.view (ks g)) pc0 → at_ (home H m0.view (ks g)) pc) → (after pc = true → after pc0 = true) →
      (m0.rest.oa = false → at_ (home H m0.view (ks g)) pc0 → sane c.m.slots pc0 → sane c.m.slots pc) →
      ∃ own' lab', UInv H ks m0 (c.step H grow ks g) own' lab' := by
    rintro pc0 pc r rfl hs hr hb hp ht ha hf
    refine ⟨own, lab, ?_⟩
    unfold Conc.step
    rw [hs]
    exact inv.quiet g r pc hr hb hp ht ha (fun ho _ => hf ho (inv.chained ho g))
  have same : c.m.rest.seed = c.m.rest.seed ∧ c.m.rest.prime = c.m.rest.prime ∧ c.m.rest.size = c.m.rest.size ∧ c.m.rest.sizeMask = c.m.rest.sizeMask ∧ c.m.rest.oa = c.m.rest.oa :=
    ⟨rfl, rfl, rfl, rfl, rfl⟩
  have oob : ∀ idx : U64, c.m.slots[idx.toNat]? = none → idx.toNat = home H m0.view (ks g) → False := by
    intro idx h1 h2
    rw [h2, List.getElem?_eq_getElem hlt] at h1
    cases h1
  cases hpc : c.pcs g with
  | inc ct next => exact move _ _ c.m.rest hpc rfl same id (fun _ h => h) (fun _ h => h) id (fun _ _ h => h)
  | incw ct v next =>
    refine move _ _ (ct.set c.m.rest (v + 1)) hpc rfl ?_ id (fun _ h => h) (fun _ h => h) id (fun _ _ h => h)
    cases ct <;> exact ⟨rfl, rfl, rfl, rfl, rfl⟩
  | hash =>
    cases hp : c.m.rest.prime with
    | true =>
      have hp0 : m0.view.prime = true := inv.prime.symm.trans hp
      have h0 : ¬ c.m.rest.size = 0 := by
        rw [inv.size]
        intro h; have := wf.pos; rw [show m0.view.size = m0.rest.size from rfl, h] at this; simp at this
      refine move _ (.look (H (ks g) c.m.rest.seed) (H (ks g) c.m.rest.seed % c.m.rest.size) 0 0) c.m.rest hpc ?_ same (fun h => by cases h) (fun _ h => by cases h) ?_ (fun h => by cases h) (fun _ _ _ => trivial)
      · rw [step]
        dsimp only
        rw [hp, if_pos rfl, if_neg h0]
      · intro _ _
        show (H (ks g) c.m.rest.seed % c.m.rest.size).toNat = _
        rw [home, Spec.HashTable.homeOf, if_pos hp0, inv.seed, inv.size, BitVec.toNat_umod]
        rfl
    | false =>
      have hp0 : ¬ m0.view.prime = true := by rw [show m0.view.prime = false from inv.prime.symm.trans hp]; decide
      refine move _ (.look (H (ks g) c.m.rest.seed) (H (ks g) c.m.rest.seed &&& c.m.rest.sizeMask) 0 0) c.m.rest hpc ?_ same (fun h => by cases h) (fun _ h => by cases h) ?_ (fun h => by cases h) (fun _ _ _ => trivial)
      · rw [step]
        dsimp only
        rw [hp, if_neg (by decide)]
      · intro _ _
        show (H (ks g) c.m.rest.seed &&& c.m.rest.sizeMask).toNat = _
        have hm : m0.rest.sizeMask = m0.view.size - 1 := wf.mask
        rw [home, Spec.HashTable.homeOf, if_neg hp0, inv.seed, inv.mask, hm, BitVec.toNat_and, size_sub_one wf.pos]
        rfl
  | look h idx cnt pass =>
    cases hs : c.m.slots[idx.toNat]? with
    | none =>
      exact move _ (.fail .index) c.m.rest hpc (by rw [step, hs]) same (fun _ => rfl) (fun _ h => by cases h) (fun _ _ => trivial) (fun h => by cases h)
        (fun _ ha _ => oob idx hs ha)
    | some hd =>
      cases hd with
      | none =>
        exact move _ (.app idx true) c.m.rest hpc (by rw [step, hs]) same (fun h => by cases h) (fun _ h => by cases h) (fun _ h => h) (fun h => by cases h) (fun _ _ _ => trivial)
      | some p =>
        cases hoa : c.m.rest.oa with
        | true =>
          have ho : ¬ m0.rest.oa = false := by rw [← inv.oa, hoa]; decide
          refine move _ (.inc (if cnt = 0 then .probes else .cols) (.key h idx cnt pass)) c.m.rest hpc (by rw [step, hs]; simp [hoa]) same (fun h => by cases h) (fun _ h => by cases h)
            (fun h => (ho h).elim) (fun h => by cases h) (fun h => (ho h).elim)
        | false =>
          exact move _ (.rng h idx) c.m.rest hpc (by rw [step, hs]; simp [hoa]) same (fun h => by cases h) (fun _ h => by cases h) (fun _ h => h) (fun h => by cases h) (fun _ _ _ => trivial)
  | key h idx cnt pass =>
    have hadv : ∀ s, (∀ x, pending (advance s h idx cnt pass) = some x → False) ∧ (after (advance s h idx cnt pass) = true → False) := by
      intro s
      unfold advance
      split
      · split
        · exact ⟨fun _ h => (by cases h), fun h => (by cases h)⟩
        · exact ⟨fun _ h => (by cases h), fun h => (by cases h)⟩
      · exact ⟨fun _ h => (by cases h), fun h => (by cases h)⟩
    cases hk : (c.m.chain ((c.m.slots[idx.toNat]?).getD none))[0]? with
    | none =>
      exact move _ (.fail .index) c.m.rest hpc (by rw [step, hk]) same (fun _ => rfl) (fun _ h => by cases h) (fun _ h => h.elim) (fun h => by cases h) (fun _ h _ => h.elim)
    | some k0 =>
      by_cases he : H k0 c.m.rest.seed = h
      · exact move _ (.inc .dups (advance c.m.rest.size h idx cnt pass)) c.m.rest hpc (by rw [step, hk]; simp only [he, if_true]) same (fun h => by cases h)
          (fun x h => ((hadv c.m.rest.size).1 x h).elim) (fun _ h => h.elim) (fun h => ((hadv c.m.rest.size).2 h).elim) (fun _ h _ => h.elim)
      · exact move _ (advance c.m.rest.size h idx cnt pass) c.m.rest hpc (by rw [step, hk]; simp only [he, if_false]) same (fun h => by cases h)
          (fun x h => ((hadv c.m.rest.size).1 x h).elim) (fun _ h => h.elim) (fun h => ((hadv c.m.rest.size).2 h).elim) (fun _ h _ => h.elim)
  | rng h idx =>
    cases hs : c.m.slots[idx.toNat]? with
    | none =>
      exact move _ (.fail .index) c.m.rest hpc (by rw [step, hs]) same (fun _ => rfl) (fun _ h => by cases h) (fun _ _ => trivial) (fun h => by cases h)
        (fun _ ha _ => oob idx hs ha)
    | some hd =>
      exact move _ (.scan h idx 0 (hdLen hd)) c.m.rest hpc (by rw [step, hs]) same (fun h => by cases h) (fun _ h => by cases h) (fun _ h => h) (fun h => by cases h)
        (fun _ _ _ hd' h' => by rw [hs] at h'; cases h'; exact Nat.le_refl _)
  | scan h idx j nn =>
    by_cases hj : j < nn
    · cases hk : (c.m.chain ((c.m.slots[idx.toNat]?).getD none))[j]? with
      | none =>
        refine move _ (.fail .index) c.m.rest hpc (by rw [step, if_pos hj, hk]) same (fun _ => rfl) (fun _ h => by cases h) (fun _ _ => trivial) (fun h => by cases h) ?_
        intro _ ha hs
        cases hsl : c.m.slots[idx.toNat]? with
        | none => exact oob idx hsl ha
        | some hd =>
          have hn := hs hd hsl
          rw [hsl, Option.getD_some] at hk
          cases hd with
          | none => simp [hdLen] at hn; omega
          | some p =>
            obtain ⟨a, l⟩ := p
            obtain ⟨s1, s2, s3⟩ := inv.slot _ _ _ hsl
            have hl := (inv.chain s1 s2 s3).2
            rw [List.getElem?_eq_getElem (by rw [hl]; simp [hdLen] at hn; omega)] at hk
            cases hk
      | some k0 =>
        by_cases he : H k0 c.m.rest.seed = h
        · exact move _ (.inc .dups (.scan h idx (j + 1) nn)) c.m.rest hpc (by rw [step, if_pos hj, hk]; simp only [he, if_true]) same (fun h => by cases h) (fun _ h => by cases h) (fun _ h => h) (fun h => by cases h)
            (fun _ _ h => h)
        · exact move _ (.scan h idx (j + 1) nn) c.m.rest hpc (by rw [step, if_pos hj, hk]; simp only [he, if_false]) same (fun h => by cases h) (fun _ h => by cases h) (fun _ h => h) (fun h => by cases h)
            (fun _ _ h => h)
    · exact move _ (.app idx false) c.m.rest hpc (by rw [step, if_neg hj]) same (fun h => by cases h) (fun _ h => by cases h) (fun _ h => h) (fun h => by cases h) (fun _ _ _ => trivial)
  | app idx first =>
    cases hs : c.m.slots[idx.toNat]? with
    | none =>
      exact move _ (.fail .index) c.m.rest hpc (by rw [step, hs]) same (fun _ => rfl) (fun _ h => by cases h) (fun _ _ => trivial) (fun h => by cases h)
        (fun _ ha _ => oob idx hs ha)
    | some hd =>
      have := inv.app (grow := grow) g idx first hpc hd hs
      have hst : c.step H grow ks g = ⟨(c.m.append grow hd (ks g)).1, fun j => if j = g then .put idx (c.m.append grow hd (ks g)).2 first else c.pcs j⟩ := by
        unfold Conc.step
        rw [hpc, step, hs]
      rw [hst]
      exact this
  | put idx hd first =>
    by_cases hi : idx.toNat < c.m.slots.length
    · obtain ⟨a, l⟩ := hd
      have := inv.put g idx a l first hpc hi
      have hst : c.step H grow ks g = ⟨{ c.m with slots := c.m.slots.set idx.toNat (some (a, l)) }, fun j => if j = g then (if first then .inc .probes (.inc .heads .done) else .longest idx) else c.pcs j⟩ := by
        unfold Conc.step
        rw [hpc, step, if_pos hi]
      rw [hst]
      exact ⟨own, lab, this⟩
    · exact move _ (.fail .index) c.m.rest hpc (by rw [step, if_neg hi]) same (fun _ => rfl) (fun _ h => by cases h) (fun _ _ => trivial) (fun h => by cases h)
        (fun _ ha _ => oob idx (List.getElem?_eq_none (by omega)) ha)
  | longest idx =>
    cases hs : c.m.slots[idx.toNat]? with
    | none =>
      exact move _ (.fail .index) c.m.rest hpc (by rw [step, hs]) same (fun _ => rfl) (fun _ h => by cases h) (fun _ _ => trivial) (fun h => by cases h)
        (fun _ ha _ => oob idx hs ha)
    | some hd =>
      by_cases hg : hdLen hd > c.m.rest.longestChain
      · exact move _ (.setLongest idx) c.m.rest hpc (by rw [step, hs]; simp only [hg, if_true]) same (fun _ => rfl) (fun _ h => by cases h) (fun _ h => h) (fun h => rfl) (fun _ _ _ => trivial)
      · exact move _ (.inc .nbuckets (.inc .probes .done)) c.m.rest hpc (by rw [step, hs]; simp only [hg, if_false]) same (fun _ => rfl) (fun _ h => by cases h) (fun _ h => trivial) (fun h => rfl) (fun _ _ _ => trivial)
  | setLongest idx =>
    cases hs : c.m.slots[idx.toNat]? with
    | none =>
      exact move _ (.fail .index) c.m.rest hpc (by rw [step, hs]) same (fun _ => rfl) (fun _ h => by cases h) (fun _ _ => trivial) (fun h => by cases h)
        (fun _ ha _ => oob idx hs ha)
    | some hd =>
      exact move _ (.inc .nbuckets (.inc .probes .done)) { c.m.rest with longestChain := hdLen hd } hpc (by rw [step, hs]) same (fun _ => rfl) (fun _ h => by cases h) (fun _ h => trivial) (fun h => rfl) (fun _ _ _ => trivial)
  | done =>
    refine ⟨own, lab, ?_⟩
    unfold Conc.step
    rw [hpc, step]
    exact inv
  | fail f =>
    refine ⟨own, lab, ?_⟩
    unfold Conc.step
    rw [hpc, step]
    exact inv

theorem uinit {H : κ → U64 → U64} {n : Nat} {ks : Fin n → κ} {m0 : Mem κ} (hs : Sound m0) :
    ∃ own lab, UInv H ks m0 (unlocked n m0) own lab := by
  classical
  refine ⟨fun a => if h : ∃ i l : Nat, m0.slots[i]? = some (some (a, l)) then some h.choose else none, fun _ => [], ?_⟩
  have own_eq : ∀ (a i l : Nat), m0.slots[i]? = some (some (a, l)) →
      (if h : ∃ i l : Nat, m0.slots[i]? = some (some (a, l)) then some h.choose else none) = some i := by
    intro a i l h
    have hex : ∃ i l : Nat, m0.slots[i]? = some (some (a, l)) := ⟨i, l, h⟩
    rw [dif_pos hex]
    obtain ⟨l', hl'⟩ := hex.choose_spec
    rw [(hs i a l h).2 _ l' hl']
  refine ⟨rfl, rfl, rfl, rfl, rfl, rfl, ?_, fun _ _ => rfl, fun _ => List.nodup_nil, fun _ _ h => (by cases h), fun _ _ _ h => (by cases h), ?_, ?_, fun _ _ _ _ h => (by cases h), fun _ _ => trivial,
    fun _ _ _ _ _ h => (by cases h), fun _ _ h => (by cases h), fun _ _ _ => trivial⟩
  · intro a i h
    split at h
    · next hex =>
      obtain ⟨l', hl'⟩ := hex.choose_spec
      have hi : hex.choose = i := Option.some.inj h
      rw [hi] at hl'
      obtain ⟨⟨cap, d, ha, hl, hc, _⟩, _⟩ := hs i a l' hl'
      refine ⟨cap, d, ha, ?_, by omega⟩
      unfold old
      rw [hl', Option.getD_some, chain_lt m0 ha, List.take_of_length_le (by omega)]
      simp
    · cases h
  · intro i h
    have h : m0.slots[i]? = some none := h
    unfold old
    rw [h]
    rfl
  · intro i a l h
    have h : m0.slots[i]? = some (some (a, l)) := h
    refine ⟨own_eq a i l h, ?_⟩
    unfold old
    rw [h, Option.getD_some, (chain_pos hs h).1]
    exact ⟨Nat.le_refl _, Nat.le_refl _⟩

theorem uinv {H : κ → U64 → U64} {grow : Nat → Nat} {n : Nat} {ks : Fin n → κ} {m0 : Mem κ} (hs : Sound m0) (wf : WF m0.view) (sched : List (Fin n)) :
    ∃ own lab, UInv H ks m0 ((unlocked n m0).run H grow ks sched) own lab := by
  unfold Conc.run
  have h0 := uinit (H := H) (ks := ks) hs
  generalize unlocked n m0 = c at h0
  induction sched generalizing c with
  | nil => exact h0
  | cons i s ih =>
    obtain ⟨own, lab, h⟩ := h0
    exact ih _ (ustep wf h i)

end Verif.Lemmas.HtConc
