import Verif.Lemmas.HtConc4

/-! Lemmas on the small-step `Insert`: building schedules without a lock. -/

namespace Verif.Lemmas.HtConc
open Verif Verif.HashTable Verif.Model.HtConc Verif.Spec.HtConc

variable {κ : Type}

/-- What a reader sees at any moment. -/
theorem useen {H : κ → U64 → U64} {n : Nat} {ks : Fin n → κ} {m0 : Mem κ} {c : Conc κ n} {own lab} (inv : UInv H ks m0 c own lab) :
    ∃ ids : Nat → List (Fin n), (∀ i, bucket c.m.view i = bucket m0.view i ++ (ids i).map ks) ∧ (∀ i, (ids i).Nodup) ∧ (∀ i j g, g ∈ ids i → g ∈ ids j → i = j) ∧
      (m0.rest.oa = false → ∀ i g, g ∈ ids i → i = home H m0.view (ks g)) ∧
      (m0.rest.oa = false → ∀ g, after (c.pcs g) = true → ids (home H m0.view (ks g)) ≠ []) := by
  let ids : Nat → List (Fin n) := fun i => match c.m.slots[i]? with
    | some (some (a, l)) => (lab a).take (l - (old m0 i).length)
    | _ => []
  have hmem : ∀ i g, g ∈ ids i → ∃ a, g ∈ lab a ∧ own a = some i := by
    intro i g hg
    dsimp only [ids] at hg
    split at hg
    · next a l hs => exact ⟨a, List.mem_of_mem_take hg, (inv.slot i a l hs).1⟩
    · cases hg
  refine ⟨ids, ?_, ?_, ?_, ?_, ?_⟩
  · intro i
    rw [bucket_view, bucket_view]
    dsimp only [ids]
    split
    · next a l hs =>
      obtain ⟨s1, s2, s3⟩ := inv.slot i a l hs
      rw [old, hs, Option.getD_some]
      exact (inv.chain s1 s2 s3).1
    · next hns =>
      rw [List.map_nil, List.append_nil]
      cases hs : c.m.slots[i]? with
      | none =>
        have : m0.slots[i]? = none := by
          rw [List.getElem?_eq_none_iff] at hs ⊢
          rw [← inv.len]; exact hs
        rw [old, old, hs, this]
        rfl
      | some hd =>
        cases hd with
        | none => rw [inv.nil i hs, old, hs]; rfl
        | some p => exact (hns p.1 p.2 hs).elim
  · intro i
    dsimp only [ids]
    split
    · next a l hs => exact (inv.nodup a).sublist (List.take_sublist _ _)
    · exact List.nodup_nil
  · intro i j g hi hj
    obtain ⟨a, ha, ha'⟩ := hmem i g hi
    obtain ⟨b, hb, hb'⟩ := hmem j g hj
    have := inv.uniq a b g ha hb
    rw [ha', hb'] at this
    exact Option.some.inj this
  · intro ho i g hg
    obtain ⟨a, ha, ha'⟩ := hmem i g hg
    exact inv.homes ho a i g ha' ha
  · intro ho g hg
    obtain ⟨a, l, hs, hl⟩ := inv.kept ho g hg
    obtain ⟨s1, s2, s3⟩ := inv.slot _ a l hs
    dsimp only [ids]
    rw [hs]
    dsimp only
    intro h
    have := congrArg List.length h
    rw [List.length_take, List.length_nil] at this
    omega

/-- Some schedule leads from `c` to `c'`. -/
def Can (H : κ → U64 → U64) (grow : Nat → Nat) {n : Nat} (ks : Fin n → κ) (c c' : Conc κ n) : Prop := ∃ s, c.run H grow ks s = c'

theorem Can.trans {H : κ → U64 → U64} {grow : Nat → Nat} {n : Nat} {ks : Fin n → κ} {a b c : Conc κ n} (h : Can H grow ks a b) (h' : Can H grow ks b c) : Can H grow ks a c := by
  obtain ⟨s, rfl⟩ := h
  obtain ⟨t, rfl⟩ := h'
  exact ⟨s ++ t, by simp [Conc.run]⟩

theorem Can.refl {H : κ → U64 → U64} {grow : Nat → Nat} {n : Nat} {ks : Fin n → κ} (a : Conc κ n) : Can H grow ks a a := ⟨[], rfl⟩

/-- One goroutine runs, the others wait. -/
theorem can_of {H : κ → U64 → U64} {grow : Nat → Nat} {n : Nat} {ks : Fin n → κ} (g : Fin n) {m m' : Mem κ} {pc pc' : Pc} (h : Reaches H grow (ks g) m pc m' pc') :
    ∀ c : Conc κ n, c.m = m → c.pcs g = pc → Can H grow ks c ⟨m', fun j => if j = g then pc' else c.pcs j⟩ := by
  induction h with
  | refl =>
    intro c hm hp
    have : c = ⟨c.m, fun j => if j = g then c.pcs g else c.pcs j⟩ := by
      cases c
      congr 1
      funext j
      dsimp only
      split
      · next h => rw [h]
      · rfl
    rw [← hm, ← hp, ← this]
    exact .refl _
  | @head m pc m1 pc1 m2 pc2 s _ ih =>
    intro c hm hp
    have h1 : Can H grow ks c ⟨m1, fun j => if j = g then pc1 else c.pcs j⟩ := by
      refine ⟨[g], ?_⟩
      show Conc.step H grow ks c g = _
      unfold Conc.step
      rw [hm, hp, s]
    refine h1.trans ?_
    have h2 := ih ⟨m1, fun j => if j = g then pc1 else c.pcs j⟩ rfl (if_pos rfl)
    have e : (fun j => if j = g then pc2 else (fun j => if j = g then pc1 else c.pcs j) j) = fun j => if j = g then pc2 else c.pcs j := by
      funext j
      dsimp only
      split <;> rfl
    rw [e] at h2
    exact h2

/-- A reader that counted more elements than the bucket has now panics. -/
theorem scan_fails (H : κ → U64 → U64) (grow : Nat → Nat) (k : κ) (h idx : U64) (b : List κ) (N : Nat) (hN : b.length < N) :
    ∀ (r j : Nat) (m : Mem κ), j + r = b.length → m.chain ((m.slots[idx.toNat]?).getD none) = b →
      ∃ r', Reaches H grow k m (.scan h idx j N) { m with rest := r' } (.fail .index) := by
  intro r
  induction r with
  | zero =>
    intro j m hj hb
    refine ⟨m.rest, .head (m1 := m) (pc1 := .fail .index) ?_ .refl⟩
    rw [step, if_pos (by omega), hb, List.getElem?_eq_none (by omega)]
  | succ r ih =>
    intro j m hj hb
    have hlt : j < b.length := by omega
    have hget : (m.chain ((m.slots[idx.toNat]?).getD none))[j]? = some b[j] := by rw [hb, List.getElem?_eq_getElem hlt]
    by_cases he : H b[j] m.rest.seed = h
    · obtain ⟨r', hr'⟩ := ih (j + 1) { m with rest := { m.rest with dups := m.rest.dups + 1 } } (by omega) hb
      refine ⟨r', .head (m1 := m) (pc1 := .inc .dups (.scan h idx (j + 1) N)) ?_ ?_⟩
      · rw [step, if_pos (by omega), hget]; simp only [he, if_true]
      · exact .head rfl (.head rfl hr')
    · obtain ⟨r', hr'⟩ := ih (j + 1) m (by omega) hb
      refine ⟨r', .head (m1 := m) (pc1 := .scan h idx (j + 1) N) ?_ hr'⟩
      rw [step, if_pos (by omega), hget]; simp only [he, if_false]

section
variable {H : κ → U64 → U64} {grow : Nat → Nat} {n : Nat} {ks : Fin n → κ} {m0 : Mem κ}

/-- The header in bucket `i`. -/
def hdAt (c : Conc κ n) (i : Nat) : Option (Nat × Nat) := (c.m.slots[i]?).getD none

/-- A reachable state. -/
def Rch (H : κ → U64 → U64) (grow : Nat → Nat) (ks : Fin n → κ) (m0 : Mem κ) (c : Conc κ n) : Prop := Can H grow ks (unlocked n m0) c

theorem Rch.inv (hs : Sound m0) (wf : WF m0.view) {c : Conc κ n} (h : Rch H grow ks m0 c) : ∃ own lab, UInv H ks m0 c own lab := by
  obtain ⟨s, rfl⟩ := h
  exact uinv hs wf s

theorem Rch.facts (hs : Sound m0) (wf : WF m0.view) {c : Conc κ n} (h : Rch H grow ks m0 c) (k : κ) :
    c.m.slots[home H m0.view k]? = some (hdAt c (home H m0.view k)) ∧ (c.m.chain (hdAt c (home H m0.view k))).length = hdLen (hdAt c (home H m0.view k)) ∧
    (bucket c.m.view (home H m0.view k)).length = hdLen (hdAt c (home H m0.view k)) ∧
    (∀ p, hdAt c (home H m0.view k) = some p → (old m0 (home H m0.view k)).length ≤ p.2) := by
  obtain ⟨own, lab, inv⟩ := h.inv hs wf
  have hlt := home_lt wf H k
  rw [← inv.len] at hlt
  have h1 : c.m.slots[home H m0.view k]? = some (hdAt c (home H m0.view k)) := by
    rw [hdAt, List.getElem?_eq_getElem hlt]; rfl
  have h2 : (c.m.chain (hdAt c (home H m0.view k))).length = hdLen (hdAt c (home H m0.view k)) := by
    cases hh : hdAt c (home H m0.view k) with
    | none => rfl
    | some p =>
      obtain ⟨a, l⟩ := p
      rw [hh] at h1
      obtain ⟨s1, s2, s3⟩ := inv.slot _ _ _ h1
      exact (inv.chain s1 s2 s3).2
  refine ⟨h1, h2, ?_, ?_⟩
  · rw [bucket_view, old, h1, Option.getD_some, h2]
  · intro p hp
    rw [hp] at h1
    exact (inv.slot _ _ _ h1).2.1

/-- A goroutine counts its call and computes its bucket. -/
theorem can_hash (wf : WF m0.view) (hs : Sound m0) {c : Conc κ n} (hr : Rch H grow ks m0 c) (g : Fin n) (hg : c.pcs g = .hash) :
    ∃ h idx, idx.toNat = home H m0.view (ks g) ∧ Reaches H grow (ks g) c.m .hash c.m (.look h idx 0 0) := by
  obtain ⟨own, lab, inv⟩ := hr.inv hs wf
  cases hp : c.m.rest.prime with
  | true =>
    have hp0 : m0.view.prime = true := inv.prime.symm.trans hp
    have h0 : ¬ c.m.rest.size = 0 := by
      rw [inv.size]
      intro h; have := wf.pos; rw [show m0.view.size = m0.rest.size from rfl, h] at this; simp at this
    refine ⟨H (ks g) c.m.rest.seed, H (ks g) c.m.rest.seed % c.m.rest.size, ?_, .head ?_ .refl⟩
    · rw [home, Spec.HashTable.homeOf, if_pos hp0, inv.seed, inv.size, BitVec.toNat_umod]
      rfl
    · rw [step]
      rw [hp, if_pos rfl, if_neg h0]
  | false =>
    have hp0 : ¬ m0.view.prime = true := by rw [show m0.view.prime = false from inv.prime.symm.trans hp]; decide
    refine ⟨H (ks g) c.m.rest.seed, H (ks g) c.m.rest.seed &&& c.m.rest.sizeMask, ?_, .head ?_ .refl⟩
    · have hm : m0.rest.sizeMask = m0.view.size - 1 := wf.mask
      rw [home, Spec.HashTable.homeOf, if_neg hp0, inv.seed, inv.mask, hm, BitVec.toNat_and, size_sub_one wf.pos]
      rfl
    · rw [step]
      rw [hp, if_neg (by decide)]

theorem append_len (m : Mem κ) (hd : Option (Nat × Nat)) (k : κ) : (m.append grow hd k).2.2 = hdLen hd + 1 := by
  unfold Mem.append
  cases hd with
  | none => rfl
  | some p => dsimp only; split <;> rfl

/-- A goroutine of a chaining table runs up to the store of its `append`. -/
theorem can_put (hs : Sound m0) (wf : WF m0.view) (ho : m0.rest.oa = false) {c : Conc κ n} (hr : Rch H grow ks m0 c) (g : Fin n) (hg : c.pcs g = .hash) :
    ∃ (c' : Conc κ n) (idx : U64) (hd : Nat × Nat) (first : Bool), Can H grow ks c c' ∧ idx.toNat = home H m0.view (ks g) ∧ c'.pcs g = .put idx hd first ∧
      hd.2 = hdLen (hdAt c (home H m0.view (ks g))) + 1 ∧ c'.m.slots = c.m.slots ∧ c'.m.rest.inserts = c.m.rest.inserts ∧ ∀ j, j ≠ g → c'.pcs j = c.pcs j := by
  obtain ⟨h, idx, hidx, hlook⟩ := can_hash wf hs hr g hg
  obtain ⟨f1, f2, f3, _⟩ := hr.facts hs wf (ks g)
  obtain ⟨own, lab, inv⟩ := hr.inv hs wf
  have hoa : c.m.rest.oa = false := inv.oa.trans ho
  rw [← hidx] at f1 f2
  obtain ⟨a1, a2⟩ := append_rest grow c.m (hdAt c idx.toNat) (ks g)
  cases hh : hdAt c idx.toNat with
  | none =>
    rw [hh] at f1 f2
    have hre : Reaches H grow (ks g) c.m .hash (c.m.append grow none (ks g)).1 (.put idx (c.m.append grow none (ks g)).2 true) := by
      refine hlook.trans (.head (m1 := c.m) (pc1 := .app idx true) (by rw [step, f1]) ?_)
      exact .head (by rw [step, f1]) .refl
    refine ⟨_, idx, _, true, can_of g hre c rfl hg, hidx, if_pos rfl, ?_, rfl, rfl, fun j hj => if_neg hj⟩
    rw [← hidx, hh]
    rfl
  | some p =>
    obtain ⟨a, l⟩ := p
    rw [hh] at f1 f2 a1 a2
    have hgetD : (c.m.slots[idx.toNat]?).getD none = some (a, l) := by rw [f1]; rfl
    have hscan := scan_reaches H grow (ks g) h idx (c.m.chain (some (a, l))) l 0 c.m (by rw [f2]; simp [hdLen]) (by rw [hgetD])
    generalize (scanDups (pureEnv H (fun _ => true)) c.m.rest.seed h ((c.m.chain (some (a, l))).drop 0) () c.m.rest.dups).1 = D at hscan
    rw [f2] at hscan
    let m1 : Mem κ := { c.m with rest := { c.m.rest with dups := D } }
    have hre : Reaches H grow (ks g) c.m .hash (m1.append grow (some (a, l)) (ks g)).1 (.put idx (m1.append grow (some (a, l)) (ks g)).2 false) := by
      refine hlook.trans (.head (m1 := c.m) (pc1 := .rng h idx) (by rw [step, f1]; simp [hoa]) ?_)
      refine .head (m1 := c.m) (pc1 := .scan h idx 0 (hdLen (some (a, l)))) (by rw [step, f1]) ?_
      refine hscan.trans (.head ?_ .refl)
      rw [step]
      show (match c.m.slots[idx.toNat]? with | none => _ | some hd => _) = _
      rw [f1]
    obtain ⟨b1, b2⟩ := append_rest grow m1 (some (a, l)) (ks g)
    refine ⟨_, idx, _, false, can_of g hre c rfl hg, hidx, if_pos rfl, ?_, b2, by rw [b1], fun j hj => if_neg hj⟩
    rw [← hidx, hh]
    exact append_len _ _ _

/-- A goroutine runs up to the scan of its (non-empty) chain. -/
theorem can_scan (hs : Sound m0) (wf : WF m0.view) (ho : m0.rest.oa = false) {c : Conc κ n} (hr : Rch H grow ks m0 c) (g : Fin n) (hg : c.pcs g = .hash) (hne : hdAt c (home H m0.view (ks g)) ≠ none) :
    ∃ (c' : Conc κ n) (h idx : U64), Can H grow ks c c' ∧ idx.toNat = home H m0.view (ks g) ∧ c'.pcs g = .scan h idx 0 (hdLen (hdAt c (home H m0.view (ks g)))) ∧
      c'.m = c.m ∧ ∀ j, j ≠ g → c'.pcs j = c.pcs j := by
  obtain ⟨h, idx, hidx, hlook⟩ := can_hash wf hs hr g hg
  obtain ⟨f1, f2, f3, _⟩ := hr.facts hs wf (ks g)
  obtain ⟨own, lab, inv⟩ := hr.inv hs wf
  have hoa : c.m.rest.oa = false := inv.oa.trans ho
  rw [← hidx] at f1 f2 hne ⊢
  cases hh : hdAt c idx.toNat with
  | none => exact (hne hh).elim
  | some p =>
    rw [hh] at f1
    have hre : Reaches H grow (ks g) c.m .hash c.m (.scan h idx 0 (hdLen (some p))) := by
      refine hlook.trans (.head (m1 := c.m) (pc1 := .rng h idx) (by rw [step, f1]; simp [hoa]) ?_)
      exact .head (by rw [step, f1]) .refl
    exact ⟨_, h, idx, can_of g hre c rfl hg, rfl, if_pos rfl, rfl, fun j hj => if_neg hj⟩

/-- A goroutine stores the result of its `append`. -/
theorem can_store (hs : Sound m0) (wf : WF m0.view) {c : Conc κ n} (hr : Rch H grow ks m0 c) (g : Fin n) (idx : U64) (hd : Nat × Nat) (first : Bool) (hg : c.pcs g = .put idx hd first)
    (hidx : idx.toNat = home H m0.view (ks g)) :
    ∃ c' : Conc κ n, Can H grow ks c c' ∧ after (c'.pcs g) = true ∧ c'.m.slots = c.m.slots.set idx.toNat (some hd) ∧ c'.m.rest = c.m.rest ∧ (∀ j, j ≠ g → c'.pcs j = c.pcs j) ∧
      c'.pcs g = (if first then .inc .probes (.inc .heads .done) else .longest idx) := by
  obtain ⟨own, lab, inv⟩ := hr.inv hs wf
  have hlt := home_lt wf H (ks g)
  rw [← inv.len, ← hidx] at hlt
  have hre : Reaches H grow (ks g) c.m (.put idx hd first) { c.m with slots := c.m.slots.set idx.toNat (some hd) } (if first then .inc .probes (.inc .heads .done) else .longest idx) :=
    .head (by rw [step, if_pos hlt]) .refl
  refine ⟨_, can_of g hre c rfl hg, ?_, rfl, rfl, fun j hj => if_neg hj, if_pos rfl⟩
  show after (if g = g then _ else _) = true
  rw [if_pos rfl]
  cases first <;> rfl

/-- A goroutine that has stored its key returns. -/
theorem can_done (hs : Sound m0) (wf : WF m0.view) {c : Conc κ n} (hr : Rch H grow ks m0 c) (g : Fin n) (idx : U64) (first : Bool)
    (hg : c.pcs g = (if first then .inc .probes (.inc .heads .done) else .longest idx)) (hidx : idx.toNat = home H m0.view (ks g)) :
    ∃ c' : Conc κ n, Can H grow ks c c' ∧ c'.pcs g = .done ∧ c'.m.slots = c.m.slots ∧ c'.m.rest.inserts = c.m.rest.inserts ∧ ∀ j, j ≠ g → c'.pcs j = c.pcs j := by
  obtain ⟨f1, f2, f3, _⟩ := hr.facts hs wf (ks g)
  rw [← hidx] at f1
  cases first with
  | true =>
    have hre : Reaches H grow (ks g) c.m (.inc .probes (.inc .heads .done)) { c.m with rest := { c.m.rest with probes := c.m.rest.probes + 1, heads := c.m.rest.heads + 1 } } .done :=
      .head rfl (.head rfl (.head rfl (.head rfl .refl)))
    exact ⟨_, can_of g hre c rfl hg, if_pos rfl, rfl, rfl, fun j hj => if_neg hj⟩
  | false =>
    by_cases hl : hdLen (hdAt c idx.toNat) > c.m.rest.longestChain
    · have hre : Reaches H grow (ks g) c.m (.longest idx)
          { c.m with rest := { c.m.rest with longestChain := hdLen (hdAt c idx.toNat), nbuckets := c.m.rest.nbuckets + 1, probes := c.m.rest.probes + 1 } } .done := by
        refine .head (m1 := c.m) (pc1 := .setLongest idx) (by rw [step, f1]; simp only [hl, if_true]) ?_
        refine .head (m1 := { c.m with rest := { c.m.rest with longestChain := hdLen (hdAt c idx.toNat) } }) (pc1 := .inc .nbuckets (.inc .probes .done)) (by rw [step, f1]) ?_
        exact .head rfl (.head rfl (.head rfl (.head rfl .refl)))
      exact ⟨_, can_of g hre c rfl hg, if_pos rfl, rfl, rfl, fun j hj => if_neg hj⟩
    · have hre : Reaches H grow (ks g) c.m (.longest idx) { c.m with rest := { c.m.rest with nbuckets := c.m.rest.nbuckets + 1, probes := c.m.rest.probes + 1 } } .done := by
        refine .head (m1 := c.m) (pc1 := .inc .nbuckets (.inc .probes .done)) (by rw [step, f1]; simp only [hl, if_false]) ?_
        exact .head rfl (.head rfl (.head rfl (.head rfl .refl)))
      exact ⟨_, can_of g hre c rfl hg, if_pos rfl, rfl, rfl, fun j hj => if_neg hj⟩

/-- A goroutine counts its call. -/
theorem can_start {c : Conc κ n} (g : Fin n) (hg : c.pcs g = .start) :
    ∃ c' : Conc κ n, Can H grow ks c c' ∧ c'.pcs g = .hash ∧ c'.m.slots = c.m.slots ∧ c'.m.rest.inserts = c.m.rest.inserts + 1 ∧ ∀ j, j ≠ g → c'.pcs j = c.pcs j := by
  have hre : Reaches H grow (ks g) c.m .start { c.m with rest := { c.m.rest with inserts := c.m.rest.inserts + 1 } } .hash := .head rfl (.head rfl .refl)
  exact ⟨_, can_of g hre c rfl hg, if_pos rfl, rfl, rfl, fun j hj => if_neg hj⟩

end

end Verif.Lemmas.HtConc
