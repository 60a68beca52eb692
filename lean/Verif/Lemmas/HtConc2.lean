import Verif.Lemmas.HtConc

/-! Lemmas on the small-step `Insert`: calls under a lock. -/

namespace Verif.Lemmas.HtConc
open Verif Verif.HashTable Verif.Model.HtConc Verif.Spec.HtConc

variable {κ : Type}

/-- A call that runs alone does what `Insert` does. -/
theorem alone (H : κ → U64 → U64) (grow : Nat → Nat) (k : κ) (m : Mem κ) (hs : Sound m) :
    (∀ w ht', HashTable.insert (pureEnv H (fun _ => true)) () m.view k = .ok (w, ht') →
      ∃ m', Reaches H grow k m .start m' .done ∧ m'.view = ht' ∧ Sound m') ∧
    (∀ f, f ≠ .diverge → HashTable.insert (pureEnv H (fun _ => true)) () m.view k = .error f →
      ∃ m', Reaches H grow k m .start m' (.fail f)) := by
  let m1 : Mem κ := { m with rest := { m.rest with inserts := m.rest.inserts + 1 } }
  have hs1 : Sound m1 := hs
  have r1 : Reaches H grow k m .start m1 .hash := .head rfl (.head rfl .refl)
  generalize hres : HashTable.insert _ _ _ _ = res
  unfold HashTable.insert at hres
  change (if m.rest.prime = true then
      ((if m.rest.size = 0 then Except.error Fault.divZero else Except.ok (H k m.rest.seed % m.rest.size) : Go U64) >>= fun idx =>
      insertLoop (pureEnv H (fun _ => true)) k (H k m.rest.seed) (2 * m.rest.size.toNat + 1) () m1.view idx 0 0)
      else ((Except.ok (H k m.rest.seed &&& m.rest.sizeMask) : Go U64) >>= fun idx =>
      insertLoop (pureEnv H (fun _ => true)) k (H k m.rest.seed) (2 * m.rest.size.toNat + 1) () m1.view idx 0 0)) = res at hres
  have fin : ∀ idx, Reaches H grow k m1 .hash m1 (.look (H k m.rest.seed) idx 0 0) →
      insertLoop (pureEnv H (fun _ => true)) k (H k m.rest.seed) (2 * m.rest.size.toNat + 1) () m1.view idx 0 0 = res →
      (∀ w ht', res = .ok (w, ht') → ∃ m', Reaches H grow k m .start m' .done ∧ m'.view = ht' ∧ Sound m') ∧
      (∀ f, f ≠ .diverge → res = .error f → ∃ m', Reaches H grow k m .start m' (.fail f)) := by
    intro idx hr hl
    obtain ⟨i1, i2⟩ := loop_reaches H grow k (H k m.rest.seed) (2 * m.rest.size.toNat + 1) m1 idx 0 0 hs1
    rw [hl] at i1 i2
    refine ⟨fun w ht' e => ?_, fun f hf e => ?_⟩
    · obtain ⟨m', a, b⟩ := i1 w ht' e
      exact ⟨m', r1.trans (hr.trans a), b⟩
    · obtain ⟨m', a⟩ := i2 f hf e
      exact ⟨m', r1.trans (hr.trans a)⟩
  cases hp : m.rest.prime with
  | true =>
    rw [hp, if_pos rfl] at hres
    by_cases h0 : m.rest.size = 0
    · rw [if_pos h0, Go.bind_error] at hres
      rw [← hres]
      refine ⟨fun w ht' e => (by cases e), fun f hf e => ?_⟩
      cases e
      refine ⟨m1, r1.snoc ?_⟩
      rw [step]
      show (if m.rest.prime = true then some (m1, if m.rest.size = 0 then _ else _) else _) = _
      rw [hp, if_pos rfl, if_pos h0]
    · rw [if_neg h0, Go.bind_ok] at hres
      refine fin _ (.head ?_ .refl) hres
      rw [step]
      show (if m.rest.prime = true then some (m1, if m.rest.size = 0 then _ else _) else _) = _
      rw [hp, if_pos rfl, if_neg h0]
  | false =>
    rw [hp, if_neg (by decide), Go.bind_ok] at hres
    refine fin _ (.head ?_ .refl) hres
    rw [step]
    show (if m.rest.prime = true then some (m1, if m.rest.size = 0 then _ else _) else _) = _
    rw [hp, if_neg (by decide)]

theorem insertAll_snoc (e : Env ω κ) (k : κ) : ∀ (ks : List κ) (w w1 : ω) (ht ht1 : HT κ), insertAll e w ht ks = .ok (w1, ht1) →
    insertAll e w ht (ks ++ [k]) = HashTable.insert e w1 ht1 k := by
  intro ks
  induction ks with
  | nil =>
    intro w w1 ht ht1 h
    cases h
    show (HashTable.insert e w ht k >>= fun p => insertAll e p.1 p.2 []) = _
    cases HashTable.insert e w ht k <;> rfl
  | cons a ks ih =>
    intro w w1 ht ht1 h
    rw [insertAll] at h
    rw [List.cons_append, insertAll]
    cases hi : HashTable.insert e w ht a with
    | error f => rw [hi] at h; cases h
    | ok p =>
      obtain ⟨w2, ht2⟩ := p
      rw [hi, Go.bind_ok] at h
      rw [Go.bind_ok]
      exact ih w2 w1 ht2 ht1 h

/-- A step never leads back out of an ended call. -/
theorem step_end {H : κ → U64 → U64} {grow : Nat → Nat} {k : κ} {m : Mem κ} {pc : Pc} : step H grow k m pc = none ↔ pc = .done ∨ ∃ f, pc = .fail f := by
  constructor
  · intro h
    cases pc with
    | done => exact .inl rfl
    | fail f => exact .inr ⟨f, rfl⟩
    | inc c n => cases h
    | incw c v n => cases h
    | hash => rw [step] at h; split at h <;> cases h
    | look h' i c p => rw [step] at h; split at h; cases h; cases h; split at h <;> cases h
    | key h' i c p => rw [step] at h; split at h; cases h; split at h <;> cases h
    | rng h' i => rw [step] at h; split at h <;> cases h
    | scan h' i j n => rw [step] at h; split at h; split at h; cases h; split at h <;> cases h; cases h
    | app i f => rw [step] at h; split at h <;> cases h
    | put i hd f => rw [step] at h; split at h <;> cases h
    | longest i => rw [step] at h; split at h; cases h; split at h <;> cases h
    | setLongest i => rw [step] at h; split at h <;> cases h
  · rintro (rfl | ⟨f, rfl⟩) <;> rfl

/-- What holds at every moment of every schedule with a lock. -/
structure LInv (H : κ → U64 → U64) (grow : Nat → Nat) {n : Nat} (ks : Fin n → κ) (m : Mem κ) (c : Locked κ n) : Prop where
  nodup : c.order.Nodup
  iff : ∀ i, i ∈ c.order ↔ c.pcs i ≠ .waiting
  out : ∀ i, c.holder ≠ some i → c.pcs i = .waiting ∨ c.pcs i = .returned
  free : c.holder = none → Sound c.m ∧ WF c.m.view ∧ insertAll (pureEnv H (fun _ => true)) () m.view (c.order.map ks) = .ok ((), c.m.view)
  held : ∀ i, c.holder = some i → ∃ o m0 pc, c.order = o ++ [i] ∧ Sound m0 ∧ WF m0.view ∧
    insertAll (pureEnv H (fun _ => true)) () m.view (o.map ks) = .ok ((), m0.view) ∧ c.pcs i = .inside pc ∧ Reaches H grow (ks i) m0 .start c.m pc

theorem done_of {H : κ → U64 → U64} {grow : Nat → Nat} {k : κ} {m0 m : Mem κ} (hs : Sound m0) (wf : WF m0.view) (hr : Reaches H grow k m0 .start m .done) :
    HashTable.insert (pureEnv H (fun _ => true)) () m0.view k = .ok ((), m.view) ∧ Sound m ∧ WF m.view := by
  obtain ⟨a1, a2⟩ := alone H grow k m0 hs
  rcases insert_cases (e := pureEnv H (fun _ => true)) (w := ()) (k := k) wf rfl with ⟨_, _, he⟩ | ⟨_, w', ht', he, same⟩
  · obtain ⟨m', hm⟩ := a2 _ (by intro h; cases h) he
    have := hr.unique hm rfl rfl
    cases this.2
  · obtain ⟨m', hm, hv, hs'⟩ := a1 _ _ he
    obtain ⟨rfl, _⟩ := hr.unique hm rfl rfl
    rw [hv]
    exact ⟨he, hs', same.wf⟩

theorem fail_of {H : κ → U64 → U64} {grow : Nat → Nat} {k : κ} {m0 m : Mem κ} {f : Fault} (hs : Sound m0) (wf : WF m0.view) (hr : Reaches H grow k m0 .start m (.fail f)) :
    HashTable.insert (pureEnv H (fun _ => true)) () m0.view k = .error f := by
  obtain ⟨a1, a2⟩ := alone H grow k m0 hs
  rcases insert_cases (e := pureEnv H (fun _ => true)) (w := ()) (k := k) wf rfl with ⟨_, _, he⟩ | ⟨_, w', ht', he, same⟩
  · obtain ⟨m', hm⟩ := a2 _ (by intro h; cases h) he
    have := hr.unique hm rfl rfl
    cases this.2
    exact he
  · obtain ⟨m', hm, hv, hs'⟩ := a1 _ _ he
    have := hr.unique hm rfl rfl
    cases this.2

theorem linv_step {H : κ → U64 → U64} {grow : Nat → Nat} {n : Nat} {ks : Fin n → κ} {m : Mem κ} {c : Locked κ n} (inv : LInv H grow ks m c) (i : Fin n) :
    LInv H grow ks m (c.step H grow ks i) := by
  have hheld : ∀ pc, c.pcs i = .inside pc → c.holder = some i := by
    intro pc hpc
    by_cases hh : c.holder = some i
    · exact hh
    · rcases inv.out i hh with h | h <;> rw [h] at hpc <;> cases hpc
  cases hp : c.pcs i with
  | waiting =>
    unfold Locked.step
    rw [hp]
    dsimp only
    cases hh : c.holder with
    | some j => exact inv
    | none =>
      dsimp only
      have hni : i ∉ c.order := fun h => (inv.iff i).1 h hp
      obtain ⟨f1, f2, f3⟩ := inv.free hh
      refine ⟨?_, ?_, ?_, ?_, ?_⟩
      · rw [List.nodup_append]
        refine ⟨inv.nodup, by simp, ?_⟩
        intro a ha b hb
        simp at hb
        rintro rfl
        exact hni (hb ▸ ha)
      · intro j
        dsimp only
        rw [List.mem_append, List.mem_singleton]
        by_cases hj : j = i
        · rw [if_pos hj]; exact ⟨fun _ => (fun h => nomatch h), fun _ => .inr hj⟩
        · rw [if_neg hj, ← inv.iff j]; exact ⟨fun h => h.resolve_right hj, .inl⟩
      · intro j hj
        dsimp only at hj ⊢
        have : ¬ j = i := fun h => hj (by rw [h])
        rw [if_neg this]
        exact inv.out j (by rw [hh]; exact fun h => nomatch h)
      · intro h; cases h
      · intro j hj
        dsimp only at hj ⊢
        cases hj
        exact ⟨c.order, c.m, .start, rfl, f1, f2, f3, if_pos rfl, .refl⟩
  | returned =>
    unfold Locked.step
    rw [hp]
    exact inv
  | inside pc =>
    have hh := hheld pc hp
    obtain ⟨o, m0, pc', ho, hs, wf, hall, hpc, hr⟩ := inv.held i hh
    rw [hp] at hpc
    cases hpc
    have others : ∀ j, j ≠ i → c.pcs j = .waiting ∨ c.pcs j = .returned := fun j hj => inv.out j (by rw [hh]; exact fun h => hj (Option.some.inj h).symm)
    have hio : i ∈ c.order := (inv.iff i).2 (by rw [hp]; exact fun h => nomatch h)
    by_cases hd : pc = .done
    · subst hd
      unfold Locked.step
      rw [hp]
      dsimp only
      obtain ⟨d1, d2, d3⟩ := done_of hs wf hr
      refine ⟨inv.nodup, ?_, ?_, ?_, ?_⟩
      · intro j
        dsimp only
        by_cases hj : j = i
        · rw [if_pos hj, hj]; exact ⟨fun _ => (fun h => nomatch h), fun _ => hio⟩
        · rw [if_neg hj]; exact inv.iff j
      · intro j _
        dsimp only
        by_cases hj : j = i
        · rw [if_pos hj]; exact .inr rfl
        · rw [if_neg hj]; exact others j hj
      · intro _
        refine ⟨d2, d3, ?_⟩
        dsimp only
        rw [ho, List.map_append, List.map_singleton, insertAll_snoc _ _ _ _ _ _ _ hall]
        exact d1
      · intro j hj; cases hj
    · have hstep : (c.step H grow ks i) = (match step H grow (ks i) c.m pc with
            | none => c
            | some (m, pc) => { c with m := m, pcs := fun j => if j = i then .inside pc else c.pcs j }) := by
        unfold Locked.step
        rw [hp]
        cases pc <;> first | rfl | exact (hd rfl).elim
      rw [hstep]
      cases he : step H grow (ks i) c.m pc with
      | none => exact inv
      | some p =>
        obtain ⟨m', pc'⟩ := p
        dsimp only
        refine ⟨inv.nodup, ?_, ?_, ?_, ?_⟩
        · intro j
          dsimp only
          by_cases hj : j = i
          · rw [if_pos hj, hj]; exact ⟨fun _ => (fun h => nomatch h), fun _ => hio⟩
          · rw [if_neg hj]; exact inv.iff j
        · intro j hj'
          dsimp only at hj' ⊢
          have hj : j ≠ i := fun h => hj' (by rw [h]; exact hh)
          rw [if_neg hj]; exact others j hj
        · intro h; rw [hh] at h; cases h
        · intro j hj
          dsimp only at hj ⊢
          rw [hh] at hj
          cases hj
          exact ⟨o, m0, pc', ho, hs, wf, hall, if_pos rfl, hr.snoc he⟩

theorem linv_run {H : κ → U64 → U64} {grow : Nat → Nat} {n : Nat} {ks : Fin n → κ} {m : Mem κ} (hs : Sound m) (wf : WF m.view) (sched : List (Fin n)) :
    LInv H grow ks m ((locked n m).run H grow ks sched) := by
  unfold Locked.run
  have h0 : LInv H grow ks m (locked n m) :=
    ⟨by simp [locked], fun i => ⟨fun h => (nomatch h), fun h => (h rfl).elim⟩, fun i _ => .inl rfl, fun _ => ⟨hs, wf, rfl⟩, fun i h => (nomatch h)⟩
  generalize locked n m = c at h0
  induction sched generalizing c with
  | nil => exact h0
  | cons i s ih => exact ih _ (linv_step h0 i)

end Verif.Lemmas.HtConc
