import Verif.Lemmas.HtConc5
import Mathlib.Data.Finset.Card
import Mathlib.Data.Fintype.Basic

/-! Lemmas on the small-step `Insert`: the counter `Inserts` without a lock. -/

namespace Verif.Lemmas.HtConc
open Verif Verif.HashTable Verif.Model.HtConc Verif.Spec.HtConc

variable {κ : Type}

/-- The call has counted itself. -/
def counted : Pc → Bool
  | .inc c n => c ≠ .inserts && counted n
  | .incw c _ n => c ≠ .inserts && counted n
  | _ => true

theorem step_counted {H : κ → U64 → U64} {grow : Nat → Nat} {k : κ} {m m' : Mem κ} {pc pc' : Pc} (hc : counted pc = true) (hs : step H grow k m pc = some (m', pc')) :
    counted pc' = true ∧ m'.rest.inserts = m.rest.inserts := by
  have hadv : ∀ s h idx cnt pass, counted (advance s h idx cnt pass) = true := by
    intro s h idx cnt pass
    unfold advance
    split
    · split <;> rfl
    · rfl
  cases pc with
  | inc c n =>
    cases hs
    exact ⟨hc, rfl⟩
  | incw c v n =>
    cases hs
    simp only [counted, Bool.and_eq_true, decide_eq_true_eq] at hc
    refine ⟨hc.2, ?_⟩
    cases c <;> first | rfl | exact (hc.1 rfl).elim
  | hash =>
    rw [step] at hs
    split at hs
    · cases hs; refine ⟨?_, rfl⟩; split <;> rfl
    · cases hs; exact ⟨rfl, rfl⟩
  | look h i c p =>
    rw [step] at hs
    split at hs
    · cases hs; exact ⟨rfl, rfl⟩
    · cases hs; exact ⟨rfl, rfl⟩
    · split at hs
      · cases hs; refine ⟨?_, rfl⟩; split <;> rfl
      · cases hs; exact ⟨rfl, rfl⟩
  | key h i c p =>
    rw [step] at hs
    split at hs
    · cases hs; exact ⟨rfl, rfl⟩
    · split at hs
      · cases hs; exact ⟨by simp [counted, hadv], rfl⟩
      · cases hs; exact ⟨hadv _ _ _ _ _, rfl⟩
  | rng h i => rw [step] at hs; split at hs <;> (cases hs; exact ⟨rfl, rfl⟩)
  | scan h i j n =>
    rw [step] at hs
    split at hs
    · split at hs
      · cases hs; exact ⟨rfl, rfl⟩
      · split at hs <;> (cases hs; exact ⟨rfl, rfl⟩)
    · cases hs; exact ⟨rfl, rfl⟩
  | app i f =>
    rw [step] at hs
    split at hs
    · cases hs; exact ⟨rfl, rfl⟩
    · next hd _ =>
      have := (append_rest grow m hd k).1
      dsimp only at hs
      cases hs
      exact ⟨rfl, by rw [this]⟩
  | put i hd f =>
    rw [step] at hs
    split at hs
    · cases hs; refine ⟨?_, rfl⟩; split <;> rfl
    · cases hs; exact ⟨rfl, rfl⟩
  | longest i =>
    rw [step] at hs
    split at hs
    · cases hs; exact ⟨rfl, rfl⟩
    · split at hs <;> (cases hs; exact ⟨rfl, rfl⟩)
  | setLongest i =>
    rw [step] at hs
    split at hs <;> (cases hs; exact ⟨rfl, rfl⟩)
  | done => cases hs
  | fail f => cases hs

/-- How many calls have counted themselves. -/
def entered {n : Nat} (pcs : Fin n → Pc) : Nat := (Finset.univ.filter fun g => counted (pcs g) = true).card

structure CInv {n : Nat} (I : Nat) (c : Conc κ n) : Prop where
  lo : I ≤ c.m.rest.inserts
  hi : c.m.rest.inserts ≤ I + entered c.pcs
  shape : ∀ g, c.pcs g = .start ∨ (∃ v, c.pcs g = .incw .inserts v .hash ∧ I ≤ v ∧ v ≤ I + entered c.pcs) ∨ counted (c.pcs g) = true
  one : ∀ g, counted (c.pcs g) = true → I + 1 ≤ c.m.rest.inserts

theorem cinv_step {H : κ → U64 → U64} {grow : Nat → Nat} {n : Nat} {ks : Fin n → κ} {I : Nat} {c : Conc κ n} (inv : CInv I c) (g : Fin n) : CInv I (c.step H grow ks g) := by
  have mono : ∀ (pc : Pc), (counted (c.pcs g) = true → counted pc = true) → entered c.pcs ≤ entered (fun j => if j = g then pc else c.pcs j) := by
    intro pc h
    apply Finset.card_le_card
    intro j hj
    rw [Finset.mem_filter] at hj ⊢
    refine ⟨Finset.mem_univ _, ?_⟩
    dsimp only
    split
    · next e => subst e; exact h hj.2
    · exact hj.2
  cases hst : step H grow (ks g) c.m (c.pcs g) with
  | none =>
    have : c.step H grow ks g = c := by unfold Conc.step; rw [hst]
    rw [this]; exact inv
  | some p =>
    obtain ⟨m', pc'⟩ := p
    have he : c.step H grow ks g = ⟨m', fun j => if j = g then pc' else c.pcs j⟩ := by unfold Conc.step; rw [hst]
    rw [he]
    rcases inv.shape g with hp | ⟨v, hp, hv1, hv2⟩ | hp
    · -- reads the counter
      rw [hp] at hst
      have hst : some (c.m, Pc.incw .inserts c.m.rest.inserts .hash) = some (m', pc') := hst
      cases hst
      have hm := mono (.incw .inserts c.m.rest.inserts .hash) (by rw [hp]; intro h; cases h)
      refine ⟨inv.lo, by have := inv.hi; dsimp only; omega, ?_, ?_⟩
      · intro j
        dsimp only
        split
        · exact .inr (.inl ⟨_, rfl, inv.lo, by have := inv.hi; omega⟩)
        · rcases inv.shape j with h | ⟨w, h, h1, h2⟩ | h
          · exact .inl h
          · exact .inr (.inl ⟨w, h, h1, by omega⟩)
          · exact .inr (.inr h)
      · intro j
        dsimp only
        split
        · intro h; cases h
        · exact inv.one j
    · -- writes it
      rw [hp] at hst
      have hst : some ({ c.m with rest := { c.m.rest with inserts := v + 1 } }, Pc.hash) = some (m', pc') := hst
      cases hst
      have hm : entered c.pcs + 1 ≤ entered (fun j => if j = g then .hash else c.pcs j) := by
        unfold entered
        rw [← Finset.card_insert_of_notMem (s := Finset.univ.filter fun g => counted (c.pcs g) = true) (a := g) (by
          rw [Finset.mem_filter]; rintro ⟨_, h⟩; rw [hp] at h; cases h)]
        apply Finset.card_le_card
        intro j hj
        rw [Finset.mem_insert, Finset.mem_filter] at hj
        rw [Finset.mem_filter]
        refine ⟨Finset.mem_univ _, ?_⟩
        dsimp only
        split
        · rfl
        · next h => exact (hj.resolve_left h).2
      refine ⟨by dsimp only; omega, by dsimp only; omega, ?_, ?_⟩
      · intro j
        dsimp only
        split
        · exact .inr (.inr rfl)
        · rcases inv.shape j with h | ⟨w, h, h1, h2⟩ | h
          · exact .inl h
          · exact .inr (.inl ⟨w, h, h1, by omega⟩)
          · exact .inr (.inr h)
      · intro j _
        dsimp only
        omega
    · obtain ⟨h1, h2⟩ := step_counted hp hst
      have hm := mono pc' (fun _ => h1)
      refine ⟨by dsimp only; rw [h2]; exact inv.lo, by dsimp only; rw [h2]; have := inv.hi; omega, ?_, ?_⟩
      · intro j
        dsimp only
        split
        · exact .inr (.inr h1)
        · rcases inv.shape j with h | ⟨w, h, h1, h2⟩ | h
          · exact .inl h
          · exact .inr (.inl ⟨w, h, h1, by omega⟩)
          · exact .inr (.inr h)
      · intro j _
        dsimp only
        rw [h2]
        exact inv.one g hp

theorem cinv {H : κ → U64 → U64} {grow : Nat → Nat} {n : Nat} {ks : Fin n → κ} (m0 : Mem κ) (sched : List (Fin n)) :
    CInv m0.rest.inserts ((unlocked n m0).run H grow ks sched) := by
  unfold Conc.run
  have h0 : CInv m0.rest.inserts (unlocked n m0) := ⟨Nat.le_refl _, Nat.le_add_right _ _, fun _ => .inl rfl, fun _ h => (by cases h)⟩
  generalize unlocked n m0 = c at h0
  generalize m0.rest.inserts = I at h0
  induction sched generalizing c with
  | nil => exact h0
  | cons i s ih => exact ih _ (cinv_step h0 i)

end Verif.Lemmas.HtConc
