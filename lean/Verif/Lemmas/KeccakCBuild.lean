import Verif.Model.KeccakCConfig
import Verif.Lemmas.KeccakCBlock

/-! The rounds of the C code in every build setting. -/

namespace Verif.Lemmas.KeccakC
open Verif Verif.Model.KeccakC
open Verif.Spec.Keccak (State keccakf xorInto bytes)
open Verif.Lemmas.Keccak (lanes)

/-- A round on a list of 25 lanes. -/
def listRound (l : List U64) (rc : U64) : List U64 :=
  (Model.Keccak.chi (Model.Keccak.rhoPi (Model.Keccak.theta l))).set 0 (Model.Keccak.at_ (Model.Keccak.chi (Model.Keccak.rhoPi (Model.Keccak.theta l))) 0 ^^^ rc)

theorem listRound_spec {l : List U64} (hl : l.length = 25) {r : Nat} (hr : r < 24) : lanes (listRound l (roundConstants.getD r 0#64)) = Spec.Keccak.round (lanes l) r := by
  obtain ⟨S', h1, h2, -⟩ := Lemmas.Keccak.round_eq hl hr
  rw [← h2]
  unfold Model.Keccak.round at h1
  have hrc : roundConstants.getD r 0#64 = Spec.Keccak.RC r := by
    have h := Lemmas.Keccak.RC_eq r hr
    have he : roundConstants = Model.Keccak.roundConstants := by decide
    rw [he, List.getD_eq_getElem?_getD, h, Option.getD_some]
  rw [Go.idx, Lemmas.Keccak.RC_eq r hr] at h1
  dsimp only at h1
  rw [Go.bind_ok, Go.pure_ok] at h1
  have h1 := Except.ok.inj h1
  rw [← h1, hrc, listRound]

/-- What the proof needs of a macros file. -/
structure Good {L C : Type} (M : Macros L C) where
  view : L → List U64
  sums : L → C → Prop
  view_length : ∀ A, (view A).length = 25
  constants : M.constants = roundConstants
  round : ∀ rc A C, sums A C → view (M.round rc A C).2.1 = listRound (view A) rc ∧ sums (M.round rc A C).2.1 (M.round rc A C).2.2
  last : ∀ rc A C, sums A C → view (M.last rc A C).2.1 = listRound (view A) rc
  copy : ∀ X Y, M.copy X Y = Y

/-- Where the state is (`A`?), how many rounds are done, whether the column sums are ready. -/
def follow (p : Option (Bool × Nat × Bool)) (s : Step) : Option (Bool × Nat × Bool) :=
  match p, s with
  | some (a, r, true), .round i f => if i = r ∧ f = a ∧ r < 24 then some (!a, r + 1, true) else none
  | some (a, r, true), .last i f => if i = r ∧ f = a ∧ r < 24 then some (!a, r + 1, false) else none
  | some (false, r, s), .copy => some (true, r, s)
  | _, _ => none

theorem follow_none (l : List Step) : l.foldl follow none = none := by
  induction l with
  | nil => rfl
  | cons s l ih => rw [List.foldl_cons]; exact ih

theorem program_follows (u : Unrolling) : ∃ s, (program u).foldl follow (some (true, 0, true)) = some (true, 24, s) := by
  cases u
  · exact ⟨false, by decide⟩
  all_goals exact ⟨true, by decide⟩

def Now {L C : Type} {M : Macros L C} (G : Good M) (S : State) (r : Regs L C) (p : Bool × Nat × Bool) : Prop :=
  lanes (G.view (if p.1 then r.A else r.E)) = keccakf p.2.1 S ∧ (p.2.2 = true → G.sums (if p.1 then r.A else r.E) r.C)

theorem keccakf_succ (r : Nat) (S : State) : keccakf (r + 1) S = Spec.Keccak.round (keccakf r S) r := by
  unfold keccakf
  rw [List.range_succ, List.foldl_append]
  rfl

theorem now_step {L C : Type} {M : Macros L C} (G : Good M) (S : State) (r : Regs L C) (p q : Bool × Nat × Bool) (s : Step) (h : Now G S r p) (hq : follow (some p) s = some q) :
    Now G S (M.step r s) q := by
  obtain ⟨a, n, t⟩ := p
  obtain ⟨h1, h2⟩ := h
  dsimp only at h1 h2
  match s, t, a with
  | .round i f, true, a =>
    simp only [follow] at hq
    split at hq
    · rename_i hc
      obtain ⟨rfl, rfl, hr⟩ := hc
      obtain rfl := Option.some.inj hq
      have hg := G.round (roundConstants.getD i 0#64) _ _ (h2 rfl)
      have hv := listRound_spec (G.view_length (if f = true then r.A else r.E)) hr
      rw [h1, ← keccakf_succ, ← hg.1] at hv
      rw [← G.constants] at hg hv
      cases f
      · exact ⟨hv, fun _ => hg.2⟩
      · exact ⟨hv, fun _ => hg.2⟩
    · cases hq
  | .last i f, true, a =>
    simp only [follow] at hq
    split at hq
    · rename_i hc
      obtain ⟨rfl, rfl, hr⟩ := hc
      obtain rfl := Option.some.inj hq
      have hg := G.last (roundConstants.getD i 0#64) _ _ (h2 rfl)
      have hv := listRound_spec (G.view_length (if f = true then r.A else r.E)) hr
      rw [h1, ← keccakf_succ, ← hg] at hv
      rw [← G.constants] at hv
      cases f
      · exact ⟨hv, fun h => nomatch h⟩
      · exact ⟨hv, fun h => nomatch h⟩
    · cases hq
  | .copy, t, false =>
    simp only [follow] at hq
    obtain rfl := Option.some.inj hq
    have : (M.step r .copy) = { r with A := r.E } := by rw [Macros.step, G.copy]
    rw [this]
    exact ⟨h1, h2⟩
  | .round i f, false, a => simp [follow] at hq
  | .last i f, false, a => simp [follow] at hq
  | .copy, t, true => cases t <;> simp [follow] at hq

theorem now_run {L C : Type} {M : Macros L C} (G : Good M) (S : State) (l : List Step) : ∀ (r : Regs L C) (p q : Bool × Nat × Bool), Now G S r p →
    l.foldl follow (some p) = some q → Now G S (l.foldl M.step r) q := by
  induction l with
  | nil => intro r p q h hq; obtain rfl := Option.some.inj hq; exact h
  | cons s l ih =>
    intro r p q h hq
    rw [List.foldl_cons] at hq ⊢
    match hs : follow (some p) s with
    | none => rw [hs, follow_none] at hq; cases hq
    | some p' => rw [hs] at hq; exact ih _ p' q (now_step G S r p p' s h hs) hq

theorem rounds_good {L C : Type} {M : Macros L C} (G : Good M) (u : Unrolling) (junk : L) (q : L × C) (h : G.sums q.1 q.2) :
    ∃ X, M.rounds u junk q = M.store X ∧ lanes (G.view X) = keccakf 24 (lanes (G.view q.1)) := by
  obtain ⟨s, hs⟩ := program_follows u
  have := now_run G (lanes (G.view q.1)) (program u) ⟨q.1, junk, q.2⟩ (true, 0, true) _ ⟨rfl, fun _ => h⟩ hs
  exact ⟨_, rfl, this.1⟩

end Verif.Lemmas.KeccakC
