import Verif.Spec.RunSM
import Verif.Props.Smhasher
import Mathlib.Data.List.Forall2

namespace Verif.Lemmas.RunSM
open Verif Verif.Model.Smhasher Verif.Model.RunSM Verif.Spec.Smhasher Verif.Spec.RunSM Verif.Lemmas.Smhasher

/-- The hash never panics; the `n`th call (from 0) returns `sem n key seed`; `A w n` says that `w` is a state after `n` calls. -/
structure Sem {ω : Type} (hf : Hash ω) (A : ω → Nat → Prop) (sem : Nat → List U8 → U64 → U64) : Prop where
  step : ∀ w n k s, A w n → ∃ w', hf w k s = .ok (w', sem n k s) ∧ A w' (n + 1)

/-- The results of a sequence of calls starting with the `n`th. -/
def hashes (sem : Nat → List U8 → U64 → U64) : Nat → List (List U8 × U64) → List U64
  | _, [] => []
  | n, c :: cs => sem n c.1 c.2 :: hashes sem (n + 1) cs

theorem hashes_length (sem : Nat → List U8 → U64 → U64) (n : Nat) (cs : List (List U8 × U64)) : (hashes sem n cs).length = cs.length := by
  induction cs generalizing n with
  | nil => rfl
  | cons c cs ih => simp [hashes, ih]

/-- The verdict on a list of hashes. -/
def verdict (hs : List U64) : Out := if hs.Nodup then ⟨false, []⟩ else ⟨true, [.collisions (hs.length - hs.toFinset.card)]⟩

theorem check_verdict (hs : List U64) (hn : hs.length ≤ 2 * 10 ^ 8) : check (HashSet.new.addAll hs) = verdict hs := by
  unfold check verdict
  have h := check_iff hs hn
  by_cases hd : hs.Nodup
  · rw [if_pos hd, if_neg (by rw [h]; exact fun x => x hd)]
  · rw [if_neg hd, if_pos (h.2 hd), addAll_card, addAll_n]
    simp [HashSet.new]

/-- The outcomes of checking sets one after the other. -/
def verdicts (sem : Nat → List U8 → U64 → U64) : Nat → List (List (List U8 × U64)) → Out
  | _, [] => ⟨false, []⟩
  | n, s :: ss => (verdict (hashes sem n s)).append (verdicts sem (n + s.length) ss)

def total (ss : List (List (List U8 × U64))) : Nat := (ss.map List.length).sum

section
variable {ω : Type} {hf : Hash ω} {A : ω → Nat → Prop} {sem : Nat → List U8 → U64 → U64} (hS : Sem hf A sem)
include hS

theorem addEach_ok {α : Type} (hash : ω → α → Go (ω × U64)) (enc : α → List U8 × U64) (he : ∀ w a, hash w a = hf w (enc a).1 (enc a).2)
    (ks : List α) (s : HashSet) (w : ω) (n : Nat) (hA : A w n) :
    ∃ w', addEach hash w s ks = .ok (w', s.addAll (hashes sem n (ks.map enc))) ∧ A w' (n + ks.length) := by
  induction ks generalizing s w n with
  | nil => exact ⟨w, rfl, hA⟩
  | cons k ks ih =>
    obtain ⟨w1, h1, h2⟩ := hS.step w n (enc k).1 (enc k).2 hA
    obtain ⟨w2, h3, h4⟩ := ih (s.add (sem n (enc k).1 (enc k).2)) w1 (n + 1) h2
    refine ⟨w2, ?_, by rw [List.length_cons, show n + (ks.length + 1) = n + 1 + ks.length by omega]; exact h4⟩
    rw [addEach, he, h1, Go.bind_ok]
    exact h3

theorem checkSet_ok {α : Type} (hash : ω → α → Go (ω × U64)) (enc : α → List U8 × U64) (he : ∀ w a, hash w a = hf w (enc a).1 (enc a).2)
    (ks : List α) (hl : ks.length ≤ 2 * 10 ^ 8) (w : ω) (n : Nat) (hA : A w n) :
    ∃ w', checkSet hash w ks = .ok (w', verdict (hashes sem n (ks.map enc))) ∧ A w' (n + ks.length) := by
  obtain ⟨w', h1, h2⟩ := addEach_ok hS hash enc he ks HashSet.new w n hA
  refine ⟨w', ?_, h2⟩
  rw [checkSet, h1, Go.bind_ok]
  dsimp only
  rw [check_verdict _ (by rw [hashes_length, List.length_map]; exact hl), Go.pure_ok]

theorem checkSets_ok {α : Type} (hash : ω → α → Go (ω × U64)) (enc : α → List U8 × U64) (he : ∀ w a, hash w a = hf w (enc a).1 (enc a).2)
    (ss : List (List α)) (hl : ∀ ks ∈ ss, ks.length ≤ 2 * 10 ^ 8) (w : ω) (n : Nat) (hA : A w n) :
    ∃ w', checkSets hash w ss = .ok (w', verdicts sem n (ss.map fun ks => ks.map enc)) ∧ A w' (n + total (ss.map fun ks => ks.map enc)) := by
  induction ss generalizing w n with
  | nil => exact ⟨w, rfl, hA⟩
  | cons ks ss ih =>
    obtain ⟨w1, h1, h2⟩ := checkSet_ok hS hash enc he ks (hl ks (by simp)) w n hA
    obtain ⟨w2, h3, h4⟩ := ih (fun x hx => hl x (by simp [hx])) w1 (n + ks.length) h2
    refine ⟨w2, ?_, ?_⟩
    · rw [checkSets, h1, Go.bind_ok]
      dsimp only
      rw [h3, Go.bind_ok]
      simp only [List.map_cons, verdicts, List.length_map]
      rfl
    · simp only [total, List.map_cons, List.sum_cons, List.length_map] at h4 ⊢
      rw [← Nat.add_assoc]; exact h4

end

theorem keyHash_eq {ω : Type} (hf : Hash ω) (w : ω) (k : Key) : keyHash hf w k = hf w (keyBytes k) 0 := by
  cases k with
  | bytes b => rfl
  | int32 i =>
    unfold keyHash keyBytes
    dsimp only
    rw [show (0xFF : U32) = BitVec.ofNat 32 0xFF from rfl, mask_byte0 _ (by omega), mask_byte _ _ (by omega), mask_byte _ _ (by omega), mask_byte _ _ (by omega),
      leBytes_tab]
    rfl
  | int64 i =>
    unfold keyHash keyBytes
    dsimp only
    rw [show (0xFF : U64) = BitVec.ofNat 64 0xFF from rfl, mask_byte0 _ (by omega), mask_byte _ _ (by omega), mask_byte _ _ (by omega), mask_byte _ _ (by omega),
      mask_byte _ _ (by omega), mask_byte _ _ (by omega), mask_byte _ _ (by omega), mask_byte _ _ (by omega), leBytes_tab]
    rfl

theorem StringHash_eq {ω : Type} (hf : Hash ω) (w : ω) (s : List U8) (seed : U64) : Model.RunSM.StringHash hf w s seed = hf w s seed := by
  unfold Model.RunSM.StringHash
  simp

/-- The sequences of calls of a test match its specification. -/
def Match (S : KeySet) (cs : List (List U8 × U64)) : Prop := cs.Nodup ∧ (∀ k s, (k, s) ∈ cs ↔ S.mem k s) ∧ cs.length = S.size

/-- Calls with seed 0. -/
def zero (ks : List (List U8)) : List (List U8 × U64) := ks.map fun k => (k, 0#64)

theorem match_keys {p : List U8 → Prop} {size : Nat} {ks : List (List U8)} (h1 : ks.Nodup) (h2 : ∀ x, x ∈ ks ↔ p x) (h3 : ks.length = size) :
    Match (keys p size) (zero ks) := by
  refine ⟨?_, ?_, ?_⟩
  · exact h1.map fun a b h => (Prod.mk.inj h).1
  · intro k s
    unfold zero keys
    simp only [List.mem_map, Prod.mk.injEq]
    constructor
    · rintro ⟨a, ha, rfl, rfl⟩; exact ⟨rfl, (h2 _).1 ha⟩
    · rintro ⟨rfl, h⟩; exact ⟨k, (h2 _).2 h, rfl, rfl⟩
  · unfold zero; rw [List.length_map]; exact h3

theorem total_match {Ss : List KeySet} {ss : List (List (List U8 × U64))} (h : List.Forall₂ Match Ss ss) : total ss = (Ss.map KeySet.size).sum := by
  induction h with
  | nil => rfl
  | cons h _ ih =>
    simp only [total, List.map_cons, List.sum_cons] at ih ⊢
    rw [ih, h.2.2]

end Verif.Lemmas.RunSM
