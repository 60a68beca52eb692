import Verif.Lemmas.SmCalls

/-!
# C120: the keys of the tests that draw random ones

The hash function is one that always returns: it takes the state `w` of the program to another one. The results quantify over all `step`, so
they determine the calls that are made, with the keys and in the order given by `Spec.SmCalls`: take for `w` the list of the calls so far.
-/

namespace Verif.Props
open Verif Verif.Model.Smhasher Verif.Model.RunSM Verif.Spec.SmCalls

/-- C120. The avalanche test makes exactly the calls of the specification, in this order, and reports nothing. -/
theorem C120_avalanche {ω : Type} (step : ω → List U8 → U64 → ω × U64) (r : Nat → U32) (w : ω) :
    runTest (fun w k s => .ok (step w k s)) r .Avalanche w = .ok (after step w (avalancheCalls r), ⟨false, []⟩) :=
  Lemmas.SmCalls.avalanche_ok step r w

/-- C120. The sanity test makes exactly the calls of the specification, in this order. It reports a dependency for each comparison (calls `2 j` and `2 j + 1`)
with different answers, and returns whether it reported. -/
theorem C120_sanity {ω : Type} (step : ω → List U8 → U64 → ω × U64) (r : Nat → U32) (w : ω) :
    ∃ o : Out, runTest (fun w k s => .ok (step w k s)) r .Sanity w = .ok (after step w (sanityCalls r), o) ∧
      o.events = List.replicate ((List.range 20480).countP fun j =>
        (answers step w (sanityCalls r))[2 * j]? ≠ (answers step w (sanityCalls r))[2 * j + 1]?) .depends ∧
      (o.ret = true ↔ o.events ≠ []) := by
  have e : sanityCalls r = Lemmas.SmCalls.firstCalls r 20480 := by
    unfold sanityCalls Lemmas.SmCalls.firstCalls
    rw [show 10 * 128 * 16 = 20480 by norm_num]
  rw [e]
  obtain ⟨h1, h2, h3⟩ := Lemmas.SmCalls.sane_spec step r w 20480
  have h := Lemmas.SmCalls.sanity_ok step r w
  rw [h1] at h
  exact ⟨_, h, h2, h3⟩

/-- A hash function that records its keys: after the two tests the record is the two lists of calls. Under "no bit of a key matters" (hash 7 for all) nothing is reported. -/
theorem C120_recorded (r : Nat → U32) : ∃ o : Out,
    runTest (fun (w : List (List U8)) k _ => .ok (w ++ [k], 7)) r .Avalanche [] = .ok (avalancheCalls r, ⟨false, []⟩) ∧
    runTest (fun (w : List (List U8)) k _ => .ok (w ++ [k], 7)) r .Sanity [] = .ok (sanityCalls r, o) := by
  have h : ∀ (l w : List (List U8)), after (fun (w : List (List U8)) k _ => (w ++ [k], (7 : U64))) w l = w ++ l := by
    intro l
    induction l with
    | nil => intro w; rw [List.append_nil]; rfl
    | cons k ks ih => intro w; exact (ih (w ++ [k])).trans (List.append_assoc _ _ _)
  have h1 := C120_avalanche (fun (w : List (List U8)) k _ => (w ++ [k], (7 : U64))) r []
  obtain ⟨o, h2, _, _⟩ := C120_sanity (fun (w : List (List U8)) k _ => (w ++ [k], (7 : U64))) r []
  rw [h, List.nil_append] at h1 h2
  exact ⟨o, h1, h2⟩

/-- A counter, which is not a function of its key, is reported in every comparison. -/
example (r : Nat → U32) : ∃ (w' : U64) (o : Out), runTest (fun (w : U64) _ _ => .ok (w + 1, w)) r .Sanity 0 = .ok (w', o) ∧
    o.events = List.replicate ((List.range 20480).countP fun j => (answers (fun (w : U64) _ _ => (w + 1, w)) 0 (sanityCalls r))[2 * j]? ≠
      (answers (fun (w : U64) _ _ => (w + 1, w)) 0 (sanityCalls r))[2 * j + 1]?) .depends := by
  obtain ⟨o, h, h', _⟩ := C120_sanity (fun (w : U64) _ _ => (w + 1, w)) r 0
  exact ⟨_, o, h, h'⟩

/-- With the numbers 0, 1, 2, ..: comparison 33 (length 2, offset 1) has the key of bytes 352 * 33 + 16 and the next; a round for a key of one byte. -/
example : sanityKey (BitVec.ofNat 32) 33 = [112#8, 113#8] ∧ (avalancheKeys (BitVec.ofNat 32)).map (fun k => (k 3).length) = [2, 4, 8, 16, 32, 200, 4, 8] ∧
    roundCalls [5#8] = [[5], [4], [7], [1], [13], [21], [37], [69], [133]] := by
  decide +kernel

end Verif.Props
