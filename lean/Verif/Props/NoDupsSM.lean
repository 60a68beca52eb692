import Verif.Props.NoDups
import Verif.Props.RunSM

/-!
# C117: what the SMHasher tests cannot report of `murmur332`
-/

namespace Verif.Props
open Verif Verif.Spec.RunSM Verif.Spec.Smhasher
open Verif.Model.Smhasher (TestFn)
open Verif.Spec.Hashf (Ok outcome names counters)
open Verif.Model.Hashf (Ext State Hashf)
open Verif.Model.RunSM (RunSMhasher)
open Verif.Model.Murmur3 (Sum32)

open scoped Classical in
/-- One report for each set with a collision. -/
theorem reports_eq (H : List U8 → U64 → U64) (r : Nat → U32) (t : TestFn) (o : Model.RunSM.Out) (ho : Judged H r t o) :
    o.events.length = (sets r t).countP fun S => decide (Collide H S) := by
  obtain ⟨found, h1, h2, h3⟩ := ho
  rw [h2]
  clear h2 h3
  generalize sets r t = ss at h1
  induction h1 with
  | nil => rfl
  | @cons S x ss xs hx _ ih =>
    rw [List.countP_cons]
    cases x with
    | none =>
      rw [List.filterMap_cons_none rfl, ih, if_neg (by simpa using fun h => hx.1.2 h rfl)]
      rfl
    | some g =>
      rw [show (some g :: xs).filterMap (Option.map Model.RunSM.Event.collisions) = .collisions g :: xs.filterMap (Option.map Model.RunSM.Event.collisions) from rfl, List.length_cons, ih, if_pos (by simpa using hx.1.1 (fun h => nomatch h))]

theorem reports_le (H : List U8 → U64 → U64) (r : Nat → U32) (t : TestFn) (o : Model.RunSM.Out) (ho : Judged H r t o) (front back good : List KeySet)
    (hs : sets r t = front ++ good ++ back) (hg : ∀ S ∈ good, ¬ Collide H S) : o.events.length ≤ front.length + back.length := by
  classical
  rw [reports_eq H r t o ho, hs, List.countP_append, List.countP_append, List.countP_eq_zero.2 (show ∀ S ∈ good, _ from fun S hS => by simpa using hg S hS)]
  have := List.countP_le_length (l := front) (p := fun S => decide (Collide H S))
  have := List.countP_le_length (l := back) (p := fun S => decide (Collide H S))
  omega

/-- C117. A run of RunSMhasher under `murmur332` cannot report the sparse keys of 32 bits, any of the 32 windows of 32-bit keys, nor the text keys
that start with the four varying letters: there are at most 7, 1088 and 2 reports of these three tests. -/
theorem C117_smhasher (e : Ext) (he : Ok e) (s : State) (hs : Reach e s) (arg : String) (v : Bool) (r : Nat → U32) :
    ∃ s' os, RunSMhasher (Hashf e) r arg v { s with Hf2 := "murmur332" } = .ok (s', os) ∧ os.map (·.1) = order ∧
      ∀ x ∈ os, (x.1 = .Sparse → x.2.events.length ≤ 7) ∧ (x.1 = .Windowed → x.2.events.length ≤ 1088) ∧ (x.1 = .Text → x.2.events.length ≤ 2) := by
  obtain ⟨H, hH, s', os, h1, _, h2, h3⟩ := (C109_hashf e he s hs "murmur332" arg v r).2.2.2 (by decide) (by decide) (by decide)
  have hout : ∀ k, ∃ h, Sum32 k = .ok h ∧ H k 0 = Spec.Hashf.wide h := by
    intro k
    obtain ⟨h, a, b⟩ := outcome_murmur332 e he k 0
    refine ⟨h, a, ?_⟩
    unfold outcome at b
    rw [if_neg (by decide), hH] at b
    exact Except.ok.inj b
  have hinj : ∀ k k', H k 0 = H k' 0 → Sum32 k = Sum32 k' := by
    intro k k' h
    obtain ⟨a, h4, h5⟩ := hout k
    obtain ⟨b, h6, h7⟩ := hout k'
    rw [h5, h7] at h
    rw [h4, h6, wide_inj h]
  have hshort : ∀ p n, (∀ k, p k → k.length = 4) → ¬ Collide H (keys p n) := by
    rintro p n hp ⟨k, s, k', s', ⟨rfl, hk⟩, ⟨rfl, hk'⟩, hne, h⟩
    exact hne (by rw [C25_injective32 k k' ((hp k hk).trans (hp k' hk').symm) (by rw [hp k hk]) (hinj k k' h)])
  refine ⟨s', os, h1, h2, fun x hx => ⟨fun ht => ?_, fun ht => ?_, fun ht => ?_⟩⟩
  · have hj := h3 x hx
    rw [ht] at hj
    refine reports_le H r .Sparse x.2 hj [] _ [_] rfl fun S hS => ?_
    rw [List.mem_singleton.1 hS]
    exact hshort _ _ fun k hk => by have := hk.1; omega
  · have hj := h3 x hx
    rw [ht] at hj
    have hsplit : sets r .Windowed = [] ++ ((List.range 32).map fun i => keys (fun k => 8 * k.length = 32 ∧ ∀ p, bit k p = true → inWindow 32 i p) (2 ^ 16)) ++
        ((List.range 64).map fun i => keys (fun k => 8 * k.length = 64 ∧ ∀ p, bit k p = true → inWindow 64 i p) (2 ^ 16)) ++
        ((List.range 1024).map fun i => keys (fun k => 8 * k.length = 1024 ∧ ∀ p, bit k p = true → inWindow 1024 i p) (2 ^ 16)) := by
      simp only [sets, List.flatMap_cons, List.flatMap_nil, List.append_nil, List.nil_append, List.append_assoc]
    refine (reports_le H r .Windowed x.2 hj [] _ _ ((hsplit).trans (List.append_assoc _ _ _)) fun S hS => ?_).trans ?_
    · obtain ⟨i, _, rfl⟩ := List.mem_map.1 hS
      exact hshort _ _ fun k hk => by have := hk.1; omega
    · rw [List.length_append, List.length_map, List.length_map, List.length_range, List.length_range]
      decide
  · have hj := h3 x hx
    rw [ht] at hj
    refine reports_le H r .Text x.2 hj [_, _] [] [_] rfl fun S hS => ?_
    rw [List.mem_singleton.1 hS]
    rintro ⟨k, s, k', s', ⟨rfl, w, hw, _, rfl⟩, ⟨rfl, w', hw', _, rfl⟩, hne, h⟩
    apply hne
    rw [C25_one_block32 (ascii "") w w' (ascii "FooBar") rfl (hw.trans hw'.symm) (.inl hw) (hinj _ _ h)]

/-- The hypotheses hold at the start of the program; and the sets in question have many keys. -/
example (r : Nat → U32) : Ok exampleExt ∧ Reach exampleExt Model.Hashf.init ∧ order.count .Sparse = 1 ∧ (sets r .Sparse).length = 8 ∧ (sets r .Text).length = 3 :=
  ⟨exampleExt_ok, .start, rfl, rfl, rfl⟩

end Verif.Props
