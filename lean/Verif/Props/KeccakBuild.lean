import Verif.Lemmas.KeccakCBuild3
import Verif.Lemmas.KeccakCSponge

/-!
# C122: the Keccak permutation in C, however it is built

The interface KeccakF-1600-interface.h, with any of the eight unrollings, with or without complemented lanes, on a little- or big-endian machine, with the
64-bit and with the 128-bit registers of SSE: every sequence of calls gives the same bytes, those of the specification in `Spec/KeccakBuild.lean`.
-/

namespace Verif.Props
open Verif Verif.Model.KeccakC Verif.Spec.KeccakBuild
open Verif.Lemmas.KeccakC
open Verif.Spec.Keccak (State keccakf xorInto bytes)

/-- **C122**: from `KeccakInitializeState` on, any sequence of calls that stay inside the state and their data gives back the bytes the specification says, whatever the build
setting `b`, the unrolling `u` and whatever the uninitialised variables held (`js`). -/
theorem C122_builds (b : Build) (u : Unrolling) (js : Nat → Nat → U64) (cs : List Call) (h : ∀ c ∈ cs, c.Valid) :
    b.run u js b.init cs = .ok (seen (fun _ _ => 0#64) cs) := by
  rw [run_okV b u cs js b.init (init_okV b).1 h, (init_okV b).2]

/-- **C122**: so no caller can tell two builds apart. -/
theorem C122_same (b b' : Build) (u u' : Unrolling) (js js' : Nat → Nat → U64) (cs : List Call) (h : ∀ c ∈ cs, c.Valid) :
    b.run u js b.init cs = b'.run u' js' b'.init cs := by
  rw [C122_builds b u js cs h, C122_builds b' u' js' cs h]

/-- **C122**: and the state memory itself depends only on whether lanes are stored complemented: two builds that agree on that may share it. -/
theorem C122_memory (b b' : Build) (hc : b.complement = b'.complement) (u u' : Unrolling) (j j' : Nat → U64) (st : List U64) (hs : st.length = 25) (c : Call) (h : c.Valid) :
    b.call u j st c = b'.call u' j' st c := by
  obtain ⟨s1, h1, l1, e1⟩ := call_okV b u j st hs c h
  obtain ⟨s2, h2, l2, e2⟩ := call_okV b' u' j' st hs c h
  rw [h1, h2, ← hc]
  rw [← hc] at e2
  rw [lanesV_inj l1 l2 (e1.trans e2.symm)]

namespace KeccakBuild

/-- The settings of /repo: complemented lanes, little-endian, unrolling 24. -/
abbrev here : Build := .words true false

theorem memory_eq {s t : List U64} (hs : s.length = 25) (ht : t.length = 25) (h : lanesC s = lanesC t) : s = t :=
  lanesV_inj (c := true) hs ht (by rw [lanesV_true, lanesV_true, h])

theorem absorbed {j : Nat → U64} {st : List U64} {data : List U8} {n : Nat} (hs : st.length = 25) (h : n ≤ 25 ∧ 8 * n ≤ data.length)
    {x : Go (List U64)} (hx : ∃ st', x = .ok st' ∧ st'.length = 25 ∧ lanesC st' = keccakf 24 (xorInto (lanesC st) ((data.drop 0).take (8 * n)))) :
    Build.absorb here .u24 j st data n = x := by
  obtain ⟨s2, h2, l2, e2⟩ := hx
  obtain ⟨s1, h1, l1, e1⟩ := call_okV here .u24 j st hs (.absorb data n) h
  have h1' : (Build.absorb here .u24 j st data n >>= fun s => .ok (s, ([] : List U8))) = .ok (s1, []) := h1
  cases ha : Build.absorb here .u24 j st data n with
  | error e => rw [ha] at h1'; exact nomatch h1'
  | ok s =>
    rw [ha, Go.bind_ok] at h1'
    have : s = s1 := congrArg Prod.fst (Except.ok.inj h1')
    rw [this, h2]
    refine congrArg _ (memory_eq l1 l2 ?_)
    rw [e2, ← lanesV_true s1, List.drop_zero, ← lanesV_true st]
    exact e1

theorem fasted {j : Nat → U64} {st : List U64} {data : List U8} {n : Nat} (hs : st.length = 25) (h : n ∈ fastSizes ∧ 8 * n ≤ data.length)
    {x : Go (List U64)} (hx : ∃ st', x = .ok st' ∧ st'.length = 25 ∧ lanesC st' = keccakf 24 (xorInto (lanesC st) ((data.drop 0).take (8 * n)))) :
    Build.fast here .u24 j st data n = x := by
  obtain ⟨s2, h2, l2, e2⟩ := hx
  obtain ⟨s1, h1, l1, e1⟩ := call_okV here .u24 j st hs (.fast data n) h
  have h1' : (Build.fast here .u24 j st data n >>= fun s => .ok (s, ([] : List U8))) = .ok (s1, []) := h1
  cases ha : Build.fast here .u24 j st data n with
  | error e => rw [ha] at h1'; exact nomatch h1'
  | ok s =>
    rw [ha, Go.bind_ok] at h1'
    have : s = s1 := congrArg Prod.fst (Except.ok.inj h1')
    rw [this, h2]
    refine congrArg _ (memory_eq l1 l2 ?_)
    rw [e2, ← lanesV_true s1, List.drop_zero, ← lanesV_true st]
    exact e1

end KeccakBuild
open KeccakBuild

/-- **C122**: the code that /repo compiles (`Model/KeccakC.lean`, which C94 and the claims after it are about) is the build with complemented lanes, little-endian words and
unrolling 24: initialisation, permutation, absorbing and extraction are the same functions of the state memory. -/
theorem C122_compiled (j : Nat → U64) (st : List U64) (hs : st.length = 25) :
    Build.init here = KeccakInitializeState
    ∧ Build.permute here .u24 j st = KeccakPermutation st
    ∧ (∀ (data : List U8) (n : Nat), n ≤ 25 → 8 * n ≤ data.length → Build.absorb here .u24 j st data n = KeccakAbsorb st data 0 n)
    ∧ (∀ (data : List U8) (n : Nat), n ∈ fastSizes → 8 * n ≤ data.length →
        Build.fast here .u24 j st data n = absorbBlock (BitVec.ofNat 32 (64 * n)) st data 0)
    ∧ (∀ n, n ≤ 25 → Build.extract here st n = KeccakExtract st n)
    ∧ Build.extract1024 here st = KeccakExtract1024bits st := by
  refine ⟨rfl, ?_, ?_, ?_, ?_, ?_⟩
  · obtain ⟨l, e⟩ := permute_okV here .u24 j st
    refine memory_eq l (permutation_length st) ?_
    rw [permutation_ok, ← lanesV_true, ← lanesV_true]
    exact e
  · intro data n h1 h2
    exact absorbed hs ⟨h1, h2⟩ (generic h1 st hs data 0 (by omega))
  · intro data n h1 h2
    have hn : n ≤ 25 := fast_cases (P := fun n => n ≤ 25) (by decide) (by decide) (by decide) (by decide) (by decide) (by decide) n h1
    refine fasted hs ⟨h1, h2⟩ (absorbBlock_ok ?_ hn st hs data 0 (by omega))
    rw [BitVec.toNat_ofNat, Nat.mod_eq_of_lt (by omega)]
  · intro n hn
    rw [extract_okV here st hn, extract_generic st hn, ← lanesV_true]
    rfl
  · rw [extract1024_ok here st, extract_1024 st, ← lanesV_true]
    rfl

/-- A caller's history with every kind of call. -/
def KeccakBuild.history : List Call :=
  [.permute, .absorb (List.replicate 41 7#8) 5, .fast (List.replicate 72 1#8) 9, .extract 25, .fast (List.replicate 200 2#8) 21, .extract1024, .init, .extract 0, .permute, .extract 4]

example : ∀ c ∈ KeccakBuild.history, c.Valid := by
  simp only [KeccakBuild.history, List.forall_mem_cons, Call.Valid, List.length_replicate, fastSizes]
  exact ⟨trivial, by decide, by decide, by decide, by decide, trivial, trivial, by decide, trivial, by decide, fun _ h => nomatch h⟩

/-- Seen through the interface: the zero state, and the published first lanes of Keccak-f[1600] of the zero state, from every build. -/
example (b : Build) (u : Unrolling) (js : Nat → Nat → U64) : b.run u js b.init [.extract 2, .permute, .extract 2] =
    .ok [List.replicate 16 0#8, [], [0xE7, 0xDD, 0xE1, 0x40, 0x79, 0x8F, 0x25, 0xF1, 0x8A, 0x47, 0xC0, 0x33, 0xF9, 0xCC, 0xD5, 0x84]] := by
  rw [C122_same b here u .u24 js (fun _ _ => 0#64) _ (by simp [Call.Valid])]
  decide +kernel

end Verif.Props
