import Verif.Props.RunSM
import Verif.Props.Spooky

/-!
# C137: the functions the SMHasher run certainly reports

The run asks for no collision at all among the keys of a test and compares 64-bit results, so a function of 32 bits does not pass: here are, for every such function
`Hashf` offers, two keys of a test with the same hash.
-/

namespace Verif.Props.Certain
open Verif Verif.Spec.RunSM Verif.Spec.Hashf Verif.Spec.Smhasher
open Verif.Model.Smhasher (TestFn)
open Verif.Model.RunSM (Event Out RunSMhasher)
open Verif.Model.Hashf (State Ext Hashf)
open Verif.Props Verif.Lemmas.RunSM

/-- A test that is not silent and has a set with a collision reports it and returns true. -/
theorem reported (H : List U8 → U64 → U64) (r : Nat → U32) (t : TestFn) (o : Out) (ho : Judged H r t o) (ht : t ∉ silent) (S : KeySet) (hS : S ∈ sets r t)
    (hc : Collide H S) : o.ret = true ∧ ∃ g, 0 < g ∧ .collisions g ∈ o.events := by
  obtain ⟨found, h1, h2, h3⟩ := ho
  obtain ⟨x, hx, ha, hb⟩ : ∃ x ∈ found, x ≠ none ∧ ∀ g, x = some g → 0 < g := by
    clear h2 h3
    revert hS
    generalize sets r t = l at h1
    intro hS
    induction h1 with
    | nil => exact absurd hS (by simp)
    | cons p _ ih =>
      rcases List.mem_cons.1 hS with rfl | h
      · exact ⟨_, List.mem_cons_self, p.1.2 hc, fun g e => (p.2 g e).1⟩
      · obtain ⟨x, a, b⟩ := ih h
        exact ⟨x, List.mem_cons_of_mem _ a, b⟩
  refine ⟨h3.2 ⟨ht, x, hx, ha⟩, ?_⟩
  cases x with
  | none => exact absurd rfl ha
  | some g =>
    refine ⟨g, hb g rfl, ?_⟩
    rw [h2]
    exact List.mem_filterMap.2 ⟨some g, hx, rfl⟩

/-- For each name whose result has 32 bits (and two more), a test and two of its keys, with their seeds, that have the same hash. -/
def twins : List (String × TestFn × (List U8 × U64) × (List U8 × U64)) := [
  ("sbox", .TwoNonzero, ([0, 53, 14], 0), ([99, 61], 0)),
  ("sbox", .SmallKeys, ([0, 53, 14], 0), ([99, 61], 0)),
  ("CrapWow", .TwoNonzero, ([109, 22], 0), ([117, 0, 122], 0)),
  ("CrapWow", .SmallKeys, ([109, 22], 0), ([117, 0, 122], 0)),
  ("CrapWow", .AppendedZeros, (ascii "hello", 0), (ascii "hello" ++ [0, 0], 0)),
  ("j332c", .TwoNonzero, ([86, 189, 0], 0), ([0, 135, 53], 0)),
  ("j332c", .SmallKeys, ([86, 189, 0], 0), ([0, 135, 53], 0)),
  ("j332b", .TwoNonzero, ([7, 171, 0], 0), ([101, 153, 0], 0)),
  ("j332b", .SmallKeys, ([7, 171, 0], 0), ([101, 153, 0], 0)),
  ("j232", .Seed, (ascii "hello", 5501), (ascii "hello", 80735)),
  ("j232", .TwoNonzero, ([1, 0, 0], 0), ([2, 0], 0)),
  ("j232", .SmallKeys, ([1, 0, 0], 0), ([2, 0], 0)),
  ("j264l", .Seed, (ascii "hello", 11871), (ascii "hello", 84613)),
  ("j264l", .TwoNonzero, ([107, 140, 0], 0), ([163, 0, 3], 0)),
  ("j264l", .SmallKeys, ([107, 140, 0], 0), ([163, 0, 3], 0)),
  ("j264h", .Seed, (ascii "hello", 5103), (ascii "hello", 6604)),
  ("j264h", .TwoNonzero, ([40, 243], 0), ([248, 142, 0], 0)),
  ("j264h", .SmallKeys, ([40, 243], 0), ([248, 142, 0], 0)),
  ("j264xor", .Seed, (ascii "hello", 40613), (ascii "hello", 73201)),
  ("j264xor", .TwoNonzero, ([0, 247], 0), ([162, 187, 0], 0)),
  ("j264xor", .SmallKeys, ([0, 247], 0), ([162, 187, 0], 0)),
  ("spooky32", .TwoNonzero, ([0, 10, 69], 0), ([1, 151, 0], 0)),
  ("spooky32", .SmallKeys, ([0, 10, 69], 0), ([1, 151, 0], 0)),
  ("murmur332", .TwoNonzero, ([196, 244], 0), ([0, 0, 255, 244], 0)),
  ("FarmHash32", .TwoNonzero, ([158, 246], 0), ([202, 161, 0], 0)),
  ("FarmHash32", .SmallKeys, ([158, 246], 0), ([202, 161, 0], 0)),
  ("MetroHash64-1", .TwoNonzero, ([0, 0, 0, 0], 0), ([0, 0, 0, 1], 0))]


/-- What a row of `twins` says. -/
def Twin (e : Ext) (x : String × TestFn × (List U8 × U64) × (List U8 × U64)) : Prop :=
  ∃ f, (table e).lookup x.1 = some f ∧ f x.2.2.1.1 x.2.2.1.2 = f x.2.2.2.1 x.2.2.2.2

theorem twins_twin (e : Ext) : ∀ x ∈ twins, Twin e x := by
  unfold twins
  simp only [List.forall_mem_cons]
  repeat' apply And.intro
  all_goals first
    | exact ⟨_, rfl, by decide +kernel⟩
    | exact fun x h => absurd h List.not_mem_nil

/-- The two keys of a row of `twins` are different members of one set of the test, which runs and is not one of the silent ones. -/
theorem twins_mem (r : Nat → U32) : ∀ x ∈ twins, x.2.1 ∈ order ∧ x.2.1 ∉ silent ∧ x.2.2.1 ≠ x.2.2.2 ∧
    ∃ S ∈ sets r x.2.1, S.mem x.2.2.1.1 x.2.2.1.2 ∧ S.mem x.2.2.2.1 x.2.2.2.2 := by
  unfold twins
  simp only [List.forall_mem_cons]
  repeat' apply And.intro
  all_goals first
    | decide
    | exact ⟨_, List.mem_cons_self, ⟨rfl, by decide⟩, ⟨rfl, by decide⟩⟩
    | exact fun x h => absurd h List.not_mem_nil

/-- The names whose functions ignore the seed. -/
def seedless : List String := ["adler32", "MaHash8v64", "murmur332", "murmur364", "siphash64", "FarmHash32", "FarmHash64", "FarmHash128-high", "FarmHash128-low",
  "FarmHash128-xor", "keccak224", "keccakpg643", "keccakpg644", "keccakpg648", "keccakpg160", "whirlpool", "blake2b", "sha1"]

theorem seedless_ignores (e : Ext) : ∀ n ∈ seedless, ∃ f, (table e).lookup n = some f ∧ ∀ k s s', f k s = f k s' := by
  unfold seedless
  simp only [List.forall_mem_cons]
  repeat' apply And.intro
  all_goals first
    | exact ⟨_, rfl, fun _ _ _ => rfl⟩
    | exact fun x h => absurd h List.not_mem_nil

theorem runnable : (∀ x ∈ twins, x.1 ∈ names ∧ x.1 ∉ counters ∧ x.1 ∉ indexing) ∧ ∀ n ∈ seedless, n ∈ names ∧ n ∉ counters ∧ n ∉ indexing := by
  constructor <;> decide

/-- C137. Whatever the external functions, the calls made before, the random numbers and the flags, a run of the tests with the function of a row of `twins` ends, and
the test of that row returns true and reports collisions. -/
theorem C137_twins (e : Ext) (he : Ok e) (s : State) (hs : Reach e s) (arg : String) (v : Bool) (r : Nat → U32)
    (name : String) (t : TestFn) (a b : List U8 × U64) (hx : (name, t, a, b) ∈ twins) :
    ∃ s' os, RunSMhasher (Hashf e) r arg v { s with Hf2 := name } = .ok (s', os) ∧ (∃ o, (t, o) ∈ os) ∧
      ∀ o, (t, o) ∈ os → o.ret = true ∧ ∃ g, 0 < g ∧ .collisions g ∈ o.events := by
  obtain ⟨h1, h2, h3⟩ := runnable.1 _ hx
  obtain ⟨H, hH, s', os, hr, _, ho, hj⟩ := (C109_hashf e he s hs name arg v r).2.2.2 h1 h2 h3
  obtain ⟨f, hf, heq⟩ := twins_twin e _ hx
  obtain ⟨m1, m2, m3, S, mS, ma, mb⟩ := twins_mem r _ hx
  refine ⟨s', os, hr, ?_, fun o hm => reported H r t o (hj _ hm) m2 S mS ⟨_, _, _, _, ma, mb, m3, ?_⟩⟩
  · have : t ∈ os.map (·.1) := by rw [ho]; exact m1
    obtain ⟨⟨t', o⟩, hm, rfl⟩ := List.mem_map.1 this
    exact ⟨o, hm⟩
  · dsimp only at hf
    rw [hH] at hf
    cases hf
    exact Option.some.inj heq

/-- C137. With a function that ignores the seed the seed test counts 99999 collisions. -/
theorem C137_seedless (e : Ext) (he : Ok e) (s : State) (hs : Reach e s) (arg : String) (v : Bool) (r : Nat → U32) (name : String) (hn : name ∈ seedless) :
    ∃ s' os, RunSMhasher (Hashf e) r arg v { s with Hf2 := name } = .ok (s', os) ∧ (∃ o, (TestFn.Seed, o) ∈ os) ∧
      ∀ o, (TestFn.Seed, o) ∈ os → o = ⟨true, [.collisions 99999]⟩ := by
  obtain ⟨h1, h2, h3⟩ := runnable.2 _ hn
  obtain ⟨H, hH, s', os, hr, _, ho, hj⟩ := (C109_hashf e he s hs name arg v r).2.2.2 h1 h2 h3
  obtain ⟨f, hf, heq⟩ := seedless_ignores e _ hn
  rw [hH] at hf
  cases hf
  refine ⟨s', os, hr, ?_, fun o hm => C109_seedless H (fun k s s' => Option.some.inj (heq k s s')) r o (hj _ hm)⟩
  have : TestFn.Seed ∈ os.map (·.1) := by rw [ho]; decide
  obtain ⟨⟨t', o⟩, hm, h⟩ := List.mem_map.1 this
  dsimp only at h
  subst h
  exact ⟨o, hm⟩

/-- The names for which no report is shown here. -/
def open_ : List String := ["aeshash64", "j364", "j264", "spooky64", "spooky128h", "spooky128l", "spooky128xor", "siphash64pg", "MetroHash64-2", "MetroHash128-1h",
  "MetroHash128-1l", "MetroHash128-1xor", "MetroHash128-2h", "MetroHash128-2l", "MetroHash128-2xor"]

/-- C137. Of all names, apart from the fifteen of `open_` a run passes with none: the program stops, or some test returns true. -/
theorem C137_pass (e : Ext) (he : Ok e) (s : State) (hs : Reach e s) (name arg : String) (v : Bool) (r : Nat → U32) (hn : name ∉ open_) :
    ∀ s' os, RunSMhasher (Hashf e) r arg v { s with Hf2 := name } = .ok (s', os) → ∃ x ∈ os, x.2.ret = true := by
  intro s' os hr
  by_cases h1 : name ∈ seedless
  · obtain ⟨_, _, hr', ⟨o, ho⟩, h⟩ := C137_seedless e he s hs arg v r name h1
    rw [hr] at hr'
    cases hr'
    exact ⟨_, ho, by rw [h o ho]⟩
  by_cases h2 : name ∈ twins.map (·.1)
  · obtain ⟨⟨n, t, a, b⟩, hx, rfl⟩ := List.mem_map.1 h2
    obtain ⟨_, _, hr', ⟨o, ho⟩, h⟩ := C137_twins e he s hs arg v r n t a b hx
    rw [hr] at hr'
    cases hr'
    exact ⟨_, ho, (h o ho).1⟩
  obtain ⟨c1, c2, c3, _⟩ := C109_hashf e he s hs name arg v r
  by_cases h3 : name ∈ names
  · by_cases h4 : name ∈ counters
    · obtain ⟨_, hr', _⟩ := c3 h4
      rw [hr] at hr'
      cases hr'
      refine ⟨(.Sanity, ⟨true, List.replicate 20480 .depends⟩), ?_, rfl⟩
      unfold counted
      exact List.mem_map.2 ⟨.Sanity, by decide, by rw [if_pos rfl]⟩
    · by_cases h5 : name ∈ indexing
      · rw [c2 h5] at hr; exact nomatch hr
      · exact absurd (show ∀ n ∈ names, n ∉ seedless → n ∉ twins.map (·.1) → n ∉ counters → n ∉ indexing → n ∈ open_ by decide)
          (fun h => hn (h name h3 h1 h2 h4 h5))
  · rw [c1 h3] at hr; exact nomatch hr

/-- Non-vacuity: names of each kind, and the two lists with `open_`, the counters and the names that index cover the table. -/
example : Ok exampleExt ∧ Reach exampleExt Model.Hashf.init ∧ ("j232", TestFn.Seed, (ascii "hello", (5501 : U64)), (ascii "hello", (80735 : U64))) ∈ twins ∧
    "sha1" ∈ seedless ∧ "j232" ∉ open_ ∧ (∀ n ∈ open_, n ∈ names ∧ n ∉ seedless ∧ n ∉ twins.map (·.1)) :=
  ⟨exampleExt_ok, .start, by decide, by decide, by decide, by decide⟩

end Verif.Props.Certain
