import Verif.Spec.Smhasher
import Verif.Model.RunSM
import Mathlib.Algebra.BigOperators.Group.Finset.Basic
import Mathlib.Data.Nat.Choose.Basic
import Mathlib.Data.Set.Card

/-!
# What a run of package smhasher should do (C109)

From the model this file uses only the names of the tests and of the reports.
-/

namespace Verif.Spec.RunSM
open Verif Verif.Spec.Smhasher
open Verif.Model.Smhasher (TestFn)
open Verif.Model.RunSM (Event Out)

/-- A set of (key, seed) pairs to be checked for collisions, and how many there are. -/
structure KeySet where
  mem : List U8 → U64 → Prop
  size : Nat

/-- Keys with seed 0. -/
def keys (p : List U8 → Prop) (size : Nat) : KeySet := ⟨fun k s => s = 0 ∧ p k, size⟩

/-- The bytes of an ASCII string. -/
def ascii (s : String) : List U8 := s.toList.map fun c => BitVec.ofNat 8 c.toNat

/-- A to T, a to t and the digits. -/
def letter (v : U8) : Prop := (65 ≤ v.toNat ∧ v.toNat ≤ 84) ∨ (97 ≤ v.toNat ∧ v.toNat ≤ 116) ∨ (48 ≤ v.toNat ∧ v.toNat ≤ 57)

/-- Byte `q` of the period of the `i`th cyclic key: four bytes from `i`, the others the low bytes of the numbers of the generator, which the `n - 4` bytes of each of
the million keys with a shorter period (from 4 on) used before. -/
def cyclicByte (r : Nat → U32) (n i q : Nat) : U8 :=
  match q with
  | 0 => BitVec.ofNat 8 (i * 79 % 97)
  | 1 => BitVec.ofNat 8 (i * 43 % 137)
  | 2 => BitVec.ofNat 8 (i * 151 % 197)
  | 3 => BitVec.ofNat 8 (i * 199 % 251)
  | q + 4 => BitVec.ofNat 8 (r (1000000 * ((n - 4) * (n - 5) / 2) + i * (n - 4) + q)).toNat

/-- The `i`th cyclic key of period `n`: eight times the same bytes. -/
def cyclicKey (r : Nat → U32) (n i : Nat) : List U8 := (List.replicate 8 ((List.range n).map (cyclicByte r n i))).flatten

/-- The sets of keys each test checks for collisions, in order. `r` are the random numbers. -/
def sets (r : Nat → U32) : TestFn → List KeySet
  | .Sanity => []
  | .Seed => [⟨fun k s => k = ascii "hello" ∧ s.toNat < 100000, 100000⟩]
  | .Text => [("Foo", "Bar"), ("FooBar", ""), ("", "FooBar")].map fun p =>
      keys (fun k => ∃ w : List U8, w.length = 4 ∧ (∀ v ∈ w, letter v) ∧ k = ascii p.1 ++ w ++ ascii p.2) (50 ^ 4)
  | .Windowed => [32, 64, 1024].flatMap fun n => (List.range n).map fun i =>
      keys (fun k => 8 * k.length = n ∧ ∀ p, bit k p = true → inWindow n i p) (2 ^ 16)
  | .Avalanche => []
  | .Permutation =>
      [(8, (List.range 8).map (BitVec.ofNat 32)),
       (8, (List.range 8).map fun i => BitVec.ofNat 32 (i * 2 ^ 29)),
       (20, [0#32, 1#32]),
       (20, [0#32, BitVec.ofNat 32 (2 ^ 31)]),
       (6, (List.range 8).map (BitVec.ofNat 32) ++ ((List.range 7).map fun i => BitVec.ofNat 32 ((i + 1) * 2 ^ 29)))].map fun (p : Nat × List U32) =>
      keys (fun k => ∃ v : List U32, v.length ≤ p.1 ∧ (∀ u ∈ v, u ∈ p.2) ∧ k = blockBytes v) (∑ j ∈ Finset.range (p.1 + 1), p.2.length ^ j)
  | .Sparse => [(32, 6), (40, 6), (48, 5), (56, 5), (64, 5), (96, 4), (256, 3), (2048, 2)].map fun (p : Nat × Nat) =>
      keys (fun k => 8 * k.length = p.1 ∧ weight k ≤ p.2) (∑ j ∈ Finset.range (p.2 + 1), p.1.choose j)
  | .Cyclic => [4, 5, 6, 7, 8, 9, 10, 11, 12].map fun n => keys (fun k => ∃ i, i < 1000000 ∧ k = cyclicKey r n i) 1000000
  | .TwoNonzero => [keys (fun k => 2 ≤ k.length ∧ k.length ≤ 16 ∧ nonZeroBytes k ≤ 2) (∑ n ∈ Finset.Icc 2 16, (1 + 255 * n + 255 ^ 2 * n.choose 2))]
  | .SmallKeys => [keys (fun k => 1 ≤ k.length ∧ k.length ≤ 3) (256 + 256 ^ 2 + 256 ^ 3)]
  | .Zeros => [keys (fun k => ∃ n, n ≤ 262144 ∧ k = List.replicate n 0#8) 262145]
  | .AppendedZeros => [keys (fun k => k <+: ascii "hello" ++ List.replicate 256 0#8) 262]

/-- The tests in the order in which they run; one is never run. -/
def order : List TestFn := [.Sanity, .Seed, .Text, .Windowed, .Avalanche, .Permutation, .Sparse, .Cyclic, .TwoNonzero, .SmallKeys, .AppendedZeros]

/-- The tests that return false whatever they find. -/
def silent : List TestFn := [.Text, .Windowed, .Avalanche, .Permutation]

/-- Two different members of the set have the same hash. -/
def Collide (H : List U8 → U64 → U64) (S : KeySet) : Prop :=
  ∃ k s k' s', S.mem k s ∧ S.mem k' s' ∧ (k, s) ≠ (k', s') ∧ H k s = H k' s'

/-- The number of different hashes of the members of a set. -/
noncomputable def distinct (H : List U8 → U64 → U64) (S : KeySet) : Nat := {h : U64 | ∃ k s, S.mem k s ∧ H k s = h}.ncard

/-- What test `t` does with a hash `H` that is a function of key and seed: of its sets it reports exactly the ones with a collision, in order, with the number of
members beyond the different hashes, and it returns whether there was a report (unless it is one of the silent ones). -/
def Judged (H : List U8 → U64 → U64) (r : Nat → U32) (t : TestFn) (o : Out) : Prop :=
  ∃ found : List (Option Nat),
    List.Forall₂ (fun S x => (x ≠ none ↔ Collide H S) ∧ ∀ g, x = some g → 0 < g ∧ g + distinct H S = S.size) (sets r t) found ∧
    o.events = found.filterMap (Option.map Event.collisions) ∧
    (o.ret = true ↔ t ∉ silent ∧ ∃ x ∈ found, x ≠ none)

/-- The number of calls of the hash function in a test: one per key of a set, 2 * 10 * 128 * 16 in the sanity test, and in the avalanche test 100000 rounds of one
call and one per bit for keys of 16, 32, 64, 128, 256, 1600, 32 and 64 bits. -/
def calls (r : Nat → U32) : TestFn → Nat
  | .Sanity => 2 * (10 * 128 * 16)
  | .Avalanche => 100000 * ([16, 32, 64, 128, 256, 1600, 32, 64].map (· + 1)).sum
  | t => ((sets r t).map KeySet.size).sum

/-- The globals of package hashf a program can get to by setting `Hf2` and calling `Hashf`. -/
inductive Reach (e : Model.Hashf.Ext) : Model.Hashf.State → Prop
  | start : Reach e Model.Hashf.init
  | select (s : Model.Hashf.State) (name : String) : Reach e s → Reach e { s with Hf2 := name }
  | call (s s' : Model.Hashf.State) (k : List U8) (seed h : U64) : Reach e s → Model.Hashf.Hashf e s k seed = .ok (s', h) → Reach e s'

end Verif.Spec.RunSM
