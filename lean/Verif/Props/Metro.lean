import Verif.Lemmas.Metro
import Verif.Lemmas.Parity
import Mathlib.Data.Set.Card
import Mathlib.Data.Fintype.Card

/-!
# C42-C44: MetroHash
-/

namespace Verif.Props
open Verif Verif.Model.Metro Verif.Spec.Metro

/-- C42. Every call of every MetroHash function returns normally: no load or slice of the key is out of range. -/
theorem C42_total (key : List U8) (seed : U32) :
    (∃ h, Hash64_1 key seed = .ok h) ∧ (∃ h, Hash64_2 key seed = .ok h) ∧
    (∃ h, Hash128_1 key seed = .ok h) ∧ (∃ h, Hash128_2 key seed = .ok h) := by
  refine ⟨?_, ⟨_, Lemmas.Metro.Hash64_2_eq key seed⟩, ⟨_, Lemmas.Metro.Hash128_1_eq key seed⟩, ⟨_, Lemmas.Metro.Hash128_2_eq key seed⟩⟩
  by_cases h : key.length % 8 = 4
  · exact ⟨_, Lemmas.Metro.Hash64_1_four key seed h⟩
  · exact ⟨_, Lemmas.Metro.Hash64_1_eq key seed h⟩

/-- C42. `Hash64_2`, `Hash128_1` and `Hash128_2` are the published MetroHash functions on every key and seed. -/
theorem C42_published (key : List U8) (seed : U32) :
    Hash64_2 key seed = .ok (metro64 params64_2 key seed) ∧
    Hash128_1 key seed = .ok (metro128 params128_1 key seed) ∧
    Hash128_2 key seed = .ok (metro128 params128_2 key seed) :=
  ⟨Lemmas.Metro.Hash64_2_eq key seed, Lemmas.Metro.Hash128_1_eq key seed, Lemmas.Metro.Hash128_2_eq key seed⟩

/-- C43. `Hash64_1` is the published MetroHash64_1 on every key whose length is not 4 modulo 8. -/
theorem C43_published (key : List U8) (seed : U32) (h : key.length % 8 ≠ 4) :
    Hash64_1 key seed = .ok (metro64 params64_1 key seed) := Lemmas.Metro.Hash64_1_eq key seed h

/-- C43. On a key of length 4 modulo 8, `Hash64_1` runs the algorithm on the key without its last byte (which is
only counted in the length). -/
theorem C43_last_byte_skipped (k : List U8) (x : U8) (seed : U32) (h : (k ++ [x]).length % 8 = 4) :
    Hash64_1 (k ++ [x]) seed = .ok (run64 params64_1 k (start64 params64_1 (k ++ [x]) seed)) :=
  Lemmas.Metro.Hash64_1_ignores k x seed (by simp at h; omega)

/-- C43. So for every such length, every seed and every prefix, all 256 keys that differ in the last byte only
collide. -/
theorem C43_last_byte_ignored (k : List U8) (x y : U8) (seed : U32) (h : (k ++ [x]).length % 8 = 4) :
    Hash64_1 (k ++ [x]) seed = Hash64_1 (k ++ [y]) seed := by
  have h' : (k ++ [y]).length % 8 = 4 := by simpa using h
  rw [C43_last_byte_skipped k x seed h, C43_last_byte_skipped k y seed h']
  simp only [start64, List.length_append, List.length_singleton]

/-- C43. "`Hash64_1` depends on every byte of the key" is false; `Hash64_2`, whose test is `>= 4`, distinguishes the
same two keys. -/
theorem C43_every_byte_violated :
    (¬ ∀ (k : List U8) (i : Nat) (_ : i < k.length), ∃ (b : U8) (seed : U32), Hash64_1 (k.set i b) seed ≠ Hash64_1 k seed) ∧
    Hash64_2 [0#8, 0#8, 0#8, 0#8] 0#32 ≠ Hash64_2 [0#8, 0#8, 0#8, 1#8] 0#32 := by
  refine ⟨?_, by decide +kernel⟩
  intro h
  obtain ⟨b, seed, hb⟩ := h [0#8, 0#8, 0#8, 0#8] 3 (by decide)
  exact hb (C43_last_byte_ignored [0#8, 0#8, 0#8] b 0#8 seed (by simp))

/-- C43. On such a key the published function is a different one. -/
theorem C43_not_published : Hash64_1 [0#8, 0#8, 0#8, 1#8] 0#32 ≠ .ok (metro64 params64_1 [0#8, 0#8, 0#8, 1#8] 0#32) := by
  decide +kernel

/-- C44. Every output of `Hash64_1` and of `Hash64_2` has an even number of one bits. -/
theorem C44_even_parity (key : List U8) (seed : U32) (h : U64) :
    (Hash64_1 key seed = .ok h → Spec.ones h % 2 = 0) ∧ (Hash64_2 key seed = .ok h → Spec.ones h % 2 = 0) := by
  have f1 : ∀ x, Spec.ones (final64 params64_1 x) % 2 = 0 := fun x => Lemmas.ones_xor_rotr _ 33 (by decide)
  have f2 : ∀ x, Spec.ones (final64 params64_2 x) % 2 = 0 := fun x => Lemmas.ones_xor_rotr _ 29 (by decide)
  constructor
  · intro e
    by_cases hl : key.length % 8 = 4
    · rw [Lemmas.Metro.Hash64_1_four key seed hl] at e
      injection e with e
      rw [← e]; exact f1 _
    · rw [Lemmas.Metro.Hash64_1_eq key seed hl] at e
      injection e with e
      rw [← e]; exact f1 _
  · intro e
    rw [Lemmas.Metro.Hash64_2_eq key seed] at e
    injection e with e
    rw [← e]; exact f2 _

/-- C44. The 64-bit functions are not onto: flipping any single bit of an output gives a value that is the hash of
no key under any seed. -/
theorem C44_range_violated (key : List U8) (seed : U32) (h : U64) (i : Fin 64) (e : Hash64_1 key seed = .ok h ∨ Hash64_2 key seed = .ok h)
    (key' : List U8) (seed' : U32) :
    Hash64_1 key' seed' ≠ .ok (h ^^^ 1#64 <<< i.val) ∧ Hash64_2 key' seed' ≠ .ok (h ^^^ 1#64 <<< i.val) := by
  have h0 : Spec.ones h % 2 = 0 := e.elim (C44_even_parity key seed h).1 (C44_even_parity key seed h).2
  have h1 : Spec.ones (1#64 <<< i.val) = 1 := by revert i; decide +kernel
  have h2 := Lemmas.ones_xor h (1#64 <<< i.val)
  constructor
  · intro e'
    have := (C44_even_parity key' seed' _).1 e'
    omega
  · intro e'
    have := (C44_even_parity key' seed' _).2 e'
    omega

/-- The 63-byte key of the repository's test vectors. -/
def metroKey63 : List U8 := (List.range 63).map fun i => BitVec.ofNat 8 (48 + i % 10)

/-- The vectors of metro_test.go: the specification is MetroHash. -/
example : metro64 params64_1 metroKey63 0 = BitVec.ofNat 64 (leNat [0x65,0x8F,0x04,0x4F,0x5C,0x73,0x0E,0x40]) ∧
    metro64 params64_2 metroKey63 1 = BitVec.ofNat 64 (leNat [0xCF,0x51,0x8E,0x9C,0xF5,0x84,0x02,0xC0]) ∧
    metro128 params128_1 metroKey63 0 = (BitVec.ofNat 64 (leNat [0xED,0x99,0x97,0xED,0x9D,0x0A,0x8B,0x0F]),
      BitVec.ofNat 64 (leNat [0xF3,0xF2,0x66,0x39,0x94,0x77,0x78,0x8F])) ∧
    metro128 params128_2 metroKey63 1 = (BitVec.ofNat 64 (leNat [0x2D,0xA6,0xAF,0x14,0x9A,0x5C,0xDB,0xC1]),
      BitVec.ofNat 64 (leNat [0x2B,0x09,0xDB,0x08,0x46,0xD6,0x9E,0xF0])) := by decide +kernel

/-- C44. At most half of the 64-bit values are outputs. -/
theorem C44_half : 2 * {h : U64 | ∃ key seed, Hash64_1 key seed = .ok h ∨ Hash64_2 key seed = .ok h}.ncard ≤ 2 ^ 64 := by
  generalize hS : {h : U64 | ∃ key seed, Hash64_1 key seed = .ok h ∨ Hash64_2 key seed = .ok h} = S
  have hfin : Finite U64 := Finite.of_injective BitVec.toFin (fun a b h => by cases a; cases b; cases h; rfl)
  have hf : ∀ A : Set U64, A.Finite := fun A => Set.toFinite A
  have hi : Function.Injective (fun x : U64 => x ^^^ 1#64) := fun a b h => by
    have := congrArg (· ^^^ 1#64) h
    simpa [BitVec.xor_assoc] using this
  have hd : Disjoint S ((fun x : U64 => x ^^^ 1#64) '' S) := by
    rw [Set.disjoint_left]
    rintro x hx ⟨y, hy, rfl⟩
    rw [← hS] at hx hy
    obtain ⟨k, s, h⟩ := hy
    obtain ⟨k', s', h'⟩ := hx
    have := C44_range_violated k s y 0 h k' s'
    rcases h' with h' | h'
    · exact this.1 h'
    · exact this.2 h'
  have h1 := Set.ncard_union_eq hd (hf _) (hf _)
  rw [Set.ncard_image_of_injective _ hi] at h1
  have h2 : (S ∪ (fun x : U64 => x ^^^ 1#64) '' S).ncard ≤ Nat.card U64 := by
    rw [← Set.ncard_univ]
    exact Set.ncard_le_ncard (Set.subset_univ _) (hf _)
  have h3 : Nat.card U64 = 2 ^ 64 := by
    have e : U64 ≃ Fin (2 ^ 64) := ⟨BitVec.toFin, BitVec.ofFin, fun _ => rfl, fun _ => rfl⟩
    rw [Nat.card_congr e, Nat.card_eq_fintype_card, Fintype.card_fin]
  omega

/-- The sixteen words that repeat one nibble are the words that do not change when rotated by 28 bits. -/
theorem nibble_rot : ∀ n : Fin 16, (BitVec.ofNat 64 (n.val * 0x1111111111111111)).rotateRight 28 = BitVec.ofNat 64 (n.val * 0x1111111111111111) ∧
    ∀ i : Fin 4, (BitVec.ofNat 64 (n.val * 0x1111111111111111)).getLsbD i = n.val.testBit i := by
  decide +kernel

theorem rot_xor (a b : U64) (r : Nat) : (a ^^^ b).rotateRight r = a.rotateRight r ^^^ b.rotateRight r := by
  apply BitVec.eq_of_getLsbD_eq
  intro i hi
  simp only [BitVec.getLsbD_rotateRight, BitVec.getLsbD_xor]
  cases decide (i < 64 - r % 64)
  · simp only [cond_false, hi, decide_true, Bool.true_and]
  · simp only [cond_true]

/-- `x ^ rotr x 28` takes at most 2^60 values: those of the words that end in a zero nibble. -/
theorem xor_rotr28 (x : U64) : ∃ z : BitVec 60, x ^^^ x.rotateRight 28 = (z ++ 0#4) ^^^ (z ++ 0#4).rotateRight 28 := by
  have hn := nibble_rot ⟨x.toNat % 16, Nat.mod_lt _ (by decide)⟩
  generalize hm : BitVec.ofNat 64 ((⟨x.toNat % 16, Nat.mod_lt _ (by decide)⟩ : Fin 16).val * 0x1111111111111111) = m at hn
  refine ⟨(x ^^^ m).extractLsb' 4 60, ?_⟩
  have e : (x ^^^ m).extractLsb' 4 60 ++ 0#4 = x ^^^ m := by
    apply BitVec.eq_of_getLsbD_eq
    intro i hi
    rw [BitVec.getLsbD_append]
    by_cases h : i < 4
    · have := hn.2 ⟨i, h⟩
      rw [if_pos h, BitVec.getLsbD_xor, this]
      simp only [BitVec.getLsbD, show (16 : Nat) = 2 ^ 4 from rfl, Nat.testBit_mod_two_pow, h, decide_true, Bool.true_and, Bool.xor_self]; simp
    · rw [if_neg h, BitVec.getLsbD_extractLsb', decide_eq_true (by omega), Bool.true_and, show 4 + (i - 4) = i by omega]
  rw [e, rot_xor, hn.1]
  apply BitVec.eq_of_getLsbD_eq
  intro i hi
  simp only [BitVec.getLsbD_xor]
  cases x.getLsbD i <;> cases m.getLsbD i <;> cases (x.rotateRight 28).getLsbD i <;> rfl

/-- C44. At most one in sixteen of the 64-bit values is an output of `Hash64_2`. -/
theorem C44_sixteenth : 16 * {h : U64 | ∃ key seed, Hash64_2 key seed = .ok h}.ncard ≤ 2 ^ 64 := by
  let F : BitVec 60 → U64 := fun z => (((z ++ 0#4) ^^^ (z ++ 0#4).rotateRight 28) * params64_2.keys.k0) ^^^ (((z ++ 0#4) ^^^ (z ++ 0#4).rotateRight 28) * params64_2.keys.k0).rotateRight 29
  have hsub : {h : U64 | ∃ key seed, Hash64_2 key seed = .ok h} ⊆ Set.range F := by
    rintro h ⟨key, seed, e⟩
    rw [Lemmas.Metro.Hash64_2_eq] at e
    rw [← Except.ok.inj e]
    have : ∃ x, metro64 params64_2 key seed = final64 params64_2 x := ⟨_, rfl⟩
    obtain ⟨x, hx⟩ := this
    obtain ⟨z, hz⟩ := xor_rotr28 x
    refine ⟨z, ?_⟩
    rw [hx]
    change _ = ((x ^^^ x.rotateRight 28) * params64_2.keys.k0) ^^^ ((x ^^^ x.rotateRight 28) * params64_2.keys.k0).rotateRight 29
    rw [hz]
  have : Fintype (BitVec 60) := Fintype.ofEquiv (Fin (2 ^ 60)) ⟨BitVec.ofFin, BitVec.toFin, fun _ => rfl, fun _ => rfl⟩
  have h1 : Nat.card (BitVec 60) = 2 ^ 60 := by
    have e : BitVec 60 ≃ Fin (2 ^ 60) := ⟨BitVec.toFin, BitVec.ofFin, fun _ => rfl, fun _ => rfl⟩
    rw [Nat.card_congr e, Nat.card_eq_fintype_card, Fintype.card_fin]
  have h2 := Set.ncard_le_ncard hsub (Set.toFinite _)
  have h3 : (Set.range F).ncard ≤ 2 ^ 60 := by
    rw [← Set.image_univ, ← h1, ← Set.ncard_univ]
    exact Set.ncard_image_le Set.finite_univ
  omega

/-- Non-vacuity of C43/C44: lengths 4 and 63, and an output with its parity. -/
example : ([1#8, 2#8, 3#8] ++ [4#8]).length % 8 = 4 ∧ metroKey63.length % 8 ≠ 4 ∧
    Hash64_1 metroKey63 0 = .ok 0x400E735C4F048F65#64 ∧ Spec.ones 0x400E735C4F048F65#64 = 28 := by decide +kernel

end Verif.Props
