import Verif.Lemmas.GomapInj2

/-!
# C48-C50: package gomap
-/

namespace Verif.Props
open Verif Verif.Model.Gomap
open Verif.Spec.Gomap (family32 family64)

/-- C48. On every non-empty key both functions return normally (every unsafe load lies inside the key) and compute
the specified hash; on the empty key both fault at `&b[0]`. -/
theorem C48_total (b : List U8) (s32 : U32) (s64 : U64) (h : b ≠ []) :
    Hash32 b s32 = .ok (Spec.Gomap.hash family32 b s32) ∧ Hash64 b s64 = .ok (Spec.Gomap.hash family64 b s64) :=
  ⟨Lemmas.Gomap.Hash32_eq b s32 (List.length_pos_iff.2 h), Lemmas.Gomap.Hash64_eq b s64 (List.length_pos_iff.2 h)⟩

theorem C48_empty (s32 : U32) (s64 : U64) : Hash32 [] s32 = .error .index ∧ Hash64 [] s64 = .error .index := ⟨rfl, rfl⟩

/-- C48. The functions fail on no other key. -/
theorem C48_fails_iff_empty (b : List U8) (s32 : U32) (s64 : U64) :
    ((∃ e, Hash32 b s32 = .error e) ↔ b = []) ∧ ((∃ e, Hash64 b s64 = .error e) ↔ b = []) := by
  by_cases h : b = []
  · subst h
    exact ⟨⟨fun _ => rfl, fun _ => ⟨_, (C48_empty s32 s64).1⟩⟩, ⟨fun _ => rfl, fun _ => ⟨_, (C48_empty s32 s64).2⟩⟩⟩
  · obtain ⟨h1, h2⟩ := C48_total b s32 s64 h
    refine ⟨⟨fun ⟨e, he⟩ => ?_, fun e => absurd e h⟩, ⟨fun ⟨e, he⟩ => ?_, fun e => absurd e h⟩⟩
    · rw [h1] at he; exact nomatch he
    · rw [h2] at he; exact nomatch he

/-- C49. Keys of the same length, however long, that differ only in their last (possibly partial) aligned 4-byte
group never collide under `Hash32`. -/
theorem C49_last_group32 (p x y : List U8) (seed : U32) (hp : p.length % 4 = 0) (hl : x.length = y.length) (hx : x.length ≤ 4) (hne : x ≠ y) :
    Hash32 (p ++ x) seed ≠ Hash32 (p ++ y) seed := by
  intro e
  have h0 : 0 < x.length := by
    rcases Nat.eq_zero_or_pos x.length with h | h
    · exact absurd ((List.eq_nil_of_length_eq_zero h).trans (List.eq_nil_of_length_eq_zero (hl ▸ h)).symm) hne
    · exact h
  rw [Lemmas.Gomap.Hash32_eq _ _ (by simp; omega), Lemmas.Gomap.Hash32_eq _ _ (by simp; omega)] at e
  injection e with e
  exact hne (Lemmas.Gomap.suffix_inj Lemmas.Gomap.good32 p x y seed hp hl h0 hx e)

/-- C49. The same for `Hash64` and 8-byte groups. -/
theorem C49_last_group64 (p x y : List U8) (seed : U64) (hp : p.length % 8 = 0) (hl : x.length = y.length) (hx : x.length ≤ 8) (hne : x ≠ y) :
    Hash64 (p ++ x) seed ≠ Hash64 (p ++ y) seed := by
  intro e
  have h0 : 0 < x.length := by
    rcases Nat.eq_zero_or_pos x.length with h | h
    · exact absurd ((List.eq_nil_of_length_eq_zero h).trans (List.eq_nil_of_length_eq_zero (hl ▸ h)).symm) hne
    · exact h
  rw [Lemmas.Gomap.Hash64_eq _ _ (by simp; omega), Lemmas.Gomap.Hash64_eq _ _ (by simp; omega)] at e
  injection e with e
  exact hne (Lemmas.Gomap.suffix_inj Lemmas.Gomap.good64 p x y seed hp hl h0 hx e)

/-- C49. In particular short keys of one length never collide. -/
theorem C49_short (x y : List U8) (s32 : U32) (s64 : U64) (hl : x.length = y.length) (hne : x ≠ y) :
    (x.length ≤ 4 → Hash32 x s32 ≠ Hash32 y s32) ∧ (x.length ≤ 8 → Hash64 x s64 ≠ Hash64 y s64) :=
  ⟨fun h => C49_last_group32 [] x y s32 rfl hl h hne, fun h => C49_last_group64 [] x y s64 rfl hl h hne⟩

/-- C49. For a key of at most 16 (32) bytes the hash is a one-to-one function of the seed. -/
theorem C49_seed (b : List U8) (h : b ≠ []) :
    (b.length ≤ 16 → ∀ s t : U32, Hash32 b s = Hash32 b t → s = t) ∧ (b.length ≤ 32 → ∀ s t : U64, Hash64 b s = Hash64 b t → s = t) := by
  constructor
  · intro hl s t e
    rw [(C48_total b s 0 h).1, (C48_total b t 0 h).1] at e
    injection e with e
    exact Lemmas.Gomap.seed_inj Lemmas.Gomap.good32 b hl e
  · intro hl s t e
    rw [(C48_total b 0 s h).2, (C48_total b 0 t h).2] at e
    injection e with e
    exact Lemmas.Gomap.seed_inj Lemmas.Gomap.good64 b hl e

/-- C49. In keys of more than 16 bytes, a change of one aligned 4-byte group anywhere in the complete 16-byte blocks - the part absorbed in four
lanes - always changes `Hash32`. -/
theorem C49_one_group32 (p x y q : List U8) (seed : U32) (hp : p.length % 4 = 0) (hx : x.length = 4) (hy : y.length = 4) (hne : x ≠ y)
    (hlong : 16 < (p ++ x ++ q).length) (hblock : p.length / 16 * 16 + 16 ≤ (p ++ x ++ q).length) : Hash32 (p ++ x ++ q) seed ≠ Hash32 (p ++ y ++ q) seed := by
  intro e
  rw [Lemmas.Gomap.Hash32_eq _ _ (by omega), Lemmas.Gomap.Hash32_eq _ _ (by simp only [List.length_append]; omega)] at e
  injection e with e
  exact Lemmas.Gomap.one_word Lemmas.Gomap.good32 (by decide) p x y q seed hp hx hy hne hlong hblock e

/-- C49. The same for `Hash64`, groups of 8 bytes and blocks of 32. -/
theorem C49_one_group64 (p x y q : List U8) (seed : U64) (hp : p.length % 8 = 0) (hx : x.length = 8) (hy : y.length = 8) (hne : x ≠ y)
    (hlong : 32 < (p ++ x ++ q).length) (hblock : p.length / 32 * 32 + 32 ≤ (p ++ x ++ q).length) : Hash64 (p ++ x ++ q) seed ≠ Hash64 (p ++ y ++ q) seed := by
  intro e
  rw [Lemmas.Gomap.Hash64_eq _ _ (by omega), Lemmas.Gomap.Hash64_eq _ _ (by simp only [List.length_append]; omega)] at e
  injection e with e
  exact Lemmas.Gomap.one_word Lemmas.Gomap.good64 (by decide) p x y q seed hp hx hy hne hlong hblock e

/-- C49. In the rest it need not: the middle group of a 12-byte key is read twice, and two keys that differ only there collide. -/
theorem C49_middle_violated : ∃ (p x y q : List U8) (seed : U32), p.length = 4 ∧ x.length = 4 ∧ y.length = 4 ∧ q.length = 4 ∧ x ≠ y ∧
    Hash32 (p ++ x ++ q) seed = Hash32 (p ++ y ++ q) seed :=
  ⟨[0#8, 0#8, 0#8, 0#8], [0xDD#8, 0x55#8, 0#8, 0#8], [0xD4#8, 0xBC#8, 1#8, 0#8], [0#8, 0#8, 0#8, 0#8], 0#32, rfl, rfl, rfl, rfl, by decide, by decide⟩

/-- C49. And likewise for `Hash64`: the middle group of a 24-byte key. -/
theorem C49_middle64_violated : ∃ (p x y q : List U8) (seed : U64), p.length = 8 ∧ x.length = 8 ∧ y.length = 8 ∧ q.length = 8 ∧ x ≠ y ∧
    Hash64 (p ++ x ++ q) seed = Hash64 (p ++ y ++ q) seed :=
  ⟨List.replicate 8 0#8, [0x8C#8, 0x28#8, 0xFB#8, 0xCF#8, 0xE4#8, 0x86#8, 0xC1#8, 0xAC#8],
    [0x5C#8, 0x52#8, 0x55#8, 0x3C#8, 0xB2#8, 0x5A#8, 0x1E#8, 0xC2#8], List.replicate 8 0#8, 0#64, rfl, rfl, rfl, rfl, by decide, by decide +kernel⟩

/-- C50. The shift-and-add readers of the ARM/PPC build agree with the little-endian loads of the other build, at
every position of every buffer. -/
theorem C50_readers_agree (q : List U8) :
    (∀ a b c d, readUnaligned32' a b c d = le32 (a :: b :: c :: d :: q) ∧ Go.unsafe32 (a :: b :: c :: d :: q) 0 = .ok (readUnaligned32' a b c d)) ∧
    (∀ a b c d e f g h, readUnaligned64' a b c d e f g h = le64 (a :: b :: c :: d :: e :: f :: g :: h :: q) ∧
      Go.unsafe64 (a :: b :: c :: d :: e :: f :: g :: h :: q) 0 = .ok (readUnaligned64' a b c d e f g h)) := by
  have h4 : ∀ a b c d, readUnaligned32' a b c d = le32 (a :: b :: c :: d :: q) := by
    intro a b c d
    have := addBytes_eq (w := 32) [a, b, c, d] 0#32
    simp only [addBytes, Nat.zero_add, Nat.reduceAdd, BitVec.shiftLeft_zero, BitVec.zero_add] at this
    unfold readUnaligned32'
    rw [this]; rfl
  have h8 : ∀ a b c d e f g h, readUnaligned64' a b c d e f g h = le64 (a :: b :: c :: d :: e :: f :: g :: h :: q) := by
    intro a b c d e f g h
    have := addBytes_eq (w := 64) [a, b, c, d, e, f, g, h] 0#64
    simp only [addBytes, Nat.zero_add, Nat.reduceAdd, BitVec.shiftLeft_zero, BitVec.zero_add] at this
    unfold readUnaligned64'
    rw [this]; rfl
  refine ⟨fun a b c d => ⟨h4 a b c d, ?_⟩, fun a b c d e f g h => ⟨h8 a b c d e f g h, ?_⟩⟩
  · rw [h4 a b c d, Go.unsafe32_eq (by simp), List.drop_zero]
  · rw [h8 a b c d e f g h, Go.unsafe64_eq (by simp), List.drop_zero]

/-! ## Concrete instances -/

/-- A key of 40 bytes whose last group differs: the hypotheses of `C49_last_group64` hold. -/
example : Hash64 (List.replicate 40 7#8 ++ [1#8, 2#8, 3#8]) 5#64 ≠ Hash64 (List.replicate 40 7#8 ++ [1#8, 2#8, 4#8]) 5#64 :=
  C49_last_group64 _ _ _ _ (by simp) rfl (by decide) (by decide)
example : Hash32 (List.replicate 44 7#8 ++ [1#8, 2#8, 3#8, 9#8]) 5#32 ≠ Hash32 (List.replicate 44 7#8 ++ [1#8, 2#8, 4#8, 9#8]) 5#32 :=
  C49_last_group32 _ _ _ _ (by simp) rfl (by decide) (by decide)
example : Hash32 (List.replicate 20 7#8 ++ [1#8, 2#8, 3#8, 9#8] ++ List.replicate 15 0#8) 5#32 ≠ Hash32 (List.replicate 20 7#8 ++ [1#8, 2#8, 4#8, 9#8] ++ List.replicate 15 0#8) 5#32 :=
  C49_one_group32 _ _ _ _ _ (by simp) rfl rfl (by decide) (by simp) (by simp)
example : Hash64 (List.replicate 8 0#8 ++ ([1#8] ++ List.replicate 7 0#8) ++ List.replicate 30 0#8) 5#64 ≠ Hash64 (List.replicate 8 0#8 ++ ([2#8] ++ List.replicate 7 0#8) ++ List.replicate 30 0#8) 5#64 :=
  C49_one_group64 _ _ _ _ _ (by simp) rfl rfl (by decide) (by simp) (by simp)
example : Hash32 [1#8, 2#8, 3#8, 4#8, 5#8] 1#32 ≠ Hash32 [1#8, 2#8, 3#8, 4#8, 5#8] 2#32 :=
  fun e => absurd ((C49_seed _ (by simp)).1 (by decide) _ _ e) (by decide)
example : (Hash64 (List.replicate 33 1#8) 0#64).isOk = true := by rw [(C48_total _ 0#32 0#64 (by simp)).2]; rfl
example : readUnaligned32' 1#8 2#8 3#8 4#8 = 0x04030201#32 := by decide

end Verif.Props
