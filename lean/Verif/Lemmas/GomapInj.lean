import Verif.Lemmas.Gomap
import Verif.Lemmas.Odd

namespace Verif.Lemmas.Gomap
open Verif
open Verif.Spec.Gomap (word32 word64 family32 family64 absorb lane group groupWord combine finish stir Lanes Family)

/-- What the injectivity proofs need of a family. -/
structure Good {w : Nat} (F : Family w) : Prop where
  o1 : F.m1.toNat % 2 = 1
  o2 : F.m2.toNat % 2 = 1
  o4 : F.m4.toNat % 2 = 1
  q1 : F.f1.toNat % 2 = 1
  q2 : F.f2.toNat % 2 = 1
  rA : F.rA < w
  rB : F.rB < w
  s1 : 0 < F.s1
  s2 : 0 < F.s2
  s3 : 0 < F.s3
  bytes : 0 < F.bytes
  width : 256 ^ F.bytes ≤ 2 ^ w
  nil : F.words [] = []
  words : ∀ p x y : List U8, p.length % F.bytes = 0 → x.length = y.length → 0 < x.length → x.length ≤ F.bytes → p.length + x.length ≤ 4 * F.bytes →
    ∃ l a b, F.words (p ++ x) = l ++ [a] ∧ F.words (p ++ y) = l ++ [b] ∧ (a = b → x = y)

variable {w : Nat} {F : Family w} (G : Good F)
include G

theorem finish_inj {x y : BitVec w} (e : finish F x = finish F y) : x = y := by
  unfold finish at e
  exact xorshiftR_inj G.s1 (mul_inj_of_odd G.q1 (xorshiftR_inj G.s2 (mul_inj_of_odd G.q2 (xorshiftR_inj G.s3 e))))

theorem stir_inj {x y : BitVec w} (e : stir F x = stir F y) : x = y := by
  unfold stir at e
  exact rotateLeft_inj G.rA (mul_inj_of_odd G.o2 (rotateLeft_inj G.rB e))

theorem absorb_inj {x y : BitVec w} (l : List (BitVec w)) (e : absorb F x l = absorb F y l) : x = y := by
  cases l with
  | nil => exact e
  | cons a l =>
    have key : ∀ (l : List (BitVec w)) (x y : BitVec w), l.foldl (fun h x => stir F h ^^^ x * F.m1) x = l.foldl (fun h x => stir F h ^^^ x * F.m1) y → x = y := by
      intro l
      induction l with
      | nil => intro x y e; exact e
      | cons b l ih => intro x y e; exact stir_inj G (xor_right_inj' _ (ih _ _ e))
    exact xor_right_inj' _ (key _ _ _ e)

theorem absorb_last {h a b : BitVec w} (l : List (BitVec w)) (e : absorb F h (l ++ [a]) = absorb F h (l ++ [b])) : a = b := by
  cases l with
  | nil => exact mul_inj_of_odd G.o1 (xor_left_inj' _ e)
  | cons c l =>
    simp only [List.cons_append, absorb, List.foldl_append, List.foldl_cons, List.foldl_nil] at e
    exact mul_inj_of_odd G.o1 (xor_left_inj' _ e)

theorem lane_inj {v x y : BitVec w} (e : lane F v x = lane F v y) : x = y :=
  mul_inj_of_odd G.o1 (xor_left_inj' _ (rotateLeft_inj G.rA (mul_inj_of_odd G.o2 e)))

theorem groupWord_inj {q x y : List U8} (hq : q.length = 3 * F.bytes) (hx : x.length = F.bytes) (hy : y.length = F.bytes)
    (e : groupWord F (q ++ x) 3 = groupWord F (q ++ y) 3) : x = y := by
  simp only [groupWord] at e
  rw [List.drop_append_of_le_length (by omega), List.drop_append_of_le_length (by omega), ← hq, List.drop_length, List.nil_append, List.nil_append,
    List.take_of_length_le (by omega), List.take_of_length_le (by omega)] at e
  have b1 := leNat_lt x
  have b2 := leNat_lt y
  have hw := G.width
  rw [hx] at b1
  rw [hy] at b2
  have e := congrArg BitVec.toNat e
  rw [BitVec.toNat_ofNat, BitVec.toNat_ofNat, Nat.mod_eq_of_lt (by omega), Nat.mod_eq_of_lt (by omega)] at e
  exact leNat_inj (by omega) e

theorem groupWord_eq {q x y : List U8} (i : Nat) (hi : i < 3) (hq : q.length = 3 * F.bytes) : groupWord F (q ++ x) i = groupWord F (q ++ y) i := by
  have hb := G.bytes
  have h1 : i * F.bytes + F.bytes ≤ q.length := by
    rw [hq]; have := Nat.mul_le_mul_right F.bytes (show i + 1 ≤ 3 by omega); rw [Nat.add_mul] at this; omega
  simp only [groupWord]
  rw [List.drop_append_of_le_length (by omega), List.drop_append_of_le_length (by omega), List.take_append_of_le_length (by simp; omega),
    List.take_append_of_le_length (by simp; omega)]

theorem group_inj {v : Lanes w} {q x y : List U8} (hq : q.length = 3 * F.bytes) (hx : x.length = F.bytes) (hy : y.length = F.bytes)
    (e : combine F (group F v (q ++ x)) = combine F (group F v (q ++ y))) : x = y := by
  simp only [combine, group, groupWord_eq G (q := q) (x := x) (y := y) 0 (by omega) hq, groupWord_eq G (q := q) (x := x) (y := y) 1 (by omega) hq,
    groupWord_eq G (q := q) (x := x) (y := y) 2 (by omega) hq] at e
  exact groupWord_inj G hq hx hy (lane_inj G (rotateLeft_inj G.rB (mul_inj_of_odd G.o4 (add_left_inj' _ e))))

theorem seed_inj (m : List U8) (h : m.length ≤ 4 * F.bytes) {s t : BitVec w} (e : Spec.Gomap.hash F m s = Spec.Gomap.hash F m t) : s = t := by
  unfold Spec.Gomap.hash at e
  rw [if_pos h, if_pos h] at e
  exact add_right_inj' _ (absorb_inj G _ (finish_inj G e))

theorem suffix_inj (p x y : List U8) (seed : BitVec w) (hp : p.length % F.bytes = 0) (hl : x.length = y.length) (h0 : 0 < x.length) (hx : x.length ≤ F.bytes)
    (e : Spec.Gomap.hash F (p ++ x) seed = Spec.Gomap.hash F (p ++ y) seed) : x = y := by
  have hb := G.bytes
  have hlen : (p ++ y).length = (p ++ x).length := by simp [hl]
  unfold Spec.Gomap.hash at e
  rw [hlen] at e
  by_cases h : (p ++ x).length ≤ 4 * F.bytes
  · rw [if_pos h, if_pos h] at e
    obtain ⟨l, a, b, e1, e2, e3⟩ := G.words p x y hp hl h0 hx (by simpa using h)
    rw [e1, e2] at e
    exact e3 (absorb_last G l (finish_inj G e))
  · rw [if_neg h, if_neg h] at e
    have h4 : 0 < 4 * F.bytes := by omega
    have hr : (tailOf (4 * F.bytes) p).length % F.bytes = 0 := by
      rw [tailOf_length, Nat.mod_mul_left_mod]; exact hp
    have hlt := tailOf_length_lt h4 p
    have hle : (tailOf (4 * F.bytes) p).length + F.bytes ≤ 4 * F.bytes := by
      obtain ⟨k, hk⟩ := Nat.dvd_of_mod_eq_zero hr
      have : k < 4 := by
        rw [hk, Nat.mul_comm 4] at hlt
        exact Nat.lt_of_mul_lt_mul_left hlt
      rw [hk]
      have := Nat.mul_le_mul_left F.bytes (show k + 1 ≤ 4 by omega)
      rw [Nat.mul_add] at this
      omega
    rw [blocks_append h4 p x, blocks_append h4 p y, tailOf_append h4 p x, tailOf_append h4 p y] at e
    generalize tailOf (4 * F.bytes) p = q at *
    by_cases hf : q.length + x.length < 4 * F.bytes
    · rw [blocks_of_lt (l := q ++ x) (by simpa using hf), blocks_of_lt (l := q ++ y) (by simp; omega), tailOf_of_lt (l := q ++ x) (by simpa using hf),
        tailOf_of_lt (l := q ++ y) (by simp; omega)] at e
      obtain ⟨l, a, b, e1, e2, e3⟩ := G.words q x y hr hl h0 hx (by omega)
      rw [e1, e2] at e
      exact e3 (absorb_last G l (finish_inj G e))
    · have hx' : x.length = F.bytes := by omega
      have hone : ∀ z : List U8, z.length = F.bytes → blocks (4 * F.bytes) (q ++ z) = [q ++ z] ∧ tailOf (4 * F.bytes) (q ++ z) = [] := by
        intro z hz
        have hz' : (q ++ z).length = 4 * F.bytes := by simp; omega
        constructor
        · rw [blocks_of_le h4 (by omega), List.take_of_length_le (by omega), List.drop_of_length_le (by omega), blocks_nil]
        · rw [tailOf_of_le h4 (by omega), List.drop_of_length_le (by omega), tailOf_nil]
      rw [(hone x hx').1, (hone x hx').2, (hone y (by omega)).1, (hone y (by omega)).2] at e
      simp only [List.foldl_append, List.foldl_cons, List.foldl_nil, G.nil] at e
      exact group_inj G (by omega) hx' (by omega) (finish_inj G e)

omit G

theorem toNat_small (m : List U8) : Spec.Gomap.small m < 2 ^ 24 := by
  unfold Spec.Gomap.small
  have h1 := (m[0]?.getD 0#8).isLt
  have h2 := (m[m.length / 2]?.getD 0#8).isLt
  have h3 := (m[m.length - 1]?.getD 0#8).isLt
  omega

theorem small_inj {x y : List U8} (hl : x.length = y.length) (h0 : 0 < x.length) (h4 : x.length < 4) (e : Spec.Gomap.small x = Spec.Gomap.small y) : x = y := by
  match x, y, hl, h0, h4 with
  | [a], [b], _, _, _ =>
    simp only [Spec.Gomap.small, List.length_singleton, Nat.reduceDiv, Nat.reduceSub, List.getElem?_cons_zero, Option.getD_some] at e
    have := a.isLt; have := b.isLt
    rw [BitVec.eq_of_toNat_eq (x := a) (y := b) (by omega)]
  | [a, a'], [b, b'], _, _, _ =>
    simp only [Spec.Gomap.small, List.length_cons, List.length_nil, Nat.reduceDiv, Nat.reduceSub, Nat.reduceAdd, List.getElem?_cons_zero, List.getElem?_cons_succ, Option.getD_some] at e
    have := a.isLt; have := b.isLt; have := a'.isLt; have := b'.isLt
    rw [BitVec.eq_of_toNat_eq (x := a) (y := b) (by omega), BitVec.eq_of_toNat_eq (x := a') (y := b') (by omega)]
  | [a, a', a''], [b, b', b''], _, _, _ =>
    simp only [Spec.Gomap.small, List.length_cons, List.length_nil, Nat.reduceDiv, Nat.reduceSub, Nat.reduceAdd, List.getElem?_cons_zero, List.getElem?_cons_succ, Option.getD_some] at e
    have := a.isLt; have := b.isLt; have := a'.isLt; have := b'.isLt; have := a''.isLt; have := b''.isLt
    rw [BitVec.eq_of_toNat_eq (x := a) (y := b) (by omega), BitVec.eq_of_toNat_eq (x := a') (y := b') (by omega), BitVec.eq_of_toNat_eq (x := a'') (y := b'') (by omega)]

/-- A word that ends before the suffix does not see it. -/
theorem word_pre (p x y : List U8) (n i : Nat) (h : i + n ≤ p.length) : ((p ++ x).drop i).take n = ((p ++ y).drop i).take n := by
  rw [List.drop_append_of_le_length (by omega), List.drop_append_of_le_length (by omega), List.take_append_of_le_length (by simp; omega),
    List.take_append_of_le_length (by simp; omega)]

/-- A final word that starts at or before the suffix determines it. -/
theorem word_suf (p x y : List U8) (n : Nat) (hl : x.length = y.length) (hn : x.length ≤ n) (hp : n ≤ p.length + x.length)
    (e : ((p ++ x).drop (p.length + x.length - n)).take n = ((p ++ y).drop (p.length + x.length - n)).take n) : x = y := by
  rw [List.take_of_length_le (by simp; omega), List.take_of_length_le (by simp; omega), List.drop_append_of_le_length (by omega), List.drop_append_of_le_length (by omega)] at e
  exact List.append_cancel_left e

theorem good32 : Good family32 where
  o1 := by decide
  o2 := by decide
  o4 := by decide
  q1 := by decide
  q2 := by decide
  rA := by decide
  rB := by decide
  s1 := by decide
  s2 := by decide
  s3 := by decide
  bytes := by decide
  width := by decide
  nil := rfl
  words := by
    intro p x y hp hl h0 hx h4
    simp only [family32, List.length_append, ← hl] at hp hx h4 ⊢
    have last : word32 (p ++ x) (p.length + x.length - 4) = word32 (p ++ y) (p.length + x.length - 4) → 4 ≤ p.length + x.length → x = y := by
      intro e h
      apply word_suf p x y 4 hl hx h
      unfold word32 at e
      rw [← le32_of_take (p := (p ++ x).drop _), ← le32_of_take (p := (p ++ y).drop _)] at e
      exact le32_inj (by simp; omega) (by simp; omega) e
    have pre : ∀ i, i + 4 ≤ p.length → word32 (p ++ x) i = word32 (p ++ y) i := by
      intro i hi
      unfold word32 le32
      rw [word_pre p x y 4 i hi]
    have hz : ¬ p.length + x.length = 0 := by omega
    rw [if_neg hz, if_neg hz]
    by_cases h3 : p.length + x.length < 4
    · have : p = [] := List.eq_nil_of_length_eq_zero (by omega)
      subst this
      rw [if_pos h3, if_pos h3]
      refine ⟨[], _, _, rfl, rfl, fun e => ?_⟩
      have e := congrArg BitVec.toNat e
      have b1 := toNat_small x
      have b2 := toNat_small y
      simp only [List.nil_append] at e
      rw [BitVec.toNat_ofNat, BitVec.toNat_ofNat, Nat.mod_eq_of_lt (by omega), Nat.mod_eq_of_lt (by omega)] at e
      simp only [List.length_nil, Nat.zero_add] at h3
      exact small_inj hl h0 h3 e
    rw [if_neg h3, if_neg h3]
    by_cases h5 : p.length + x.length = 4
    · rw [if_pos h5, if_pos h5]
      refine ⟨[], _, _, rfl, rfl, fun e => last ?_ (by omega)⟩
      rw [h5]; exact e
    rw [if_neg h5, if_neg h5]
    by_cases h8 : p.length + x.length ≤ 8
    · rw [if_pos h8, if_pos h8]
      exact ⟨[word32 (p ++ x) 0], _, _, rfl, by rw [pre 0 (by omega)]; rfl, fun e => last e (by omega)⟩
    · rw [if_neg h8, if_neg h8]
      exact ⟨[word32 (p ++ x) 0, word32 (p ++ x) 4, word32 (p ++ x) (p.length + x.length - 8)], _, _, rfl,
        by rw [pre 0 (by omega), pre 4 (by omega), pre (p.length + x.length - 8) (by omega)]; rfl, fun e => last e (by omega)⟩

theorem good64 : Good family64 where
  o1 := by decide
  o2 := by decide
  o4 := by decide
  q1 := by decide
  q2 := by decide
  rA := by decide
  rB := by decide
  s1 := by decide
  s2 := by decide
  s3 := by decide
  bytes := by decide
  width := by decide
  nil := rfl
  words := by
    intro p x y hp hl h0 hx h4
    simp only [family64, List.length_append, ← hl] at hp hx h4 ⊢
    have last : word64 (p ++ x) (p.length + x.length - 8) = word64 (p ++ y) (p.length + x.length - 8) → 8 ≤ p.length + x.length → x = y := by
      intro e h
      apply word_suf p x y 8 hl hx h
      unfold word64 at e
      rw [← le64_of_take (p := (p ++ x).drop _), ← le64_of_take (p := (p ++ y).drop _)] at e
      exact le64_inj (by simp; omega) (by simp; omega) e
    have pre : ∀ i, i + 8 ≤ p.length → word64 (p ++ x) i = word64 (p ++ y) i := by
      intro i hi
      unfold word64 le64
      rw [word_pre p x y 8 i hi]
    have hz : ¬ p.length + x.length = 0 := by omega
    rw [if_neg hz, if_neg hz]
    by_cases h8 : p.length + x.length ≤ 8
    · have : p = [] := List.eq_nil_of_length_eq_zero (by omega)
      subst this
      simp only [List.nil_append, List.length_nil, Nat.zero_add] at h8 ⊢
      by_cases h3 : x.length < 4
      · rw [if_pos h3, if_pos h3]
        refine ⟨[], _, _, rfl, rfl, fun e => ?_⟩
        have e := congrArg BitVec.toNat e
        have b1 := toNat_small x
        have b2 := toNat_small y
        rw [BitVec.toNat_ofNat, BitVec.toNat_ofNat, Nat.mod_eq_of_lt (by omega), Nat.mod_eq_of_lt (by omega)] at e
        exact small_inj hl h0 h3 e
      · rw [if_neg h3, if_neg h3, if_pos h8, if_pos h8]
        refine ⟨[], _, _, rfl, rfl, fun e => ?_⟩
        have e := congrArg BitVec.toNat e
        have b1 := leNat_lt (x.take 4)
        have b2 := leNat_lt (y.take 4)
        have b3 := leNat_lt ((x.drop (x.length - 4)).take 4)
        have b4 := leNat_lt ((y.drop (x.length - 4)).take 4)
        rw [show (x.take 4).length = 4 by simp; omega] at b1
        rw [show (y.take 4).length = 4 by simp; omega] at b2
        rw [show ((x.drop (x.length - 4)).take 4).length = 4 by simp; omega] at b3
        rw [show ((y.drop (x.length - 4)).take 4).length = 4 by simp; omega] at b4
        rw [BitVec.toNat_ofNat, BitVec.toNat_ofNat, Nat.mod_eq_of_lt (by omega), Nat.mod_eq_of_lt (by omega)] at e
        have e1 := leNat_inj (a := x.take 4) (b := y.take 4) (by simp; omega) (by omega)
        have e2 := leNat_inj (a := (x.drop (x.length - 4)).take 4) (b := (y.drop (x.length - 4)).take 4) (by simp; omega) (by omega)
        rw [List.take_of_length_le (by simp; omega), List.take_of_length_le (by simp; omega)] at e2
        have e3 : x.drop 4 = y.drop 4 := by
          have := congrArg (List.drop (4 - (x.length - 4))) e2
          rw [List.drop_drop, List.drop_drop, show x.length - 4 + (4 - (x.length - 4)) = 4 by omega] at this
          exact this
        rw [← List.take_append_drop 4 x, ← List.take_append_drop 4 y, e1, e3]
    have hz : ¬ p.length + x.length < 4 := by omega
    rw [if_neg hz, if_neg hz, if_neg h8, if_neg h8]
    by_cases h16 : p.length + x.length ≤ 16
    · rw [if_pos h16, if_pos h16]
      exact ⟨[word64 (p ++ x) 0], _, _, rfl, by rw [pre 0 (by omega)]; rfl, fun e => last e (by omega)⟩
    · rw [if_neg h16, if_neg h16]
      exact ⟨[word64 (p ++ x) 0, word64 (p ++ x) 8, word64 (p ++ x) (p.length + x.length - 16)], _, _, rfl,
        by rw [pre 0 (by omega), pre 8 (by omega), pre (p.length + x.length - 16) (by omega)]; rfl, fun e => last e (by omega)⟩

end Verif.Lemmas.Gomap
