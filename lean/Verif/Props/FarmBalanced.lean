import Verif.Props.SpookyBalanced
import Verif.Props.Farm

/-!
# C124: FarmHash is balanced over windows of the key, and can be steered
-/

namespace Verif.Props
open Verif
open Verif.Spec.Farm (w32 w64 scramble stir mix2 mix16 fmix mur len5to12 len13to24 long32 hash32 hash32Seed block20 len17to32 len33to64 na shiftMix block16 cityMurmur)
open Verif.Model.Farm (Hash32 Hash32WithSeed Hash64 Hash64WithSeed Hash64WithSeeds Hash128 Hash128WithSeed)
open Verif.Lemmas.Murmur3 (foldl_inj)
open Verif.Spec.Hashf (resultAfter Ok)
open Verif.Model.Hashf (Ext)
open Verif.Spec.HtMain (valueOf)
open SpookyBalanced (W4 bytes32 both second xored)

namespace FarmBalanced

/-! ## Reading a key whose window changes -/

theorem take_out (k : Nat) {x u v y : List U8} (h : u.length = v.length) (i : Nat) (hi : i + k ≤ x.length ∨ x.length + v.length ≤ i) :
    ((x ++ u ++ y).drop i).take k = ((x ++ v ++ y).drop i).take k := by
  rcases hi with hi | hi
  · have e : ∀ t : List U8, ((x ++ t ++ y).drop i).take k = (x.drop i).take k := fun t => by
      rw [List.append_assoc, List.drop_append_of_le_length (by omega), List.take_append_of_le_length (by rw [List.length_drop]; omega)]
    rw [e, e]
  · have e : ∀ t : List U8, t.length = v.length → (x ++ t ++ y).drop i = y.drop (i - (x.length + v.length)) := fun t ht => by
      rw [List.drop_append, List.drop_eq_nil_of_le (by rw [List.length_append, ht]; exact hi), List.nil_append, List.length_append, ht]
    rw [e u h, e v rfl]

theorem out32 {x u v y : List U8} (h : u.length = v.length) (i : Nat) (hi : i + 4 ≤ x.length ∨ x.length + v.length ≤ i) :
    w32 (x ++ u ++ y) i = w32 (x ++ v ++ y) i := by
  unfold w32 le32
  rw [take_out 4 h i hi]

theorem out64 {x u v y : List U8} (h : u.length = v.length) (i : Nat) (hi : i + 8 ≤ x.length ∨ x.length + v.length ≤ i) :
    w64 (x ++ u ++ y) i = w64 (x ++ v ++ y) i := by
  unfold w64 le64
  rw [take_out 8 h i hi]

theorem in_take (k : Nat) {x u y : List U8} (i j : Nat) (hi : i = x.length + j) (h : j + k ≤ u.length) : ((x ++ u ++ y).drop i).take k = (u.drop j).take k := by
  rw [hi, List.append_assoc, List.drop_length_add_append, List.drop_append_of_le_length (by omega), List.take_append_of_le_length (by rw [List.length_drop]; omega)]

theorem in32 {x u y : List U8} (i j : Nat) (hi : i = x.length + j) (h : j + 4 ≤ u.length) : w32 (x ++ u ++ y) i = w32 u j := by
  unfold w32 le32
  rw [in_take 4 i j hi h]

theorem in64 {x u y : List U8} (i j : Nat) (hi : i = x.length + j) (h : j + 8 ≤ u.length) : w64 (x ++ u ++ y) i = w64 u j := by
  unfold w64 le64
  rw [in_take 8 i j hi h]

theorem w32_take {u v : List U8} {i : Nat} (hu : i + 4 ≤ u.length) (hv : i + 4 ≤ v.length) (h : w32 u i = w32 v i) : (u.drop i).take 4 = (v.drop i).take 4 :=
  word_inj (w := 32) (n := 4) rfl (by rw [List.length_take, List.length_drop]; omega) (by rw [List.length_take, List.length_drop]; omega) h

theorem w64_take {u v : List U8} {i : Nat} (hu : i + 8 ≤ u.length) (hv : i + 8 ≤ v.length) (h : w64 u i = w64 v i) : (u.drop i).take 8 = (v.drop i).take 8 :=
  word_inj (w := 64) (n := 8) rfl (by rw [List.length_take, List.length_drop]; omega) (by rw [List.length_take, List.length_drop]; omega) h

theorem w32_inj {u v : List U8} (hu : u.length = 4) (hv : v.length = 4) (h : w32 u 0 = w32 v 0) : u = v := by
  have := w32_take (i := 0) (by omega) (by omega) h
  rwa [List.drop_zero, List.drop_zero, List.take_of_length_le (by omega), List.take_of_length_le (by omega)] at this

theorem w64_inj {u v : List U8} (hu : u.length = 8) (hv : v.length = 8) (h : w64 u 0 = w64 v 0) : u = v := by
  have := w64_take (i := 0) (by omega) (by omega) h
  rwa [List.drop_zero, List.drop_zero, List.take_of_length_le (by omega), List.take_of_length_le (by omega)] at this

theorem cut (k : Nat) (u : List U8) (i : Nat) : u.drop i = (u.drop i).take k ++ u.drop (i + k) := by
  rw [← List.drop_drop, List.take_append_drop]

/-! ## Every step is one-to-one -/

theorem fmix_inj {a b : U32} (h : fmix a = fmix b) : a = b := by
  rw [← Lemmas.Farm.fmix_eq, ← Lemmas.Farm.fmix_eq] at h
  exact (C47_bijections32 0).1.1 h

theorem mur_state {a x y : U32} (h : mur a x = mur a y) : x = y := by
  rw [← Lemmas.Farm.mur_eq, ← Lemmas.Farm.mur_eq] at h
  exact (C47_bijections32 a).2.1.1 h

theorem mur_word {a x y : U32} (h : mur x a = mur y a) : x = y := by
  rw [← Lemmas.Farm.mur_eq, ← Lemmas.Farm.mur_eq] at h
  exact (C47_bijections32 a).2.2.1 h

theorem stir_inj {a b : U32} (h : stir a = stir b) : a = b := by
  unfold stir at h
  exact rotateRight_inj (by decide) (mul_inj_of_odd (by decide) (add_right_inj' h))

theorem scramble_inj {a b : U32} (h : scramble a = scramble b) : a = b := by
  unfold scramble at h
  exact mul_inj_of_odd (by decide) (rotateRight_inj (by decide) (mul_inj_of_odd (by decide) h))

theorem xl {w : Nat} {a b c : BitVec w} (h : a ^^^ b = a ^^^ c) : b = c := by
  rw [BitVec.xor_comm a b, BitVec.xor_comm a c] at h
  exact xor_right_inj' h

theorem al {w : Nat} {a b c : BitVec w} (h : a + b = a + c) : b = c := SpookyBalanced.add_left_inj' h

theorem shiftMix_inj {a b : U64} (h : shiftMix a = shiftMix b) : a = b := xorshiftR_inj (by decide) h

theorem mix2_inj {u u' v mul : U64} (hm : mul.toNat % 2 = 1) (h : mix2 u v mul = mix2 u' v mul) : u = u' := by
  rw [← Lemmas.Farm.mul_eq, ← Lemmas.Farm.mul_eq] at h
  exact farm_mul_inj hm h

theorem mix16_inj {u u' v : U64} (h : mix16 u v = mix16 u' v) : u = u' := mix2_inj (by decide) h

/-! ## 32 bits, short keys -/

theorem e5 {u v y : List U8} (seed : U32) (hu : u.length = 4) (hv : v.length = 4) (h4 : 4 ≤ y.length) (h : len5to12 (u ++ y) seed = len5to12 (v ++ y) seed) : u = v := by
  have hl : ∀ t : List U8, t.length = 4 → (t ++ y).length = 4 + y.length := fun t ht => by rw [List.length_append, ht]
  have o : ∀ i, 4 ≤ i → w32 (u ++ y) i = w32 (v ++ y) i := fun i hi => out32 (x := []) (hu.trans hv.symm) i (.inr (by rw [hv]; simpa using hi))
  simp only [len5to12, hl u hu, hl v hv, o (4 + y.length - 4) (by omega), if_pos (show 8 ≤ 4 + y.length by omega), o 4 (by omega)] at h
  have h0 := al (mur_word (mur_state (mur_state (xl (fmix_inj h)))))
  rw [show w32 (u ++ y) 0 = w32 u 0 from in32 (x := []) 0 0 rfl (by omega), show w32 (v ++ y) 0 = w32 v 0 from in32 (x := []) 0 0 rfl (by omega)] at h0
  exact w32_inj hu hv h0

theorem e13 {u v y : List U8} (seed : U32) (hu : u.length = 4) (hv : v.length = 4) (h4 : 12 ≤ y.length) (h : len13to24 (u ++ y) seed = len13to24 (v ++ y) seed) : u = v := by
  have hl : ∀ t : List U8, t.length = 4 → (t ++ y).length = 4 + y.length := fun t ht => by rw [List.length_append, ht]
  have o : ∀ i, 4 ≤ i → w32 (u ++ y) i = w32 (v ++ y) i := fun i hi => out32 (x := []) (hu.trans hv.symm) i (.inr (by rw [hv]; simpa using hi))
  simp only [len13to24, hl u hu, hl v hv, o (4 + y.length - 4) (by omega), o (4 + y.length - 8) (by omega), o ((4 + y.length) / 2) (by omega),
    o ((4 + y.length) / 2 - 4) (by omega), o 4 (by omega)] at h
  have h0 := mur_word (add_right_inj' (mur_state (add_right_inj' (fmix_inj h))))
  rw [show w32 (u ++ y) 0 = w32 u 0 from in32 (x := []) 0 0 rfl (by omega), show w32 (v ++ y) 0 = w32 v 0 from in32 (x := []) 0 0 rfl (by omega)] at h0
  exact w32_inj hu hv h0

theorem h5 {m : List U8} (h1 : 4 < m.length) (h2 : m.length ≤ 12) (seed : U32) : hash32 m = len5to12 m 0#32 ∧ hash32Seed m seed = len5to12 m seed := by
  unfold hash32 hash32Seed
  rw [if_neg (by omega), if_pos h2, if_neg (by omega), if_pos h2]
  exact ⟨rfl, rfl⟩

theorem h13 {m : List U8} (h1 : 12 < m.length) (h2 : m.length ≤ 24) (seed : U32) : hash32 m = len13to24 m 0#32 ∧ hash32Seed m seed = len13to24 m (seed * Spec.Farm.c1) := by
  unfold hash32 hash32Seed
  rw [if_neg (by omega), if_neg (by omega), if_pos h2, if_neg (by omega), if_neg (by omega), if_pos h2]
  exact ⟨rfl, rfl⟩

theorem h25 {m : List U8} (h1 : 24 < m.length) (seed : U32) : hash32 m = long32 m ∧
    hash32Seed m seed = mur (hash32 (m.drop 24) + seed) (len13to24 (m.take 24) (seed ^^^ BitVec.ofNat 32 m.length)) := by
  constructor
  · unfold hash32
    rw [if_neg (by omega), if_neg (by omega), if_neg (by omega)]
  · unfold hash32Seed
    rw [if_neg (by omega), if_neg (by omega), if_neg (by omega)]

theorem e32 {u v y : List U8} (hu : u.length = 4) (hv : v.length = 4) (hy : 4 ≤ y.length ∧ y.length ≤ 8 ∨ 12 ≤ y.length ∧ y.length ≤ 20)
    (h : hash32 (u ++ y) = hash32 (v ++ y)) : u = v := by
  have hl : ∀ t : List U8, t.length = 4 → (t ++ y).length = 4 + y.length := fun t ht => by rw [List.length_append, ht]
  have lu := hl u hu
  have lv := hl v hv
  rcases hy with hy | hy
  · rw [(h5 (m := u ++ y) (by omega) (by omega) 0#32).1, (h5 (m := v ++ y) (by omega) (by omega) 0#32).1] at h
    exact e5 _ hu hv hy.1 h
  · rw [(h13 (m := u ++ y) (by omega) (by omega) 0#32).1, (h13 (m := v ++ y) (by omega) (by omega) 0#32).1] at h
    exact e13 _ hu hv hy.1 h

theorem e32s {u v y : List U8} (seed : U32) (hu : u.length = 4) (hv : v.length = 4) (hy : 4 ≤ y.length ∧ y.length ≤ 8 ∨ 12 ≤ y.length)
    (h : hash32Seed (u ++ y) seed = hash32Seed (v ++ y) seed) : u = v := by
  have hl : ∀ t : List U8, t.length = 4 → (t ++ y).length = 4 + y.length := fun t ht => by rw [List.length_append, ht]
  have lu := hl u hu
  have lv := hl v hv
  rcases hy with hy | hy
  · rw [(h5 (m := u ++ y) (by omega) (by omega) seed).2, (h5 (m := v ++ y) (by omega) (by omega) seed).2] at h
    exact e5 _ hu hv hy.1 h
  · by_cases hs : 4 + y.length ≤ 24
    · rw [(h13 (m := u ++ y) (by omega) (by omega) seed).2, (h13 (m := v ++ y) (by omega) (by omega) seed).2] at h
      exact e13 _ hu hv hy h
    · have hd : ∀ t : List U8, t.length = 4 → (t ++ y).drop 24 = y.drop 20 ∧ (t ++ y).take 24 = t ++ y.take 20 := fun t ht => by
        rw [List.drop_append, List.take_append, ht, List.drop_eq_nil_of_le (by omega), List.take_of_length_le (by omega)]
        exact ⟨rfl, rfl⟩
      rw [(h25 (m := u ++ y) (by omega) seed).2, (h25 (m := v ++ y) (by omega) seed).2, (hd u hu).1, (hd v hv).1, (hd u hu).2, (hd v hv).2, lu, lv] at h
      exact e13 _ hu hv (by rw [List.length_take]; omega) (mur_state h)

/-! ## 32 bits, long keys whose length is a multiple of 20 -/

theorem block20_inj (m : List U8) (o : Nat) (s t : U32 × U32 × U32) (h : block20 m o s = block20 m o t) : s = t := by
  obtain ⟨s1, s2, s3⟩ := s
  obtain ⟨t1, t2, t3⟩ := t
  simp only [block20, Prod.mk.injEq] at h
  obtain ⟨h1, h2, h3⟩ := h
  have e1 := add_right_inj' (mur_state (add_right_inj' h1))
  rw [h3] at h2
  have e2' := add_right_inj' h2
  have e2 := add_right_inj' (mur_state (add_right_inj' e2'))
  subst e2
  have e3 := add_right_inj' (mur_state (add_right_inj' (add_right_inj' h3)))
  subst e1 e3
  rfl

/-- The words before the loop, for a key of `n` bytes whose last 20 are `u`. -/
def begin20 (n : Nat) (u : List U8) : U32 × U32 × U32 :=
  (stir (stir (BitVec.ofNat 32 n ^^^ scramble (w32 u 16)) ^^^ scramble (w32 u 4)),
   stir (stir (Spec.Farm.c1 * BitVec.ofNat 32 n ^^^ scramble (w32 u 12)) ^^^ scramble (w32 u 8)),
   (Spec.Farm.c1 * BitVec.ofNat 32 n + scramble (w32 u 0)).rotateRight 19 + 113#32)

/-- The loop on the other bytes. -/
def loop20 (x : List U8) (s : U32 × U32 × U32) : U32 × U32 × U32 :=
  (List.range (x.length / 20)).foldl (fun v i => block20 x (20 * i) v) s

def end20 (v : U32 × U32 × U32) : U32 :=
  (stir ((stir (v.1 + (v.2.1.rotateRight 11 * Spec.Farm.c1).rotateRight 17 * Spec.Farm.c1)).rotateRight 17 * Spec.Farm.c1 +
    (v.2.2.rotateRight 11 * Spec.Farm.c1).rotateRight 17 * Spec.Farm.c1)).rotateRight 17 * Spec.Farm.c1

theorem foldl_range_congr {α : Type} (f g : α → Nat → α) (n : Nat) (h : ∀ i, i < n → ∀ a, f a i = g a i) (a : α) :
    (List.range n).foldl f a = (List.range n).foldl g a := by
  induction n with
  | zero => rfl
  | succ n ih =>
    rw [List.range_succ, List.foldl_append, List.foldl_append, ih fun i hi => h i (by omega)]
    exact h n (by omega) _

theorem long20 {x u : List U8} (hx : x.length % 20 = 0) (h20 : 20 ≤ x.length) (hu : u.length = 20) :
    hash32 (x ++ u) = end20 (loop20 x (begin20 (x.length + 20) u)) := by
  have hl : (x ++ u).length = x.length + 20 := by rw [List.length_append, hu]
  have e : ∀ j k, j + k = 20 → 4 ≤ k → w32 (x ++ u) (x.length + 20 - k) = w32 u j := fun j k hk h4 => by
    have := in32 (x := x) (u := u) (y := []) (x.length + 20 - k) j (by omega) (by omega)
    rwa [List.append_nil] at this
  rw [(h25 (by omega) 0#32).1]
  simp only [long32, hl, e 16 4 rfl (by omega), e 12 8 rfl (by omega), e 8 12 rfl (by omega), e 4 16 rfl (by omega), e 0 20 rfl (by omega)]
  rw [show (x.length + 20 - 1) / 20 = x.length / 20 by omega]
  rw [foldl_range_congr (fun v i => block20 (x ++ u) (20 * i) v) (fun v i => block20 x (20 * i) v) (x.length / 20)]
  · rfl
  · intro i hi a
    have r : ∀ j, j ≤ 16 → w32 (x ++ u) (20 * i + j) = w32 x (20 * i + j) := fun j hj => by
      unfold w32 le32
      rw [List.drop_append_of_le_length (by omega), List.take_append_of_le_length (by rw [List.length_drop]; omega)]
    have r0 := r 0 (by omega)
    rw [Nat.add_zero] at r0
    simp only [block20, r0, r 4 (by omega), r 8 (by omega), r 12 (by omega), r 16 (by omega)]

/-- The hash and everything needed to find the last 20 bytes again. -/
def all20 (x u : List U8) : U32 × (U32 × U32 × U32 × U32) :=
  let v := loop20 x (begin20 (x.length + 20) u)
  (end20 v, v.2.1, v.2.2, w32 u 4, w32 u 8)

theorem all20_inj {x u v : List U8} (hu : u.length = 20) (hv : v.length = 20) (h : all20 x u = all20 x v) : u = v := by
  simp only [all20, Prod.mk.injEq] at h
  obtain ⟨h0, h1, h2, h4, h8⟩ := h
  have hb : begin20 (x.length + 20) u = begin20 (x.length + 20) v := by
    refine foldl_inj (f := fun v i => block20 x (20 * i) v) (fun i s t h => block20_inj x _ s t h) (List.range (x.length / 20)) ?_
    refine Prod.ext ?_ (Prod.ext h1 h2)
    simp only [end20] at h0
    have h3 := stir_inj (rotateRight_inj (by decide) (mul_inj_of_odd (by decide) h0))
    rw [h2] at h3
    have h5 := stir_inj (rotateRight_inj (by decide) (mul_inj_of_odd (by decide) (add_right_inj' h3)))
    rw [h1] at h5
    exact add_right_inj' h5
  simp only [begin20, Prod.mk.injEq] at hb
  obtain ⟨b1, b2, b3⟩ := hb
  have b1 := stir_inj b1
  have b2 := stir_inj b2
  rw [h4] at b1
  rw [h8] at b2
  have c16 := scramble_inj (xl (stir_inj (xor_right_inj' b1)))
  have c12 := scramble_inj (xl (stir_inj (xor_right_inj' b2)))
  have c0 := scramble_inj (al (rotateRight_inj (by decide) (add_right_inj' b3)))
  have t : ∀ i, i + 4 ≤ 20 → w32 u i = w32 v i → u.drop (i + 4) = v.drop (i + 4) → u.drop i = v.drop i := fun i hi hw hd => by
    rw [cut 4 u i, cut 4 v i, w32_take (by omega) (by omega) hw, hd]
  have d20 : u.drop (16 + 4) = v.drop (16 + 4) := by rw [List.drop_eq_nil_of_le (by omega), List.drop_eq_nil_of_le (by omega)]
  have := t 0 (by omega) c0 (t 4 (by omega) h4 (t 8 (by omega) h8 (t 12 (by omega) c12 (t 16 (by omega) c16 d20))))
  simpa using this

def bytes20 : U32 × (U32 × U32 × U32 × U32) ≃ Fin (256 ^ 20) :=
  let w := words 32 4 rfl
  (w.prodCongr ((w.prodCongr ((w.prodCongr ((w.prodCongr w).trans finProdFinEquiv)).trans finProdFinEquiv)).trans finProdFinEquiv)).trans (finProdFinEquiv.trans (finCongr (by norm_num)))

theorem all20_once (x : List U8) (v : U32 × (U32 × U32 × U32 × U32)) : ∃! u, u.length = 20 ∧ all20 x u = v := by
  obtain ⟨u, h1, h2⟩ := exactly_once 20 bytes20 (fun u => (.ok (all20 x u) : Go _)) (fun u _ => ⟨_, rfl⟩) (fun u v hu hv e => all20_inj hu hv (Except.ok.inj e)) v
  exact ⟨u, ⟨h1.1, Except.ok.inj h1.2⟩, fun y hy => h2 y ⟨hy.1, by rw [← hy.2]⟩⟩

/-! ## 64 bits -/

theorem odd_mul (n : U64) : (Spec.Farm.k2 + n * 2#64).toNat % 2 = 1 := (C47_multipliers_odd n 0 0).1

theorem odd_mul' (n : Nat) : (Spec.Farm.k2 + BitVec.ofNat 64 (n * 2)).toNat % 2 = 1 := by
  rw [BitVec.ofNat_mul]
  exact odd_mul _

theorem na17 {m : List U8} (h1 : 16 < m.length) (h2 : m.length ≤ 32) : na m = len17to32 m := by
  unfold na
  rw [if_neg (by omega), if_pos h2]

theorem na33 {m : List U8} (h1 : 32 < m.length) (h2 : m.length ≤ 64) : na m = len33to64 m := by
  unfold na
  rw [if_neg (by omega), if_neg (by omega), if_pos h2]

theorem e64 {x u v y : List U8} (hu : u.length = 8) (hv : v.length = 8) (hx : x.length = 16 ∧ y.length = 8 ∨ 32 ≤ x.length ∧ x.length ≤ 40 ∧ y.length = 16)
    (h : na (x ++ u ++ y) = na (x ++ v ++ y)) : u = v := by
  have hl : ∀ t : List U8, t.length = 8 → (x ++ t ++ y).length = x.length + 8 + y.length := fun t ht => by rw [List.length_append, List.length_append, ht]
  have o : ∀ i, (i + 8 ≤ x.length ∨ x.length + 8 ≤ i) → w64 (x ++ u ++ y) i = w64 (x ++ v ++ y) i := fun i hi => out64 (hu.trans hv.symm) i (by rw [hv]; exact hi)
  have w : ∀ (i : Nat) (t : List U8), t.length = 8 → i = x.length → w64 (x ++ t ++ y) i = w64 t 0 := fun i t ht hi => in64 i 0 (by omega) (by omega)
  have lu := hl u hu
  have lv := hl v hv
  rcases hx with hx | hx
  · rw [na17 (m := x ++ u ++ y) (by omega) (by omega), na17 (m := x ++ v ++ y) (by omega) (by omega)] at h
    simp only [len17to32, hl u hu, hl v hv, o 0 (by omega), o 8 (by omega), o (x.length + 8 + y.length - 8) (by omega),
      w (x.length + 8 + y.length - 16) u hu (by omega), w (x.length + 8 + y.length - 16) v hv (by omega)] at h
    exact w64_inj hu hv (mul_inj_of_odd (by decide) (al (mix2_inj (odd_mul' _) h)))
  · rw [na33 (m := x ++ u ++ y) (by omega) (by omega), na33 (m := x ++ v ++ y) (by omega) (by omega)] at h
    simp only [len33to64, hl u hu, hl v hv, o 0 (by omega), o 8 (by omega), o 16 (by omega), o 24 (by omega), o (x.length + 8 + y.length - 8) (by omega),
      o (x.length + 8 + y.length - 16) (by omega), o (x.length + 8 + y.length - 32) (by omega),
      w (x.length + 8 + y.length - 24) u hu (by omega), w (x.length + 8 + y.length - 24) v hv (by omega)] at h
    exact w64_inj hu hv (al (mul_inj_of_odd (odd_mul _) (al (mix2_inj (odd_mul _) h))))

/-! ## 128 bits -/

theorem block16_inj (m : List U8) (o : Nat) (s t : W4) (h : block16 m o s = block16 m o t) : s = t := by
  obtain ⟨a, b, c, d⟩ := s
  obtain ⟨a', b', c', d'⟩ := t
  simp only [block16, Prod.mk.injEq] at h
  obtain ⟨h1, h2, h3, h4⟩ := h
  rw [h1] at h2
  rw [h3] at h4
  have e1 := xor_right_inj' (mul_inj_of_odd (by decide) h1)
  have e2 := xor_right_inj' h2
  have e3 := xor_right_inj' (mul_inj_of_odd (by decide) h3)
  have e4 := xor_right_inj' h4
  subst e1 e2 e3 e4
  rfl

theorem word_step {a w w' : U64} (h : (a ^^^ shiftMix (w * Spec.Farm.k1) * Spec.Farm.k1) * Spec.Farm.k1 = (a ^^^ shiftMix (w' * Spec.Farm.k1) * Spec.Farm.k1) * Spec.Farm.k1) : w = w' :=
  mul_inj_of_odd (by decide) (shiftMix_inj (mul_inj_of_odd (by decide) (xl (mul_inj_of_odd (by decide) h))))

/-- Two blocks on four words. -/
theorem two_blocks (s : W4) {m m' : List U8} {o : Nat} (h : block16 m (o + 16) (block16 m o s) = block16 m' (o + 16) (block16 m' o s)) :
    w64 m o = w64 m' o ∧ w64 m (o + 8) = w64 m' (o + 8) ∧ w64 m (o + 16) = w64 m' (o + 16) ∧ w64 m (o + 16 + 8) = w64 m' (o + 16 + 8) := by
  obtain ⟨a, b, c, d⟩ := s
  simp only [block16, Prod.mk.injEq] at h
  obtain ⟨h1, h2, h3, h4⟩ := h
  rw [h1] at h2
  rw [h3] at h4
  have e1 := xl (xor_right_inj' h2)
  have e3 := xl (xor_right_inj' h4)
  rw [e1] at h1
  rw [e3] at h3
  exact ⟨word_step e1, word_step e3, word_step h1, word_step h3⟩

def endCity (t : W4) : W4 :=
  (mix16 t.1 t.2.2.1 ^^^ mix16 t.2.2.2 t.2.1, mix16 (mix16 t.2.2.2 t.2.1) (mix16 t.1 t.2.2.1), t.2.1, t.2.2.1)

theorem endCity_inj (s t : W4) (h : endCity s = endCity t) : s = t := by
  obtain ⟨a, b, c, d⟩ := s
  obtain ⟨a', b', c', d'⟩ := t
  simp only [endCity, Prod.mk.injEq] at h
  obtain ⟨h1, h2, h3, h4⟩ := h
  subst h3 h4
  generalize hA : mix16 a c = A at h1 h2
  generalize hA' : mix16 a' c = A' at h1 h2
  generalize hB : mix16 d b = B at h1 h2
  generalize hB' : mix16 d' b = B' at h1 h2
  have hBB : B = B' := by
    simp only [mix16, mix2] at h2
    rw [BitVec.xor_comm B A, BitVec.xor_comm B' A', h1] at h2
    have h3 := xor_right_inj' (mul_inj_of_odd (by decide) (shiftMix_inj (mul_inj_of_odd (by decide) h2)))
    rw [h3] at h1
    exact xl h1
  subst hBB
  have hAA := xor_right_inj' h1
  subst hAA
  have e1 := mix16_inj (hA.trans hA'.symm)
  have e2 := mix16_inj (hB.trans hB'.symm)
  subst e1 e2
  rfl

theorem bytes_of_words {u v : List U8} (hu : u.length = 32) (hv : v.length = 32) (h0 : w64 u 0 = w64 v 0) (h8 : w64 u 8 = w64 v 8) (h16 : w64 u 16 = w64 v 16)
    (h24 : w64 u 24 = w64 v 24) : u = v := by
  have t : ∀ i, i + 8 ≤ 32 → w64 u i = w64 v i → u.drop (i + 8) = v.drop (i + 8) → u.drop i = v.drop i := fun i hi hw hd => by
    rw [cut 8 u i, cut 8 v i, w64_take (by omega) (by omega) hw, hd]
  have d32 : u.drop (24 + 8) = v.drop (24 + 8) := by rw [List.drop_eq_nil_of_le (by omega), List.drop_eq_nil_of_le (by omega)]
  have := t 0 (by omega) h0 (t 8 (by omega) h8 (t 16 (by omega) h16 (t 24 (by omega) h24 d32)))
  simpa using this

/-- The state before the end of CityMurmur on more than 16 bytes. -/
def stCity (m : List U8) (lo hi : U64) : W4 :=
  let c := mix16 (w64 m (m.length - 8) + Spec.Farm.k1) lo
  let d := mix16 (hi + BitVec.ofNat 64 m.length) (c + w64 m (m.length - 16))
  (List.range ((m.length - 1) / 16)).foldl (fun t i => block16 m (16 * i) t) (lo + d, hi, c, d)

theorem city_eq {m : List U8} (h : 16 < m.length) (lo hi : U64) : cityMurmur m lo hi = ((endCity (stCity m lo hi)).1, (endCity (stCity m lo hi)).2.1) := by
  simp only [cityMurmur, if_neg (show ¬ m.length ≤ 16 by omega), endCity, stCity]

theorem stCity_inj {x u v y : List U8} (lo hi : U64) (hx : x.length % 16 = 0) (hy : 16 ≤ y.length) (hu : u.length = 32) (hv : v.length = 32)
    (h : stCity (x ++ u ++ y) lo hi = stCity (x ++ v ++ y) lo hi) : u = v := by
  have hl : ∀ t : List U8, t.length = 32 → (x ++ t ++ y).length = x.length + 32 + y.length := fun t ht => by rw [List.length_append, List.length_append, ht]
  have o : ∀ i, (i + 8 ≤ x.length ∨ x.length + 32 ≤ i) → w64 (x ++ u ++ y) i = w64 (x ++ v ++ y) i := fun i hi => out64 (hu.trans hv.symm) i (by rw [hv]; exact hi)
  simp only [stCity, hl u hu, hl v hv, o (x.length + 32 + y.length - 8) (by omega), o (x.length + 32 + y.length - 16) (by omega)] at h
  generalize (mix16 (w64 (x ++ v ++ y) (x.length + 32 + y.length - 8) + Spec.Farm.k1) lo) = c at h
  generalize mix16 (hi + BitVec.ofNat 64 (x.length + 32 + y.length)) (c + w64 (x ++ v ++ y) (x.length + 32 + y.length - 16)) = d at h
  obtain ⟨i, hi⟩ : ∃ i, x.length = 16 * i := ⟨x.length / 16, by omega⟩
  obtain ⟨r, hr⟩ : ∃ r, (x.length + 32 + y.length - 1) / 16 = (i + 2) + r := ⟨(x.length + 32 + y.length - 1) / 16 - (i + 2), by omega⟩
  rw [hr, List.range_add, List.foldl_append, List.foldl_append, List.foldl_map, List.foldl_map] at h
  have hrest : ∀ s : W4, (List.range r).foldl (fun t j => block16 (x ++ u ++ y) (16 * (i + 2 + j)) t) s = (List.range r).foldl (fun t j => block16 (x ++ v ++ y) (16 * (i + 2 + j)) t) s := fun s =>
    foldl_range_congr _ _ r (fun j hj a => by simp only [block16, o (16 * (i + 2 + j)) (by omega), o (16 * (i + 2 + j) + 8) (by omega)]) s
  rw [hrest] at h
  have h1 := foldl_inj (f := fun t j => block16 (x ++ v ++ y) (16 * (i + 2 + j)) t) (fun j s t h => block16_inj _ _ s t h) (List.range r) h
  rw [List.range_succ, List.range_succ, List.foldl_append, List.foldl_append, List.foldl_append, List.foldl_append, List.foldl_cons, List.foldl_cons, List.foldl_cons,
    List.foldl_cons, List.foldl_nil, List.foldl_nil, List.foldl_nil, List.foldl_nil,
    foldl_range_congr (fun t j => block16 (x ++ u ++ y) (16 * j) t) (fun t j => block16 (x ++ v ++ y) (16 * j) t) i
      (fun j hj a => by simp only [block16, o (16 * j) (by omega), o (16 * j + 8) (by omega)]), show 16 * (i + 1) = 16 * i + 16 by omega] at h1
  obtain ⟨h0, h8, h16, h24⟩ := two_blocks _ h1
  have w : ∀ (k j : Nat) (t : List U8), t.length = 32 → k = 16 * i + j → j + 8 ≤ 32 → w64 (x ++ t ++ y) k = w64 t j := fun k j t ht hk hj => in64 k j (by omega) (by omega)
  rw [w (16 * i) 0 u hu rfl (by omega), w (16 * i) 0 v hv rfl (by omega)] at h0
  rw [w _ 8 u hu rfl (by omega), w _ 8 v hv rfl (by omega)] at h8
  rw [w _ 16 u hu rfl (by omega), w _ 16 v hv rfl (by omega)] at h16
  rw [w (16 * i + 16 + 8) 24 u hu (by omega) (by omega), w (16 * i + 16 + 8) 24 v hv (by omega) (by omega)] at h24
  exact bytes_of_words hu hv h0 h8 h16 h24

theorem city_once (x y : List U8) (lo hi : U64) (hx : x.length % 16 = 0) (hy : 16 ≤ y.length) (v : W4) :
    ∃! u, u.length = 32 ∧ endCity (stCity (x ++ u ++ y) lo hi) = v := by
  obtain ⟨u, h1, h2⟩ := exactly_once 32 bytes32 (fun u => (.ok (endCity (stCity (x ++ u ++ y) lo hi)) : Go W4)) (fun u _ => ⟨_, rfl⟩)
    (fun u v hu hv e => stCity_inj lo hi hx hy hu hv (endCity_inj _ _ (Except.ok.inj e))) v
  exact ⟨u, ⟨h1.1, Except.ok.inj h1.2⟩, fun y hy => h2 y ⟨hy.1, by rw [← hy.2]⟩⟩

end FarmBalanced
open FarmBalanced

/-- C124. Fix everything in a key but its first 4 bytes. If the key has 8 to 12 or 16 to 24 bytes, each value of `Hash32` is the hash of exactly one content of these bytes;
with a seed (`Hash32WithSeed`) also for every key of more than 24 bytes. -/
theorem C124_hash32 (y : List U8) (seed v : U32) :
    (4 ≤ y.length ∧ y.length ≤ 8 ∨ 12 ≤ y.length ∧ y.length ≤ 20 → ∃! u, u.length = 4 ∧ Hash32 (u ++ y) = .ok v) ∧
    (4 ≤ y.length ∧ y.length ≤ 8 ∨ 12 ≤ y.length → ∃! u, u.length = 4 ∧ Hash32WithSeed (u ++ y) seed = .ok v) := by
  constructor
  · intro hy
    refine exactly_once 4 (words 32 4 rfl) (fun u => Hash32 (u ++ y)) (fun u _ => ⟨_, (C45_farm _ 0 0 0).1⟩) (fun u v hu hv h => ?_) v
    rw [(C45_farm _ 0 0 0).1, (C45_farm _ 0 0 0).1] at h
    exact e32 hu hv hy (Except.ok.inj h)
  · intro hy
    refine exactly_once 4 (words 32 4 rfl) (fun u => Hash32WithSeed (u ++ y) seed) (fun u _ => ⟨_, (C45_farm _ seed 0 0).2.1⟩) (fun u v hu hv h => ?_) v
    rw [(C45_farm _ seed 0 0).2.1, (C45_farm _ seed 0 0).2.1] at h
    exact e32s seed hu hv hy (Except.ok.inj h)

/-- C124. Fix everything but the last 20 bytes of a key whose length is a multiple of 20 and at least 40: each value of `Hash32` is the hash of exactly 2^128 contents. -/
theorem C124_hash32_long (x : List U8) (hx : x.length % 20 = 0) (h20 : 20 ≤ x.length) (v : U32) :
    {u | u.length = 20 ∧ Hash32 (x ++ u) = .ok v}.ncard = 2 ^ 128 := by
  have h1 := count_part 20 (all20 x) (all20_once x) (Equiv.refl _) v
  rw [Nat.card_prod, Nat.card_prod, Nat.card_prod, card_word, ← Nat.pow_add, ← Nat.pow_add, ← Nat.pow_add] at h1
  rw [← h1]
  congr 1
  ext u
  simp only [Set.mem_ofPred_eq]
  refine and_congr_right fun hu => ?_
  rw [(C45_farm _ 0 0 0).1, long20 hx h20 hu]
  exact ⟨fun e => Except.ok.inj e, fun e => congrArg Except.ok e⟩

/-- C124. Fix everything in a key but 8 bytes: bytes 16 to 23 of a key of 32 bytes, or the 8 bytes that end 16 bytes before the end of a key of 56 to 64 bytes. Each value of
`Hash64`, of `Hash64WithSeed` and of `Hash64WithSeeds` is the hash of exactly one content of these bytes. -/
theorem C124_hash64 (x y : List U8) (hx : x.length = 16 ∧ y.length = 8 ∨ 32 ≤ x.length ∧ x.length ≤ 40 ∧ y.length = 16) (seed seed' v : U64) :
    (∃! u, u.length = 8 ∧ Hash64 (x ++ u ++ y) = .ok v) ∧
    (∃! u, u.length = 8 ∧ Hash64WithSeed (x ++ u ++ y) seed = .ok v) ∧
    (∃! u, u.length = 8 ∧ Hash64WithSeeds (x ++ u ++ y) seed seed' = .ok v) := by
  have hl : ∀ t : List U8, t.length = 8 → (x ++ t ++ y).length ≤ 64 := fun t ht => by rw [List.length_append, List.length_append, ht]; omega
  have i : ∀ u v : List U8, u.length = 8 → v.length = 8 → Hash64 (x ++ u ++ y) = Hash64 (x ++ v ++ y) → u = v := by
    intro u v hu hv h
    rw [(C45_farm _ 0 0 0).2.2.1, (C45_farm _ 0 0 0).2.2.1] at h
    have h := Except.ok.inj h
    unfold Spec.Farm.hash64 at h
    rw [if_pos (hl u hu), if_pos (hl v hv)] at h
    exact e64 hu hv hx h
  exact ⟨exactly_once 8 (words 64 8 rfl) (fun u => Hash64 (x ++ u ++ y)) (fun u _ => ⟨_, (C45_farm _ 0 0 0).2.2.1⟩) i v,
    exactly_once 8 (words 64 8 rfl) (fun u => Hash64WithSeed (x ++ u ++ y) seed) (fun u _ => ⟨_, (C45_farm _ 0 seed 0).2.2.2.1⟩)
      (fun u v hu hv h => i u v hu hv ((C46_seed64 _ _ (hl u hu) (hl v hv) seed).1 h)) v,
    exactly_once 8 (words 64 8 rfl) (fun u => Hash64WithSeeds (x ++ u ++ y) seed seed') (fun u _ => ⟨_, (C45_farm _ 0 seed seed').2.2.2.2.1⟩)
      (fun u v hu hv h => i u v hu hv ((C46_seeds64 _ _ (hl u hu) (hl v hv) seed seed').1 h)) v⟩

theorem seed128 {x u y : List U8} (hy : 16 ≤ y.length) (hl : x.length + 32 + y.length < 128) (hu : u.length = 32) (lo hi : U64) :
    Spec.Farm.hash128Seed (x ++ u ++ y) lo hi = ((endCity (stCity (x ++ u ++ y) lo hi)).1, (endCity (stCity (x ++ u ++ y) lo hi)).2.1) := by
  have hl' : (x ++ u ++ y).length = x.length + 32 + y.length := by rw [List.length_append, List.length_append, hu]
  unfold Spec.Farm.hash128Seed
  rw [if_pos (by omega), city_eq (by omega)]

theorem plain128 {x : List U8} (h16 : 16 ≤ x.length) : ∃ lo hi, ∀ u y : List U8,
    Spec.Farm.hash128 (x ++ u ++ y) = Spec.Farm.hash128Seed (x.drop 16 ++ u ++ y) lo hi := by
  refine ⟨w64 x 0, w64 x 8 + Spec.Farm.k0, fun u y => ?_⟩
  have w : ∀ i, i + 8 ≤ x.length → w64 (x ++ u ++ y) i = w64 x i := fun i hi => by
    unfold w64 le64
    rw [List.append_assoc, List.drop_append_of_le_length (by omega), List.take_append_of_le_length (by rw [List.length_drop]; omega)]
  unfold Spec.Farm.hash128
  rw [if_pos (by rw [List.length_append, List.length_append]; omega), w 0 (by omega), w 8 (by omega), List.append_assoc, List.drop_append_of_le_length h16, ← List.append_assoc]

/-- C124. Fix everything in a key of fewer than 128 bytes but 32 bytes that start at a multiple of 16 and end at least 16 bytes before the end. Each pair of words is the value of
`Hash128WithSeed` for exactly 2^128 contents; each first word, each second word and each xor of the two for exactly 2^192. -/
theorem C124_hash128Seed (x y : List U8) (hx : x.length % 16 = 0) (hy : 16 ≤ y.length) (hl : x.length + 32 + y.length < 128) (lo hi a b v : U64) :
    {u | u.length = 32 ∧ Hash128WithSeed (x ++ u ++ y) lo hi = .ok (a, b)}.ncard = 2 ^ 128 ∧
    {u | u.length = 32 ∧ ∃ b, Hash128WithSeed (x ++ u ++ y) lo hi = .ok (v, b)}.ncard = 2 ^ 192 ∧
    {u | u.length = 32 ∧ ∃ a, Hash128WithSeed (x ++ u ++ y) lo hi = .ok (a, v)}.ncard = 2 ^ 192 ∧
    {u | u.length = 32 ∧ ∃ a b, Hash128WithSeed (x ++ u ++ y) lo hi = .ok (a, b) ∧ a ^^^ b = v}.ncard = 2 ^ 192 := by
  have c3 : Nat.card (U64 × U64 × U64) = 2 ^ 192 := by rw [Nat.card_prod, Nat.card_prod, card_word, ← Nat.pow_add, ← Nat.pow_add]
  have c2 : Nat.card (U64 × U64) = 2 ^ 128 := by rw [Nat.card_prod, card_word, ← Nat.pow_add]
  have ev : ∀ u : List U8, u.length = 32 → Hash128WithSeed (x ++ u ++ y) lo hi =
      .ok ((endCity (stCity (x ++ u ++ y) lo hi)).1, (endCity (stCity (x ++ u ++ y) lo hi)).2.1) := fun u hu => by
    rw [(C45_farm _ 0 lo hi).2.2.2.2.2.2, seed128 hy hl hu]
  have go : ∀ {γ β : Type} (Q : W4 ≃ β × γ) (w : β) (S : List U8 → Prop), (∀ u, u.length = 32 → (S u ↔ (Q (endCity (stCity (x ++ u ++ y) lo hi))).1 = w)) →
      {u | u.length = 32 ∧ S u}.ncard = Nat.card γ := fun Q w S hS => by
    rw [← count_part 32 (fun u => endCity (stCity (x ++ u ++ y) lo hi)) (city_once x y lo hi hx hy) Q w]
    congr 1
    ext u
    simp only [Set.mem_ofPred_eq]
    exact and_congr_right fun hu => hS u hu
  refine ⟨?_, ?_, ?_, ?_⟩
  · rw [← c2]
    refine go both (a, b) _ fun u hu => ?_
    rw [ev u hu]
    exact ⟨fun e => Except.ok.inj e, fun e => congrArg Except.ok e⟩
  · rw [← c3]
    refine go (Equiv.refl _) v _ fun u hu => ?_
    rw [ev u hu]
    exact ⟨fun ⟨_, e⟩ => congrArg Prod.fst (Except.ok.inj e), fun e => ⟨_, congrArg (fun b => Except.ok (b, _)) e⟩⟩
  · rw [← c3]
    refine go second v _ fun u hu => ?_
    rw [ev u hu]
    exact ⟨fun ⟨_, e⟩ => congrArg Prod.snd (Except.ok.inj e), fun e => ⟨_, congrArg (fun b => Except.ok (_, b)) e⟩⟩
  · rw [← c3]
    refine go xored v _ fun u hu => ?_
    rw [ev u hu]
    constructor
    · rintro ⟨a, b, e, hv⟩
      have e := Except.ok.inj e
      obtain ⟨rfl, rfl⟩ := Prod.mk.inj e
      exact hv
    · intro e
      exact ⟨_, _, rfl, e⟩

/-- C124. The same for `Hash128`, whose first 16 bytes are the seed: windows that start at a multiple of 16, but not at 0, in keys of at most 143 bytes. -/
theorem C124_hash128 (x y : List U8) (hx : x.length % 16 = 0) (h16 : 16 ≤ x.length) (hy : 16 ≤ y.length) (hl : x.length + 32 + y.length < 144) (a b v : U64) :
    {u | u.length = 32 ∧ Hash128 (x ++ u ++ y) = .ok (a, b)}.ncard = 2 ^ 128 ∧
    {u | u.length = 32 ∧ ∃ b, Hash128 (x ++ u ++ y) = .ok (v, b)}.ncard = 2 ^ 192 ∧
    {u | u.length = 32 ∧ ∃ a, Hash128 (x ++ u ++ y) = .ok (a, v)}.ncard = 2 ^ 192 ∧
    {u | u.length = 32 ∧ ∃ a b, Hash128 (x ++ u ++ y) = .ok (a, b) ∧ a ^^^ b = v}.ncard = 2 ^ 192 := by
  obtain ⟨lo, hi, h⟩ := plain128 h16
  have e : ∀ u : List U8, Hash128 (x ++ u ++ y) = Hash128WithSeed (x.drop 16 ++ u ++ y) lo hi := fun u => by
    rw [(C45_farm _ 0 0 0).2.2.2.2.2.1, (C45_farm _ 0 lo hi).2.2.2.2.2.2, h]
  simp only [e]
  exact C124_hash128Seed (x.drop 16) y (by rw [List.length_drop]; omega) hy (by rw [List.length_drop]; omega) lo hi a b v

/-! ## Flooding -/

/-- Different keys with one value, from a window that reaches it after every prefix. -/
theorem prefix_keys {α : Type} (p b : Nat) (y : List U8) (f : List U8 → α) (v : α) (onto : ∀ x : List U8, x.length = p → ∃ u, u.length = b ∧ f (x ++ u ++ y) = v) (n : Nat)
    (hlt : n ≤ 256 ^ p) : ∃ ks : List (List U8), ks.Nodup ∧ ks.length = n ∧ (∀ k ∈ ks, k.length = p + b + y.length) ∧ ∀ k ∈ ks, f k = v := by
  have hp : ∀ i, (leBytes p i).length = p := fun i => leBytes_length _ _
  choose g hg using fun i => onto (leBytes p i) (hp i)
  refine ⟨(List.range n).map (fun i => leBytes p i ++ g i ++ y), ?_, by simp, ?_, ?_⟩
  · apply List.Nodup.map_on _ List.nodup_range
    intro i hi j hj h
    rw [List.mem_range] at hi hj
    rw [List.append_assoc, List.append_assoc] at h
    have h1 := List.append_inj_left h ((hp i).trans (hp j).symm)
    have h2 := congrArg leNat h1
    rw [leNat_leBytes, leNat_leBytes, Nat.mod_eq_of_lt (by omega), Nat.mod_eq_of_lt (by omega)] at h2
    exact h2
  · intro k hk
    obtain ⟨i, _, rfl⟩ := List.mem_map.1 hk
    rw [List.length_append, List.length_append, hp, (hg i).1]
  · intro k hk
    obtain ⟨i, _, rfl⟩ := List.mem_map.1 hk
    exact (hg i).2

/-- Name, number of free bytes and length of the colliding keys. -/
def farmKeys (m : Nat) : List (String × Nat × Nat) :=
  [("FarmHash32", 20 * (m + 1), 20 * (m + 2)), ("FarmHash64", 40, 64), ("FarmHash128-high", 80, 128), ("FarmHash128-low", 80, 128), ("FarmHash128-xor", 80, 128)]

/-- C124. Under each of these names up to `256^p` different keys of one length have the same hash in `Hashf`, for every seed at once and whatever was hashed before. -/
theorem C124_collisions (e : Ext) (he : Ok e) (name : String) (p len m n : Nat) (hname : (name, p, len) ∈ farmKeys m) (hn : n ≤ 256 ^ p) :
    ∃ ks : List (List U8), ks.Nodup ∧ ks.length = n ∧ (∀ k ∈ ks, k.length = len) ∧
      ∃ h, ∀ k ∈ ks, ∀ seed hist, resultAfter e hist name k seed = .ok h := by
  have one : ∀ (i : Nat) (f : List U8 → U64), (Spec.Hashf.table e)[i]? = some (name, fun k _ => some (f k)) → ∀ b y, len = p + b + List.length y →
      (∀ x : List U8, x.length = p → ∃ u, u.length = b ∧ f (x ++ u ++ y) = 0#64) →
      ∃ ks : List (List U8), ks.Nodup ∧ ks.length = n ∧ (∀ k ∈ ks, k.length = len) ∧ ∃ h, ∀ k ∈ ks, ∀ seed hist, resultAfter e hist name k seed = .ok h := by
    intro i f hi b y hlen onto
    obtain ⟨ks, h1, h2, h3, h4⟩ := prefix_keys p b y f 0#64 onto n hn
    exact ⟨ks, h1, h2, fun k hk => (h3 k hk).trans hlen.symm, 0#64, fun k hk seed hist => value e he hist k seed i hi (congrArg some (h4 k hk))⟩
  have city : ∀ x : List U8, x.length = 80 → ∀ a b : U64, ∃ u, u.length = 32 ∧ Spec.Farm.hash128 (x ++ u ++ List.replicate 16 0#8) = (a, b) := by
    intro x hx a b
    obtain ⟨lo, hi, h⟩ := plain128 (x := x) (by omega)
    obtain ⟨u, hu, _⟩ := city_once (x.drop 16) (List.replicate 16 0#8) lo hi (by rw [List.length_drop]; omega) (by rw [List.length_replicate]) (a, b, 0#64, 0#64)
    refine ⟨u, hu.1, ?_⟩
    rw [h, seed128 (by rw [List.length_replicate]) (by rw [List.length_drop, List.length_replicate]; omega) hu.1, hu.2]
  simp only [farmKeys, List.mem_cons, List.not_mem_nil, or_false, Prod.mk.injEq] at hname
  rcases hname with ⟨rfl, rfl, rfl⟩ | ⟨rfl, rfl, rfl⟩ | ⟨rfl, rfl, rfl⟩ | ⟨rfl, rfl, rfl⟩ | ⟨rfl, rfl, rfl⟩
  · refine one 27 _ rfl 20 [] (by rw [List.length_nil]; omega) fun x hx => ?_
    obtain ⟨u, hu, _⟩ := all20_once x (0#32, 0#32, 0#32, 0#32, 0#32)
    refine ⟨u, hu.1, ?_⟩
    rw [List.append_nil, long20 (by omega) (by omega) hu.1]
    exact congrArg Spec.Hashf.wide (congrArg Prod.fst hu.2)
  · refine one 28 _ rfl 8 (List.replicate 16 0#8) rfl fun x hx => ?_
    obtain ⟨u, hu, _⟩ := (C124_hash64 x (List.replicate 16 0#8) (.inr ⟨by omega, by omega, rfl⟩) 0#64 0#64 0#64).1
    exact ⟨u, hu.1, Except.ok.inj ((C45_farm _ 0 0 0).2.2.1.symm.trans hu.2)⟩
  · refine one 29 _ rfl 32 (List.replicate 16 0#8) rfl fun x hx => ?_
    obtain ⟨u, h1, h2⟩ := city x hx 0#64 0#64
    exact ⟨u, h1, congrArg Prod.fst h2⟩
  · refine one 30 _ rfl 32 (List.replicate 16 0#8) rfl fun x hx => ?_
    obtain ⟨u, h1, h2⟩ := city x hx 0#64 0#64
    exact ⟨u, h1, congrArg Prod.snd h2⟩
  · refine one 31 _ rfl 32 (List.replicate 16 0#8) rfl fun x hx => ?_
    obtain ⟨u, h1, h2⟩ := city x hx 0#64 0#64
    refine ⟨u, h1, ?_⟩
    rw [h2]
    rfl

/-- C124. So one and the same list of keys floods every chaining table under these names, whatever its size and seed. -/
theorem C124_flood (e : Ext) (he : Ok e) (name : String) (p len m n : Nat) (hname : (name, p, len) ∈ farmKeys m) (hn : 2 ≤ n) (hm : n ≤ 256 ^ p) :
    ∃ ks : List (List U8), ks.Nodup ∧ ks.length = n ∧ (∀ k ∈ ks, k.length = len) ∧
      ∀ (np : Int → Int) (size seed extra : Int) (pd prime : Bool) (ht0 : HashTable.HT (List U8)),
        HashTable.newHashTable np size seed extra pd false prime = .ok ht0 → 0 < ht0.buckets.length →
        ∃ ht, HashTable.insertAll (HashTable.pureEnv (valueOf (resultAfter e [] name)) (fun _ => true)) () ht0 ks = .ok ((), ht) ∧
          (∃ i : Nat, ht.buckets[i]? = some ks ∧ ∀ j : Nat, j ≠ i → ∀ c, ht.buckets[j]? = some c → c = []) ∧
          2 * ht.dups = n * (n - 1) ∧ ht.heads = 1 ∧ ht.nbuckets = n - 1 ∧ ht.longestChain = n := by
  obtain ⟨ks, h1, h2, h3, h, h4⟩ := C124_collisions e he name p len m n hname hm
  exact ⟨ks, h1, h2, h3, fun np size seed extra pd prime ht0 hnew hpos =>
    flood_of _ np size seed extra pd prime ht0 hnew hpos n hn ks h2 h fun k hk => by simp only [valueOf, h4 k hk _ []]⟩

/-- C124_flood applies to FarmHash64 with a million keys of 64 bytes, and to a table of sixteen buckets. -/
example : ("FarmHash64", 40, 64) ∈ farmKeys 0 ∧ 2 ≤ 1000000 ∧ 1000000 ≤ 256 ^ 40 ∧ Ok exampleExt ∧
    ∃ ht0 : HashTable.HT (List U8), HashTable.newHashTable id 16 5 0 false false false = .ok ht0 ∧ 0 < ht0.buckets.length :=
  ⟨by decide, by decide, by norm_num, exampleExt_ok, _, rfl, by decide⟩

/-- The four bytes that give a key of 20 bytes the hash 0, under any seed. -/
example (y : List U8) (hy : y.length = 16) (seed : U32) : ∃! u, u.length = 4 ∧ Hash32WithSeed (u ++ y) seed = .ok 0#32 :=
  (C124_hash32 y seed 0#32).2 (.inr (by omega))

/-- The windows of a key of 64 bytes, of a key of 60 bytes and of a key of 112 bytes. -/
example (x y : List U8) (hx : x.length = 40) (hy : y.length = 16) : ∃! u, u.length = 8 ∧ Hash64 (x ++ u ++ y) = .ok 0#64 :=
  (C124_hash64 x y (.inr ⟨by omega, by omega, hy⟩) 0 0 0#64).1
example (x : List U8) (hx : x.length = 40) : {u | u.length = 20 ∧ Hash32 (x ++ u) = .ok 7#32}.ncard = 2 ^ 128 :=
  C124_hash32_long x (by omega) (by omega) 7#32
example (x y : List U8) (hx : x.length = 48) (hy : y.length = 32) : {u | u.length = 32 ∧ Hash128 (x ++ u ++ y) = .ok (1#64, 2#64)}.ncard = 2 ^ 128 :=
  (C124_hash128 x y (by omega) (by omega) (by omega) (by omega) 1 2 0).1

end Verif.Props
