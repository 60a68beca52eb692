import Verif.Model.Gomap
import Verif.Spec.Gomap
import Verif.Lemmas.Loop
import Verif.Lemmas.Bits

namespace Verif.Lemmas.Gomap
open Verif Verif.Model.Gomap
open Verif.Spec.Gomap (word32 word64 family32 family64 absorb lane group groupWord combine finish Lanes)

/-! ## 32 bits -/

theorem rA32 (x : U32) : rotl_15 x = x.rotateLeft 15 := rotl_eq x (by decide)
theorem rB32 (x : U32) : rotl_11 x = x.rotateLeft 11 := rotl_eq x (by decide)

theorem load32 (b : List U8) (p k : Nat) (h : k + 4 ≤ (b.drop p).length) : Go.unsafe32 b (p + k) = .ok (word32 (b.drop p) k) := by
  rw [List.length_drop] at h
  rw [Go.unsafe32_eq (by omega), word32, List.drop_drop]

theorem small32 (b : List U8) (p s : Nat) (h : U32) (hs : s = (b.drop p).length) (h0 : s ≠ 0) (h4 : s < 4) :
    (do let w := (← unsafe8 b p).setWidth 32
        let w := w + (← unsafe8 b (p + s >>> 1)).setWidth 32 <<< 8
        let w := w + (← unsafe8 b (p + (s - 1))).setWidth 32 <<< 16
        return h ^^^ w * m1 : Go U32) = .ok (h ^^^ BitVec.ofNat 32 (Spec.Gomap.small (b.drop p)) * m1) := by
  have hb : ∀ k, k < s → ∃ x, b[p + k]? = some x ∧ (b.drop p)[k]? = some x := by
    intro k hk
    rw [List.length_drop] at hs
    exact ⟨b[p + k], by simp, by simp⟩
  obtain ⟨x0, h1, h1'⟩ := hb 0 (by omega)
  obtain ⟨x1, h2, h2'⟩ := hb (s / 2) (by omega)
  obtain ⟨x2, h3, h3'⟩ := hb (s - 1) (by omega)
  have e : s >>> 1 = s / 2 := by rw [Nat.shiftRight_eq_div_pow]
  rw [Nat.add_zero] at h1
  simp only [unsafe8, e, h1, h2, h3, Go.bind_ok, Go.pure_ok, Spec.Gomap.small, ← hs, h1', h2', h3', Option.getD_some]
  have e : x0.setWidth 32 + x1.setWidth 32 <<< 8 + x2.setWidth 32 <<< 16 = BitVec.ofNat 32 (x0.toNat + 256 * x1.toNat + 65536 * x2.toNat) := by
    apply BitVec.eq_of_toNat_eq
    have l0 := x0.isLt
    have l1 := x1.isLt
    have l2 := x2.isLt
    simp only [BitVec.toNat_add, BitVec.toNat_shiftLeft, BitVec.toNat_setWidth, BitVec.toNat_ofNat, Nat.shiftLeft_eq]
    omega
  rw [e]

theorem switch32_eq (b : List U8) (fuel p s : Nat) (h : U32) (hs : s = (b.drop p).length) (hle : s ≤ 16) :
    switch32 b fuel p s h = .ok (absorb family32 h (family32.words (b.drop p))) := by
  unfold switch32
  simp only [family32, ← hs]
  by_cases h0 : s = 0
  · rw [if_pos h0, if_pos h0]; rfl
  by_cases h3 : s < 4
  · rw [if_neg h0, if_pos h3, small32 b p s h hs h0 h3, if_neg h0, if_pos h3]; rfl
  have l0 := load32 b p 0 (by omega)
  have l4 := load32 b p (s - 4) (by omega)
  rw [Nat.add_zero] at l0
  by_cases h4 : s = 4
  · rw [if_neg h0, if_neg h3, if_pos h4, if_neg h0, if_neg h3, if_pos h4, l0, Go.bind_ok]; rfl
  by_cases h8 : s ≤ 8
  · rw [if_neg h0, if_neg h3, if_neg h4, if_pos h8, if_neg h0, if_neg h3, if_neg h4, if_pos h8, l0, Go.bind_ok, l4, Go.bind_ok]
    simp only [rA32, rB32, Go.pure_ok]; rfl
  · rw [if_neg h0, if_neg h3, if_neg h4, if_neg h8, if_pos hle, if_neg h0, if_neg h3, if_neg h4, if_neg h8, l0, Go.bind_ok, load32 b p 4 (by omega), Go.bind_ok,
      load32 b p (s - 8) (by omega), Go.bind_ok, l4, Go.bind_ok]
    simp only [rA32, rB32, Go.pure_ok]; rfl

theorem body32_eq (b : List U8) (v : Lanes 32) (i k : Nat) (h : 16 * i + 16 ≤ b.length) :
    body32 b (⟨v.1, v.2.1, v.2.2.1, v.2.2.2⟩, 16 * i, k) =
      .ok (⟨(group family32 v ((b.drop (i * 16)).take 16)).1, (group family32 v ((b.drop (i * 16)).take 16)).2.1,
        (group family32 v ((b.drop (i * 16)).take 16)).2.2.1, (group family32 v ((b.drop (i * 16)).take 16)).2.2.2⟩, 16 * (i + 1), k - 16) := by
  have g : ∀ j, j < 4 → groupWord family32 ((b.drop (i * 16)).take 16) j = le32 (b.drop (16 * i + j * 4)) := by
    intro j hj
    simp only [groupWord, family32, le32]
    rw [List.drop_take, List.take_take, List.drop_drop, Nat.min_eq_left (by omega), Nat.mul_comm i]
  simp only [body32, Go.unsafe32_eq (p := b) (i := 16 * i) (by omega), Go.unsafe32_eq (p := b) (i := 16 * i + 4) (by omega),
    Go.unsafe32_eq (p := b) (i := 16 * i + 4 + 4) (by omega), Go.unsafe32_eq (p := b) (i := 16 * i + 4 + 4 + 4) (by omega), Go.bind_ok, Go.pure_ok,
    group, g 0 (by decide), g 1 (by decide), g 2 (by decide), g 3 (by decide), Nat.zero_mul, Nat.add_zero, Nat.one_mul,
    Nat.add_assoc, Nat.reduceAdd, Nat.reduceMul, Nat.mul_add, Nat.mul_one]
  simp only [lane, rA32, family32, m1, m2]

theorem final32_eq (h : U32) : final32 h = finish family32 h := by simp only [final32, finish, family32, m3, m4]

theorem loop32_eq (b : List U8) (h : U32) :
    Go.while_ b.length (fun q => decide (q.2.2 ≥ 16)) (body32 b) (⟨h, h + m1, h + m2, h + m3⟩, 0, b.length) =
      .ok ((fun v : Lanes 32 => (⟨v.1, v.2.1, v.2.2.1, v.2.2.2⟩ : V32)) ((blocks 16 b).foldl (group family32) (h, h + m1, h + m2, h + m3)),
        16 * (b.length / 16), b.length - 16 * (b.length / 16)) := by
  have hw := Go.while_traj (cond := fun q => decide (q.2.2 ≥ 16)) (body := body32 b)
    (fun i => ((fun v : Lanes 32 => (⟨v.1, v.2.1, v.2.2.1, v.2.2.2⟩ : V32))
      ((List.range i).foldl (fun v j => group family32 v ((b.drop (j * 16)).take 16)) (h, h + m1, h + m2, h + m3)), 16 * i, b.length - 16 * i))
    (b.length / 16) 0 b.length
    (fun i _ h2 => by simp only [decide_eq_true_eq]; omega)
    (fun i _ h2 => by
      simp only []
      rw [body32_eq b _ i _ (by omega)]
      simp only [List.range_succ, List.foldl_append, List.foldl_cons, List.foldl_nil, Nat.mul_add, Nat.mul_one]
      rw [show b.length - (16 * i + 16) = b.length - 16 * i - 16 by omega]) (by omega)
    (by simp only [decide_eq_false_iff_not]; omega) (by omega)
  simp only [List.range_zero, List.foldl_nil, Nat.mul_zero, Nat.sub_zero] at hw
  rw [hw, blocks, List.foldl_map]

theorem Hash32_eq (b : List U8) (seed : U32) (h0 : 0 < b.length) : Hash32 b seed = .ok (Spec.Gomap.hash family32 b seed) := by
  unfold Hash32
  rw [Go.idx_eq h0, Go.bind_ok]
  by_cases h : b.length ≤ 16
  · rw [switch32_eq b 1 0 _ _ (by simp) h, Go.bind_ok, final32_eq, Spec.Gomap.hash, if_pos (by simpa [family32] using h), List.drop_zero]; rfl
  · have hsw : ∀ x, switch32 b 1 0 b.length x = .ok (absorb family32 (combine family32 ((blocks 16 b).foldl (group family32)
        (x, x + m1, x + m2, x + m3))) (family32.words (tailOf 16 b))) := by
      intro x
      unfold switch32
      rw [if_neg (by omega), if_neg (by omega), if_neg (by omega), if_neg (by omega), if_neg (by omega),  loop32_eq, Go.bind_ok]
      simp only []
      rw [switch32_eq b 0 _ _ _ (by simp) (by omega), rB32, rB32, rB32, rB32]
      rw [tailOf, Nat.mul_comm 16]
      rfl
    rw [hsw, Go.bind_ok, final32_eq, Spec.Gomap.hash, if_neg (by simpa [family32] using h)]
    rfl

/-! ## 64 bits -/

theorem rA64 (x : U64) : rotl_31 x = x.rotateLeft 31 := rotl_eq x (by decide)
theorem rB64 (x : U64) : rotl_27 x = x.rotateLeft 27 := rotl_eq x (by decide)

theorem load64 (b : List U8) (p k : Nat) (h : k + 8 ≤ (b.drop p).length) : Go.unsafe64 b (p + k) = .ok (word64 (b.drop p) k) := by
  rw [List.length_drop] at h
  rw [Go.unsafe64_eq (by omega), word64, List.drop_drop]

theorem small64 (b : List U8) (p s : Nat) (h : U64) (hs : s = (b.drop p).length) (h0 : s ≠ 0) (h4 : s < 4) :
    (do let w := (← unsafe8 b p).setWidth 64
        let w := w + (← unsafe8 b (p + s >>> 1)).setWidth 64 <<< 8
        let w := w + (← unsafe8 b (p + (s - 1))).setWidth 64 <<< 16
        return h ^^^ w * n1 : Go U64) = .ok (h ^^^ BitVec.ofNat 64 (Spec.Gomap.small (b.drop p)) * n1) := by
  have hb : ∀ k, k < s → ∃ x, b[p + k]? = some x ∧ (b.drop p)[k]? = some x := by
    intro k hk
    rw [List.length_drop] at hs
    exact ⟨b[p + k], by simp, by simp⟩
  obtain ⟨x0, h1, h1'⟩ := hb 0 (by omega)
  obtain ⟨x1, h2, h2'⟩ := hb (s / 2) (by omega)
  obtain ⟨x2, h3, h3'⟩ := hb (s - 1) (by omega)
  have e : s >>> 1 = s / 2 := by rw [Nat.shiftRight_eq_div_pow]
  rw [Nat.add_zero] at h1
  simp only [unsafe8, e, h1, h2, h3, Go.bind_ok, Go.pure_ok, Spec.Gomap.small, ← hs, h1', h2', h3', Option.getD_some]
  have e : x0.setWidth 64 + x1.setWidth 64 <<< 8 + x2.setWidth 64 <<< 16 = BitVec.ofNat 64 (x0.toNat + 256 * x1.toNat + 65536 * x2.toNat) := by
    apply BitVec.eq_of_toNat_eq
    have l0 := x0.isLt
    have l1 := x1.isLt
    have l2 := x2.isLt
    simp only [BitVec.toNat_add, BitVec.toNat_shiftLeft, BitVec.toNat_setWidth, BitVec.toNat_ofNat, Nat.shiftLeft_eq]
    omega
  rw [e]

theorem switch64_eq (b : List U8) (fuel p s : Nat) (h : U64) (hs : s = (b.drop p).length) (hle : s ≤ 32) :
    switch64 b fuel p s h = .ok (absorb family64 h (family64.words (b.drop p))) := by
  unfold switch64
  simp only [family64, ← hs]
  by_cases h0 : s = 0
  · rw [if_pos h0, if_pos h0]; rfl
  by_cases h3 : s < 4
  · rw [if_neg h0, if_pos h3, small64 b p s h hs h0 h3, if_neg h0, if_pos h3]; rfl
  by_cases h8 : s ≤ 8
  · have l0 := load32 b p 0 (by omega)
    have l4 := load32 b p (s - 4) (by omega)
    rw [Nat.add_zero] at l0
    have e : (word32 (b.drop p) 0).setWidth 64 + (word32 (b.drop p) (s - 4)).setWidth 64 <<< 32 =
        BitVec.ofNat 64 (leNat ((b.drop p).take 4) + 2 ^ 32 * leNat (((b.drop p).drop (s - 4)).take 4)) := by
      apply BitVec.eq_of_toNat_eq
      have b1 := leNat_lt ((b.drop p).take 4)
      have b2 := leNat_lt (((b.drop p).drop (s - 4)).take 4)
      rw [List.length_take, Nat.min_eq_left (by omega)] at b1
      rw [List.length_take, List.length_drop (i := s - 4), Nat.min_eq_left (by omega)] at b2
      simp only [Nat.reducePow] at b1 b2
      simp only [word32, le32, List.drop_zero, BitVec.toNat_add, BitVec.toNat_shiftLeft, BitVec.toNat_setWidth, BitVec.toNat_ofNat, Nat.shiftLeft_eq]
      omega
    rw [if_neg h0, if_neg h3, if_pos h8, if_neg h0, if_neg h3, if_pos h8, l0, Go.bind_ok, l4, Go.bind_ok]
    simp only [e, Go.pure_ok]
    rfl
  have l0 := load64 b p 0 (by omega)
  have l8 := load64 b p (s - 8) (by omega)
  rw [Nat.add_zero] at l0
  by_cases h16 : s ≤ 16
  · rw [if_neg h0, if_neg h3, if_neg h8, if_pos h16, if_neg h0, if_neg h3, if_neg h8, if_pos h16, l0, Go.bind_ok, l8, Go.bind_ok]
    simp only [rA64, rB64, Go.pure_ok]; rfl
  · rw [if_neg h0, if_neg h3, if_neg h8, if_neg h16, if_pos hle, if_neg h0, if_neg h3, if_neg h8, if_neg h16, l0, Go.bind_ok, load64 b p 8 (by omega), Go.bind_ok,
      load64 b p (s - 16) (by omega), Go.bind_ok, l8, Go.bind_ok]
    simp only [rA64, rB64, Go.pure_ok]; rfl

theorem body64_eq (b : List U8) (v : Lanes 64) (i k : Nat) (h : 32 * i + 32 ≤ b.length) :
    body64 b (⟨v.1, v.2.1, v.2.2.1, v.2.2.2⟩, 32 * i, k) =
      .ok (⟨(group family64 v ((b.drop (i * 32)).take 32)).1, (group family64 v ((b.drop (i * 32)).take 32)).2.1,
        (group family64 v ((b.drop (i * 32)).take 32)).2.2.1, (group family64 v ((b.drop (i * 32)).take 32)).2.2.2⟩, 32 * (i + 1), k - 32) := by
  have g : ∀ j, j < 4 → groupWord family64 ((b.drop (i * 32)).take 32) j = le64 (b.drop (32 * i + j * 8)) := by
    intro j hj
    simp only [groupWord, family64, le64]
    rw [List.drop_take, List.take_take, List.drop_drop, Nat.min_eq_left (by omega), Nat.mul_comm i]
  simp only [body64, Go.unsafe64_eq (p := b) (i := 32 * i) (by omega), Go.unsafe64_eq (p := b) (i := 32 * i + 8) (by omega),
    Go.unsafe64_eq (p := b) (i := 32 * i + 8 + 8) (by omega), Go.unsafe64_eq (p := b) (i := 32 * i + 8 + 8 + 8) (by omega), Go.bind_ok, Go.pure_ok,
    group, g 0 (by decide), g 1 (by decide), g 2 (by decide), g 3 (by decide), Nat.zero_mul, Nat.add_zero, Nat.one_mul,
    Nat.add_assoc, Nat.reduceAdd, Nat.reduceMul, Nat.mul_add, Nat.mul_one]
  simp only [lane, rA64, family64, n1, n2]

theorem final64_eq (h : U64) : final64 h = finish family64 h := by simp only [final64, finish, family64, n2, n3]

theorem loop64_eq (b : List U8) (h : U64) :
    Go.while_ b.length (fun q => decide (q.2.2 ≥ 32)) (body64 b) (⟨h, h + n1, h + n2, h + n3⟩, 0, b.length) =
      .ok ((fun v : Lanes 64 => (⟨v.1, v.2.1, v.2.2.1, v.2.2.2⟩ : V64)) ((blocks 32 b).foldl (group family64) (h, h + n1, h + n2, h + n3)),
        32 * (b.length / 32), b.length - 32 * (b.length / 32)) := by
  have hw := Go.while_traj (cond := fun q => decide (q.2.2 ≥ 32)) (body := body64 b)
    (fun i => ((fun v : Lanes 64 => (⟨v.1, v.2.1, v.2.2.1, v.2.2.2⟩ : V64))
      ((List.range i).foldl (fun v j => group family64 v ((b.drop (j * 32)).take 32)) (h, h + n1, h + n2, h + n3)), 32 * i, b.length - 32 * i))
    (b.length / 32) 0 b.length
    (fun i _ h2 => by simp only [decide_eq_true_eq]; omega)
    (fun i _ h2 => by
      simp only []
      rw [body64_eq b _ i _ (by omega)]
      simp only [List.range_succ, List.foldl_append, List.foldl_cons, List.foldl_nil, Nat.mul_add, Nat.mul_one]
      rw [show b.length - (32 * i + 32) = b.length - 32 * i - 32 by omega]) (by omega)
    (by simp only [decide_eq_false_iff_not]; omega) (by omega)
  simp only [List.range_zero, List.foldl_nil, Nat.mul_zero, Nat.sub_zero] at hw
  rw [hw, blocks, List.foldl_map]

theorem Hash64_eq (b : List U8) (seed : U64) (h0 : 0 < b.length) : Hash64 b seed = .ok (Spec.Gomap.hash family64 b seed) := by
  unfold Hash64
  rw [Go.idx_eq h0, Go.bind_ok]
  by_cases h : b.length ≤ 32
  · rw [switch64_eq b 1 0 _ _ (by simp) h, Go.bind_ok, final64_eq, Spec.Gomap.hash, if_pos (by simpa [family64] using h), List.drop_zero]; rfl
  · have hsw : ∀ x, switch64 b 1 0 b.length x = .ok (absorb family64 (combine family64 ((blocks 32 b).foldl (group family64)
        (x, x + n1, x + n2, x + n3))) (family64.words (tailOf 32 b))) := by
      intro x
      unfold switch64
      rw [if_neg (by omega), if_neg (by omega), if_neg (by omega), if_neg (by omega), if_neg (by omega),  loop64_eq, Go.bind_ok]
      simp only []
      rw [switch64_eq b 0 _ _ _ (by simp) (by omega), rB64, rB64, rB64, rB64]
      rw [tailOf, Nat.mul_comm 32]
      rfl
    rw [hsw, Go.bind_ok, final64_eq, Spec.Gomap.hash, if_neg (by simpa [family64] using h)]
    rfl

end Verif.Lemmas.Gomap
