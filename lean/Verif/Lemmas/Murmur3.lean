import Verif.Model.Murmur3
import Verif.Spec.Murmur3
import Verif.Lemmas.Bits

namespace Verif.Lemmas.Murmur3
open Verif Verif.Model.Murmur3

/-! ### 32 bit -/

theorem mix32_spec (h k : U32) : mix32 h k = Spec.Murmur3.block32 h k := by
  have r15 := fun x : U32 => rotl_eq x (by decide : 15 < 32)
  have r13 := fun x : U32 => rotl_eq x (by decide : 13 < 32)
  simp only [Nat.reduceSub] at r15 r13
  simp only [mix32, r15, r13, Spec.Murmur3.block32, Spec.Murmur3.mixK32]

theorem final32_spec (h : U32) : final32 h = Spec.Murmur3.fmix32 h := rfl

theorem mixK32_zero : Spec.Murmur3.mixK32 0#32 = 0#32 := by decide

theorem t32c1_eq (t : List U8) (h : 0 < t.length) (h1 k : U32) :
    t32c1 t h1 k = .ok (h1 ^^^ Spec.Murmur3.mixK32 (k ^^^ BitVec.ofNat 32 (leNat (t.take 1)))) := by
  have r15 := fun x : U32 => rotl_eq x (by decide : 15 < 32)
  simp only [Nat.reduceSub] at r15
  have := xor_take_succ (w := 32) (k := 0) h (by omega)
  rw [Nat.mul_zero, BitVec.shiftLeft_zero, List.take_zero, leNat, BitVec.zero_xor] at this
  rw [← this]
  simp only [t32c1, Go.idx_eq h, bind, Except.bind, pure, Except.pure, r15, Spec.Murmur3.mixK32]

theorem t32c2_eq (t : List U8) (h : 1 < t.length) (h1 k : U32) :
    t32c2 t h1 k = .ok (h1 ^^^ Spec.Murmur3.mixK32 (k ^^^ BitVec.ofNat 32 (leNat (t.take 2)))) := by
  have := xor_take_succ (w := 32) h (by omega)
  rw [← this]
  simp only [t32c2, Go.idx_eq h, bind, Except.bind, t32c1_eq t (by omega : 0 < t.length)]
  rw [BitVec.xor_assoc, BitVec.xor_comm (BitVec.setWidth _ _ <<< _)]

theorem t32c3_eq (t : List U8) (h : 2 < t.length) (h1 k : U32) :
    t32c3 t h1 k = .ok (h1 ^^^ Spec.Murmur3.mixK32 (k ^^^ BitVec.ofNat 32 (leNat (t.take 3)))) := by
  have := xor_take_succ (w := 32) h (by omega)
  rw [← this]
  simp only [t32c3, Go.idx_eq h, bind, Except.bind, t32c2_eq t (by omega : 1 < t.length)]
  rw [BitVec.xor_assoc, BitVec.xor_comm (BitVec.setWidth _ _ <<< _)]

theorem tail32_eq (t : List U8) (h : t.length < 4) (h1 : U32) :
    tail32 t h1 = .ok (h1 ^^^ Spec.Murmur3.mixK32 (BitVec.ofNat 32 (leNat t))) := by
  rcases (by omega : t.length = 0 ∨ t.length = 1 ∨ t.length = 2 ∨ t.length = 3) with hl | hl | hl | hl <;>
    simp only [tail32, hl, Nat.reduceMod]
  · rw [List.length_eq_zero_iff.1 hl, leNat, mixK32_zero, BitVec.xor_zero]
  · rw [t32c1_eq t (by omega), List.take_of_length_le (by omega), BitVec.zero_xor]
  · rw [t32c2_eq t (by omega), List.take_of_length_le (by omega), BitVec.zero_xor]
  · rw [t32c3_eq t (by omega), List.take_of_length_le (by omega), BitVec.zero_xor]

theorem loop32 (p : List U8) (h : U32) :
    Go.forRange 0 (p.length / 4) (fun i h1 => do return mix32 h1 (← Go.unsafe32 p (i * 4))) h =
      .ok (Spec.Murmur3.body32 h p) := by
  rw [Go.forRange_blocks (n := 4) p (f := fun h b => Spec.Murmur3.block32 h (le32 b))]
  · rfl
  · intro i s hi
    rw [Go.unsafe32_eq hi, le32_of_take]
    simp only [bind, Except.bind, pure, Except.pure, mix32_spec]

theorem bmix32_eq (h : U32) (p : List U8) : bmix32 h p = .ok (Spec.Murmur3.body32 h p, tailOf 4 p) := by
  have : p.length / 4 * 4 ≤ p.length := Nat.div_mul_le_self _ _
  have l := loop32 p h
  simp only [bind, Except.bind, pure, Except.pure] at l
  simp only [bmix32, Go.from_eq this, bind, Except.bind, pure, Except.pure, l, tailOf]

theorem Sum32_eq (p : List U8) : Sum32 p = .ok (Spec.Murmur3.x86_32 0#32 p) := by
  have : p.length / 4 * 4 ≤ p.length := Nat.div_mul_le_self _ _
  have ht := tail32_eq (tailOf 4 p) (tailOf_length_lt (by omega) p) (Spec.Murmur3.body32 0#32 p)
  simp only [tailOf] at ht
  have l := loop32 p 0#32
  simp only [bind, Except.bind, pure, Except.pure] at l
  simp only [Sum32, Go.from_eq this, bind, Except.bind, l, ht, pure, Except.pure, final32_spec, Spec.Murmur3.x86_32, tailOf]

/-! ### 128 bit -/

theorem mix128_spec (h : U64 × U64) (k1 k2 : U64) : mix128 h k1 k2 = Spec.Murmur3.block128 h k1 k2 := by
  have r31 := fun x : U64 => rotl_eq x (by decide : 31 < 64)
  have r27 := fun x : U64 => rotl_eq x (by decide : 27 < 64)
  have r33 := fun x : U64 => rotl_eq x (by decide : 33 < 64)
  simp only [Nat.reduceSub] at r31 r27 r33
  simp only [mix128, r31, r27, r33, Spec.Murmur3.block128, Spec.Murmur3.mixK1, Spec.Murmur3.mixK2]

theorem final128_spec (h : U64 × U64) (n : U64) :
    final128 h n = Spec.Murmur3.final128 (h.1 ^^^ n, h.2 ^^^ n) := rfl

theorem mixK1_zero : Spec.Murmur3.mixK1 0#64 = 0#64 := by decide
theorem mixK2_zero : Spec.Murmur3.mixK2 0#64 = 0#64 := by decide

theorem t1_eq (t : List U8) (h : 0 < t.length) (h1 h2 k : U64) :
    t1 t h1 h2 k = .ok (h1 ^^^ Spec.Murmur3.mixK1 (k ^^^ BitVec.ofNat 64 (leNat (t.take 1))), h2) := by
  have r31 := fun x : U64 => rotl_eq x (by decide : 31 < 64)
  simp only [Nat.reduceSub] at r31
  have := xor_take_succ (w := 64) (k := 0) h (by omega)
  rw [Nat.mul_zero, BitVec.shiftLeft_zero, List.take_zero, leNat, BitVec.zero_xor] at this
  rw [← this]
  simp only [t1, byteAt, Go.idx_eq h, bind, Except.bind, pure, Except.pure, r31, Spec.Murmur3.mixK1, BitVec.shiftLeft_zero]

theorem t2_eq (t : List U8) (h : 1 < t.length) (h1 h2 k : U64) :
    t2 t h1 h2 k = .ok (h1 ^^^ Spec.Murmur3.mixK1 (k ^^^ BitVec.ofNat 64 (leNat (t.take 2))), h2) := by
  have := xor_take_succ (w := 64) h (by omega)
  rw [← this]
  simp only [t2, byteAt, Go.idx_eq h, bind, Except.bind, pure, Except.pure, t1_eq t (by omega : 0 < t.length)]
  rw [BitVec.xor_assoc, BitVec.xor_comm (BitVec.setWidth _ _ <<< _)]

theorem t3_eq (t : List U8) (h : 2 < t.length) (h1 h2 k : U64) :
    t3 t h1 h2 k = .ok (h1 ^^^ Spec.Murmur3.mixK1 (k ^^^ BitVec.ofNat 64 (leNat (t.take 3))), h2) := by
  have := xor_take_succ (w := 64) h (by omega)
  rw [← this]
  simp only [t3, byteAt, Go.idx_eq h, bind, Except.bind, pure, Except.pure, t2_eq t (by omega : 1 < t.length)]
  rw [BitVec.xor_assoc, BitVec.xor_comm (BitVec.setWidth _ _ <<< _)]

theorem t4_eq (t : List U8) (h : 3 < t.length) (h1 h2 k : U64) :
    t4 t h1 h2 k = .ok (h1 ^^^ Spec.Murmur3.mixK1 (k ^^^ BitVec.ofNat 64 (leNat (t.take 4))), h2) := by
  have := xor_take_succ (w := 64) h (by omega)
  rw [← this]
  simp only [t4, byteAt, Go.idx_eq h, bind, Except.bind, pure, Except.pure, t3_eq t (by omega : 2 < t.length)]
  rw [BitVec.xor_assoc, BitVec.xor_comm (BitVec.setWidth _ _ <<< _)]

theorem t5_eq (t : List U8) (h : 4 < t.length) (h1 h2 k : U64) :
    t5 t h1 h2 k = .ok (h1 ^^^ Spec.Murmur3.mixK1 (k ^^^ BitVec.ofNat 64 (leNat (t.take 5))), h2) := by
  have := xor_take_succ (w := 64) h (by omega)
  rw [← this]
  simp only [t5, byteAt, Go.idx_eq h, bind, Except.bind, pure, Except.pure, t4_eq t (by omega : 3 < t.length)]
  rw [BitVec.xor_assoc, BitVec.xor_comm (BitVec.setWidth _ _ <<< _)]

theorem t6_eq (t : List U8) (h : 5 < t.length) (h1 h2 k : U64) :
    t6 t h1 h2 k = .ok (h1 ^^^ Spec.Murmur3.mixK1 (k ^^^ BitVec.ofNat 64 (leNat (t.take 6))), h2) := by
  have := xor_take_succ (w := 64) h (by omega)
  rw [← this]
  simp only [t6, byteAt, Go.idx_eq h, bind, Except.bind, pure, Except.pure, t5_eq t (by omega : 4 < t.length)]
  rw [BitVec.xor_assoc, BitVec.xor_comm (BitVec.setWidth _ _ <<< _)]

theorem t7_eq (t : List U8) (h : 6 < t.length) (h1 h2 k : U64) :
    t7 t h1 h2 k = .ok (h1 ^^^ Spec.Murmur3.mixK1 (k ^^^ BitVec.ofNat 64 (leNat (t.take 7))), h2) := by
  have := xor_take_succ (w := 64) h (by omega)
  rw [← this]
  simp only [t7, byteAt, Go.idx_eq h, bind, Except.bind, pure, Except.pure, t6_eq t (by omega : 5 < t.length)]
  rw [BitVec.xor_assoc, BitVec.xor_comm (BitVec.setWidth _ _ <<< _)]

theorem t8_eq (t : List U8) (h : 7 < t.length) (h1 h2 k : U64) :
    t8 t h1 h2 k = .ok (h1 ^^^ Spec.Murmur3.mixK1 (k ^^^ BitVec.ofNat 64 (leNat (t.take 8))), h2) := by
  have := xor_take_succ (w := 64) h (by omega)
  rw [← this]
  simp only [t8, byteAt, Go.idx_eq h, bind, Except.bind, pure, Except.pure, t7_eq t (by omega : 6 < t.length)]
  rw [BitVec.xor_assoc, BitVec.xor_comm (BitVec.setWidth _ _ <<< _)]

theorem drop8_getElem {t : List U8} {i : Nat} (h : 8 + i < t.length) :
    (t.drop 8)[i]'(by simp; omega) = t[8 + i] := by simp

theorem t9_eq (t : List U8) (h : 8 < t.length) (h1 h2 k : U64) :
    t9 t h1 h2 0#64 k = .ok (h1 ^^^ Spec.Murmur3.mixK1 (BitVec.ofNat 64 (leNat (t.take 8))),
      h2 ^^^ Spec.Murmur3.mixK2 (k ^^^ BitVec.ofNat 64 (leNat ((t.drop 8).take 1)))) := by
  have r33 := fun x : U64 => rotl_eq x (by decide : 33 < 64)
  simp only [Nat.reduceSub] at r33
  have := xor_take_succ (w := 64) (t := t.drop 8) (k := 0) (by simp; omega) (by omega)
  rw [Nat.mul_zero, BitVec.shiftLeft_zero, List.take_zero, leNat, BitVec.zero_xor, drop8_getElem (by omega)] at this
  rw [← this]
  simp only [t9, byteAt, Go.idx_eq h, bind, Except.bind, pure, Except.pure, r33, BitVec.shiftLeft_zero, BitVec.zero_xor,
    t8_eq t (by omega : 7 < t.length), Spec.Murmur3.mixK2, Nat.add_zero]

theorem t10_eq (t : List U8) (h : 9 < t.length) (h1 h2 k : U64) :
    t10 t h1 h2 0#64 k = .ok (h1 ^^^ Spec.Murmur3.mixK1 (BitVec.ofNat 64 (leNat (t.take 8))),
      h2 ^^^ Spec.Murmur3.mixK2 (k ^^^ BitVec.ofNat 64 (leNat ((t.drop 8).take 2)))) := by
  have := xor_take_succ (w := 64) (t := t.drop 8) (k := 1) (by simp; omega) (by omega)
  rw [drop8_getElem (by omega)] at this
  rw [← this]
  simp only [t10, byteAt, Go.idx_eq h, bind, Except.bind, pure, Except.pure, t9_eq t (by omega : 8 < t.length)]
  rw [BitVec.xor_assoc, BitVec.xor_comm (BitVec.setWidth _ _ <<< _)]

theorem t11_eq (t : List U8) (h : 10 < t.length) (h1 h2 k : U64) :
    t11 t h1 h2 0#64 k = .ok (h1 ^^^ Spec.Murmur3.mixK1 (BitVec.ofNat 64 (leNat (t.take 8))),
      h2 ^^^ Spec.Murmur3.mixK2 (k ^^^ BitVec.ofNat 64 (leNat ((t.drop 8).take 3)))) := by
  have := xor_take_succ (w := 64) (t := t.drop 8) (k := 2) (by simp; omega) (by omega)
  rw [drop8_getElem (by omega)] at this
  rw [← this]
  simp only [t11, byteAt, Go.idx_eq h, bind, Except.bind, pure, Except.pure, t10_eq t (by omega : 9 < t.length)]
  rw [BitVec.xor_assoc, BitVec.xor_comm (BitVec.setWidth _ _ <<< _)]

theorem t12_eq (t : List U8) (h : 11 < t.length) (h1 h2 k : U64) :
    t12 t h1 h2 0#64 k = .ok (h1 ^^^ Spec.Murmur3.mixK1 (BitVec.ofNat 64 (leNat (t.take 8))),
      h2 ^^^ Spec.Murmur3.mixK2 (k ^^^ BitVec.ofNat 64 (leNat ((t.drop 8).take 4)))) := by
  have := xor_take_succ (w := 64) (t := t.drop 8) (k := 3) (by simp; omega) (by omega)
  rw [drop8_getElem (by omega)] at this
  rw [← this]
  simp only [t12, byteAt, Go.idx_eq h, bind, Except.bind, pure, Except.pure, t11_eq t (by omega : 10 < t.length)]
  rw [BitVec.xor_assoc, BitVec.xor_comm (BitVec.setWidth _ _ <<< _)]

theorem t13_eq (t : List U8) (h : 12 < t.length) (h1 h2 k : U64) :
    t13 t h1 h2 0#64 k = .ok (h1 ^^^ Spec.Murmur3.mixK1 (BitVec.ofNat 64 (leNat (t.take 8))),
      h2 ^^^ Spec.Murmur3.mixK2 (k ^^^ BitVec.ofNat 64 (leNat ((t.drop 8).take 5)))) := by
  have := xor_take_succ (w := 64) (t := t.drop 8) (k := 4) (by simp; omega) (by omega)
  rw [drop8_getElem (by omega)] at this
  rw [← this]
  simp only [t13, byteAt, Go.idx_eq h, bind, Except.bind, pure, Except.pure, t12_eq t (by omega : 11 < t.length)]
  rw [BitVec.xor_assoc, BitVec.xor_comm (BitVec.setWidth _ _ <<< _)]

theorem t14_eq (t : List U8) (h : 13 < t.length) (h1 h2 k : U64) :
    t14 t h1 h2 0#64 k = .ok (h1 ^^^ Spec.Murmur3.mixK1 (BitVec.ofNat 64 (leNat (t.take 8))),
      h2 ^^^ Spec.Murmur3.mixK2 (k ^^^ BitVec.ofNat 64 (leNat ((t.drop 8).take 6)))) := by
  have := xor_take_succ (w := 64) (t := t.drop 8) (k := 5) (by simp; omega) (by omega)
  rw [drop8_getElem (by omega)] at this
  rw [← this]
  simp only [t14, byteAt, Go.idx_eq h, bind, Except.bind, pure, Except.pure, t13_eq t (by omega : 12 < t.length)]
  rw [BitVec.xor_assoc, BitVec.xor_comm (BitVec.setWidth _ _ <<< _)]

theorem t15_eq (t : List U8) (h : 14 < t.length) (h1 h2 k : U64) :
    t15 t h1 h2 0#64 k = .ok (h1 ^^^ Spec.Murmur3.mixK1 (BitVec.ofNat 64 (leNat (t.take 8))),
      h2 ^^^ Spec.Murmur3.mixK2 (k ^^^ BitVec.ofNat 64 (leNat ((t.drop 8).take 7)))) := by
  have := xor_take_succ (w := 64) (t := t.drop 8) (k := 6) (by simp; omega) (by omega)
  rw [drop8_getElem (by omega)] at this
  rw [← this]
  simp only [t15, byteAt, Go.idx_eq h, bind, Except.bind, pure, Except.pure, t14_eq t (by omega : 13 < t.length)]
  rw [BitVec.xor_assoc, BitVec.xor_comm (BitVec.setWidth _ _ <<< _)]

theorem tail128_eq (t : List U8) (h : t.length < 16) (h1 h2 : U64) :
    tail128 t h1 h2 = .ok (h1 ^^^ Spec.Murmur3.mixK1 (BitVec.ofNat 64 (leNat (t.take 8))),
      h2 ^^^ Spec.Murmur3.mixK2 (BitVec.ofNat 64 (leNat (t.drop 8)))) := by
  have low : t.length ≤ 8 → t.take 8 = t ∧ h2 ^^^ Spec.Murmur3.mixK2 (BitVec.ofNat 64 (leNat (t.drop 8))) = h2 := by
    intro hl
    refine ⟨List.take_of_length_le hl, ?_⟩
    rw [List.drop_of_length_le hl, leNat, mixK2_zero, BitVec.xor_zero]
  have nil : t.length = 0 → h1 ^^^ Spec.Murmur3.mixK1 (BitVec.ofNat 64 (leNat t)) = h1 := by
    intro hl
    rw [List.length_eq_zero_iff.1 hl, leNat, mixK1_zero, BitVec.xor_zero]
  rcases (by omega : t.length = 0 ∨ t.length = 1 ∨ t.length = 2 ∨ t.length = 3 ∨ t.length = 4 ∨ t.length = 5 ∨
    t.length = 6 ∨ t.length = 7 ∨ t.length = 8 ∨ t.length = 9 ∨ t.length = 10 ∨ t.length = 11 ∨ t.length = 12 ∨
    t.length = 13 ∨ t.length = 14 ∨ t.length = 15) with
    hl | hl | hl | hl | hl | hl | hl | hl | hl | hl | hl | hl | hl | hl | hl | hl <;>
    simp only [tail128, hl, Nat.reduceMod]
  · rw [(low (by omega)).2, (low (by omega)).1, nil hl]
  · rw [t1_eq t (by omega), (low (by omega)).2, (low (by omega)).1, List.take_of_length_le (by omega), BitVec.zero_xor]
  · rw [t2_eq t (by omega), (low (by omega)).2, (low (by omega)).1, List.take_of_length_le (by omega), BitVec.zero_xor]
  · rw [t3_eq t (by omega), (low (by omega)).2, (low (by omega)).1, List.take_of_length_le (by omega), BitVec.zero_xor]
  · rw [t4_eq t (by omega), (low (by omega)).2, (low (by omega)).1, List.take_of_length_le (by omega), BitVec.zero_xor]
  · rw [t5_eq t (by omega), (low (by omega)).2, (low (by omega)).1, List.take_of_length_le (by omega), BitVec.zero_xor]
  · rw [t6_eq t (by omega), (low (by omega)).2, (low (by omega)).1, List.take_of_length_le (by omega), BitVec.zero_xor]
  · rw [t7_eq t (by omega), (low (by omega)).2, (low (by omega)).1, List.take_of_length_le (by omega), BitVec.zero_xor]
  · rw [t8_eq t (by omega), (low (by omega)).2, (low (by omega)).1, BitVec.zero_xor]
  · rw [t9_eq t (by omega), List.take_of_length_le (by simp; omega : (t.drop 8).length ≤ 1), BitVec.zero_xor]
  · rw [t10_eq t (by omega), List.take_of_length_le (by simp; omega : (t.drop 8).length ≤ 2), BitVec.zero_xor]
  · rw [t11_eq t (by omega), List.take_of_length_le (by simp; omega : (t.drop 8).length ≤ 3), BitVec.zero_xor]
  · rw [t12_eq t (by omega), List.take_of_length_le (by simp; omega : (t.drop 8).length ≤ 4), BitVec.zero_xor]
  · rw [t13_eq t (by omega), List.take_of_length_le (by simp; omega : (t.drop 8).length ≤ 5), BitVec.zero_xor]
  · rw [t14_eq t (by omega), List.take_of_length_le (by simp; omega : (t.drop 8).length ≤ 6), BitVec.zero_xor]
  · rw [t15_eq t (by omega), List.take_of_length_le (by simp; omega : (t.drop 8).length ≤ 7), BitVec.zero_xor]

theorem loop128 (p : List U8) (h : U64 × U64) :
    Go.forRange 0 (p.length / 16) (fun i h => do
      let k1 ← Go.unsafe64 p (i * 16)
      let k2 ← Go.unsafe64 p (i * 16 + 8)
      return mix128 h k1 k2) h = .ok (Spec.Murmur3.body128 h p) := by
  rw [Go.forRange_blocks (n := 16) p (f := fun h b => Spec.Murmur3.block128 h (le64 b) (le64 (b.drop 8)))]
  · rfl
  · intro i s hi
    rw [Go.unsafe64_eq (by omega), Go.unsafe64_eq (by omega)]
    have e1 : le64 ((p.drop (i * 16)).take 16) = le64 (p.drop (i * 16)) := by
      rw [le64, le64, List.take_take]; rfl
    have e2 : le64 (((p.drop (i * 16)).take 16).drop 8) = le64 (p.drop (i * 16 + 8)) := by
      rw [le64, le64, List.drop_take, List.take_take, List.drop_drop]; rfl
    simp only [bind, Except.bind, pure, Except.pure, mix128_spec, e1, e2]

theorem bmix128_eq (h : U64 × U64) (p : List U8) :
    bmix128 h p = .ok (Spec.Murmur3.body128 h p, tailOf 16 p) := by
  have : p.length / 16 * 16 ≤ p.length := Nat.div_mul_le_self _ _
  have l := loop128 p h
  simp only [bind, Except.bind, pure, Except.pure] at l
  simp only [bmix128, Go.from_eq this, bind, Except.bind, pure, Except.pure, l, tailOf]

theorem Sum128_eq (p : List U8) : Sum128 p = .ok (Spec.Murmur3.x64_128 0#64 p) := by
  have ht := tail128_eq (tailOf 16 p) (tailOf_length_lt (by omega) p) (Spec.Murmur3.body128 (0#64, 0#64) p).1
    (Spec.Murmur3.body128 (0#64, 0#64) p).2
  simp only [Sum128, bmix128_eq, bind, Except.bind, ht, pure, Except.pure, final128_spec, Spec.Murmur3.x64_128]

/-! ### Streaming -/

/-- What a mixer must satisfy: `bmix` folds a step over the complete blocks and returns the rest. -/
structure Folds (x : Mixer σ) (step : σ → List U8 → σ) : Prop where
  pos : 0 < x.size
  le : x.size ≤ 16
  bmix : ∀ h p, x.bmix h p = .ok ((blocks x.size p).foldl step h, tailOf x.size p)

/-- The state after the bytes `m`. -/
structure J (x : Mixer σ) (step : σ → List U8 → σ) (d : Digest σ) (m : List U8) : Prop where
  h : d.h = (blocks x.size m).foldl step x.init
  clen : d.clen = BitVec.ofNat 64 m.length
  nn : d.nn = (tailOf x.size m).length
  blen : d.buf.length = 16
  tail : d.tail = tailOf x.size m

theorem keepTail_J {x : Mixer σ} {step : σ → List U8 → σ} (f : Folds x step) (d : Digest σ) (m : List U8)
    (hh : d.h = (blocks x.size m).foldl step x.init) (hc : d.clen = BitVec.ofNat 64 m.length)
    (hb : d.buf.length = 16) : J x step (keepTail d (tailOf x.size m)) m := by
  have ht := tailOf_length_lt f.pos m
  have hle := f.le
  have e : min d.buf.length (tailOf x.size m).length = (tailOf x.size m).length := by omega
  refine ⟨hh, hc, ?_, ?_, ?_⟩
  · simp only [keepTail, e]
  · simp only [keepTail, e]; simp; omega
  · simp only [keepTail, Digest.tail, e, List.take_length]
    rw [List.take_left]

theorem write_ok {x : Mixer σ} {step : σ → List U8 → σ} (f : Folds x step) {d : Digest σ} {m : List U8}
    (j : J x step d m) (p : List U8) :
    ∃ d', d.write x p = .ok (d', p.length) ∧ J x step d' (m ++ p) := by
  obtain ⟨h, clen, nn, buf⟩ := d
  have hpos := f.pos
  have hle := f.le
  have ht := tailOf_length_lt f.pos m
  have hcl : clen + BitVec.ofNat 64 p.length = BitVec.ofNat 64 (m ++ p).length := by
    rw [List.length_append, BitVec.ofNat_add, ← j.clen]
  have hh := j.h
  have hnn := j.nn
  have hbl := j.blen
  have htl := j.tail
  simp only [Digest.tail] at hh hnn hbl htl
  have htll : (buf.take nn).length = (tailOf x.size m).length := by rw [htl]
  by_cases h0 : (tailOf x.size m).length > 0
  · have hc0 : (buf.take nn).length > 0 := by omega
    by_cases h1 : x.size - (tailOf x.size m).length < p.length
    · -- one full block
      have hc1 : x.size - (buf.take nn).length < p.length := by omega
      have hblk : (tailOf x.size m ++ p.take (x.size - (tailOf x.size m).length)).length = x.size := by
        simp; omega
      have hfit : nn + (p.take (x.size - (tailOf x.size m).length)).length ≤ buf.length := by
        simp; omega
      have hap : appendTail (⟨h, clen + BitVec.ofNat 64 p.length, nn, buf⟩ : Digest σ)
            (p.take (x.size - (tailOf x.size m).length)) =
          .ok (tailOf x.size m ++ p.take (x.size - (tailOf x.size m).length) ++
            buf.drop (nn + (p.take (x.size - (tailOf x.size m).length)).length),
            tailOf x.size m ++ p.take (x.size - (tailOf x.size m).length)) := by
        simp only [appendTail, Digest.tail, if_pos hfit, htl]
      generalize hq : tailOf x.size m ++ p.take (x.size - (tailOf x.size m).length) = blk at *
      generalize hb2 : blk ++ buf.drop (nn + (p.take (x.size - (tailOf x.size m).length)).length) = buf2 at *
      have hb2l : buf2.length = 16 := by
        rw [← hb2, List.length_append, List.length_drop, hblk]
        simp; omega
      have hfr : Go.from_ p (x.size - (tailOf x.size m).length) = .ok (p.drop (x.size - (tailOf x.size m).length)) :=
        Go.from_eq (by omega)
      have hmp : m ++ p = (m ++ p.take (x.size - (tailOf x.size m).length)) ++ p.drop (x.size - (tailOf x.size m).length) := by
        simp
      have hbm : (blocks x.size (m ++ p.take (x.size - (tailOf x.size m).length))).foldl step x.init =
          (blocks x.size blk).foldl step h := by
        rw [blocks_append hpos, List.foldl_append, ← hh, hq]
      have htm : tailOf x.size (m ++ p.take (x.size - (tailOf x.size m).length)) = [] := by
        rw [tailOf_append hpos, hq, tailOf_of_le hpos (by omega), List.drop_of_length_le (by omega), tailOf_nil]
      have e1 : (blocks x.size (m ++ p)).foldl step x.init =
          (blocks x.size (p.drop (x.size - (tailOf x.size m).length))).foldl step ((blocks x.size blk).foldl step h) := by
        rw [hmp, blocks_append hpos, List.foldl_append, hbm, htm, List.nil_append]
      have e2 : tailOf x.size (m ++ p) = tailOf x.size (p.drop (x.size - (tailOf x.size m).length)) := by
        rw [hmp, tailOf_append hpos, htm, List.nil_append]
      refine ⟨keepTail ⟨(blocks x.size (p.drop (x.size - (tailOf x.size m).length))).foldl step ((blocks x.size blk).foldl step h),
        clen + BitVec.ofNat 64 p.length, nn, buf2⟩ (tailOf x.size (p.drop (x.size - (tailOf x.size m).length))), ?_, ?_⟩
      · simp only [Digest.write, Digest.tail, htll, if_pos h0, if_pos h1, hap, hfr, f.bmix, bind, Except.bind, pure, Except.pure]
      · have := keepTail_J f ⟨(blocks x.size (p.drop (x.size - (tailOf x.size m).length))).foldl step ((blocks x.size blk).foldl step h),
          clen + BitVec.ofNat 64 p.length, nn, buf2⟩ (m ++ p) e1.symm hcl hb2l
        rw [e2] at this
        exact this
    · have hc1 : ¬ x.size - (buf.take nn).length < p.length := by omega
      have hfit : nn + p.length ≤ buf.length := by omega
      have hap : appendTail (⟨h, clen + BitVec.ofNat 64 p.length, nn, buf⟩ : Digest σ) p =
          .ok (tailOf x.size m ++ p ++ buf.drop (nn + p.length), tailOf x.size m ++ p) := by
        simp only [appendTail, Digest.tail, if_pos hfit, htl]
      refine ⟨keepTail ⟨(blocks x.size (tailOf x.size m ++ p)).foldl step h, clen + BitVec.ofNat 64 p.length, nn,
        tailOf x.size m ++ p ++ buf.drop (nn + p.length)⟩ (tailOf x.size (tailOf x.size m ++ p)), ?_, ?_⟩
      · simp only [Digest.write, Digest.tail, if_pos hc0, if_neg hc1, hap, f.bmix, bind, Except.bind, pure, Except.pure]
      · rw [← tailOf_append hpos]
        apply keepTail_J f
        · rw [blocks_append hpos m, List.foldl_append, ← hh]
        · exact hcl
        · simp; omega
  · have hc0 : ¬ (buf.take nn).length > 0 := by omega
    have hnil : tailOf x.size m = [] := List.length_eq_zero_iff.1 (by omega)
    refine ⟨keepTail ⟨(blocks x.size p).foldl step h, clen + BitVec.ofNat 64 p.length, nn, buf⟩ (tailOf x.size p), ?_, ?_⟩
    · simp only [Digest.write, Digest.tail, if_neg hc0, f.bmix, bind, Except.bind, pure, Except.pure]
    · have e2 : tailOf x.size p = tailOf x.size (m ++ p) := by rw [tailOf_append hpos m, hnil, List.nil_append]
      rw [e2]
      apply keepTail_J f
      · rw [blocks_append hpos m, List.foldl_append, ← hh, hnil, List.nil_append]
      · exact hcl
      · exact hbl

theorem reset_J {x : Mixer σ} {step : σ → List U8 → σ} {d : Digest σ} (hb : d.buf.length = 16) :
    J x step (d.reset x) [] := by
  refine ⟨?_, rfl, ?_, hb, ?_⟩
  · simp [Digest.reset]
  · simp [Digest.reset]
  · simp [Digest.reset, Digest.tail]

theorem new_J (x : Mixer σ) (step : σ → List U8 → σ) : J x step (new x) [] := reset_J (by simp)

def step32 (h : U32) (b : List U8) : U32 := Spec.Murmur3.block32 h (le32 b)
def step128 (h : U64 × U64) (b : List U8) : U64 × U64 := Spec.Murmur3.block128 h (le64 b) (le64 (b.drop 8))

theorem folds32 : Folds mixer32 step32 := ⟨by decide, by decide, fun h p => bmix32_eq h p⟩
theorem folds128 : Folds mixer128 step128 := ⟨by decide, by decide, fun h p => bmix128_eq h p⟩

theorem sum32_ok {d : Digest U32} {m : List U8} (j : J mixer32 step32 d m) :
    d.sum32 = .ok (Spec.Murmur3.x86_32 0#32 m) := by
  have hn : (tailOf mixer32.size m).length < 4 := tailOf_length_lt (by decide) m
  have hcl : (BitVec.ofNat 64 m.length).setWidth 32 = BitVec.ofNat 32 m.length := by
    apply BitVec.eq_of_toNat_eq; simp
  simp only [Digest.sum32, j.tail, j.h, j.clen, tail32_eq _ hn, bind, Except.bind, pure, Except.pure, hcl, final32_spec]
  rfl

theorem sum128_ok {d : Digest (U64 × U64)} {m : List U8} (j : J mixer128 step128 d m) :
    d.sum128 = .ok (Spec.Murmur3.x64_128 0#64 m) := by
  have hn : (tailOf mixer128.size m).length < 16 := tailOf_length_lt (by decide) m
  simp only [Digest.sum128, j.tail, j.h, j.clen, tail128_eq _ hn, bind, Except.bind, pure, Except.pure, final128_spec]
  rfl

theorem shr_byte {w : Nat} (h : BitVec w) (k : Nat) : (h >>> k).setWidth 8 = BitVec.ofNat 8 (h.toNat / 2 ^ k) := by
  apply BitVec.eq_of_toNat_eq
  simp [BitVec.toNat_setWidth, BitVec.toNat_ushiftRight, Nat.shiftRight_eq_div_pow]

theorem be32_eq (h : U32) : be32 h = beBytes 4 h.toNat := by
  have h0 : h.setWidth 8 = BitVec.ofNat 8 h.toNat := by
    apply BitVec.eq_of_toNat_eq; simp [BitVec.toNat_setWidth]
  simp only [be32, beBytes, leBytes, List.reverse_cons, List.reverse_nil, List.nil_append, List.cons_append, shr_byte, h0,
    Nat.div_div_eq_div_mul, Nat.reducePow, Nat.reduceMul]

theorem be64_eq (h : U64) : be64 h = beBytes 8 h.toNat := by
  have h0 : h.setWidth 8 = BitVec.ofNat 8 h.toNat := by
    apply BitVec.eq_of_toNat_eq; simp [BitVec.toNat_setWidth]
  simp only [be64, beBytes, leBytes, List.reverse_cons, List.reverse_nil, List.nil_append, List.cons_append, shr_byte, h0,
    Nat.div_div_eq_div_mul, Nat.reducePow, Nat.reduceMul]

end Verif.Lemmas.Murmur3
