import Verif.Model.Jenkins
import Verif.Spec.Jenkins
import Verif.Lemmas.Bits

/-! The tail switches of `Hash232` and `Hash264` (generated by tools/gen_jenkins_lemmas.py). -/

namespace Verif.Lemmas.Jenkins
open Verif Verif.Model.Jenkins
open Verif.Spec.Jenkins (word)

theorem mk_eq {w : Nat} {a a' b b' c c' : BitVec w} (ha : a = a') (hb : b = b') (hc : c = c') :
    S3.mk a b c = S3.mk a' b' c' := by rw [ha, hb, hc]

theorem add_swap {w : Nat} (x y z : BitVec w) : x + y + z = x + (z + y) := by
  rw [BitVec.add_assoc, BitVec.add_comm y]

theorem add_swap3 {w : Nat} (x y z : BitVec w) : x + y + z = x + z + y := by
  rw [BitVec.add_assoc, BitVec.add_comm y, BitVec.add_assoc]

theorem add_swap4 {w : Nat} (x y z u : BitVec w) : x + y + z + u = x + z + (u + y) := by
  rw [add_swap3 x y z, add_swap]

theorem word_nil (w : Nat) : word w [] = 0#w := by simp [word, leNat]

theorem word_succ {w : Nat} {t : List U8} {d k : Nat} (h : d + k < t.length) :
    word w ((t.drop d).take (k + 1)) = word w ((t.drop d).take k) + t[d + k].setWidth w <<< (8 * k) := by
  have := leNat_take_succ (t := t.drop d) (k := k) (by simp; omega)
  rw [word, word, this, byte_shl, BitVec.ofNat_add]
  simp

theorem word_one {w : Nat} {t : List U8} {d : Nat} (h : d < t.length) :
    word w ((t.drop d).take 1) = t[d].setWidth w := by
  have := word_succ (w := w) (t := t) (d := d) (k := 0) (by omega)
  simpa [word_nil] using this

theorem mul256_shl {w : Nat} (x : BitVec w) (k : Nat) : 256#w * x <<< k = x <<< (k + 8) := by
  rw [Nat.add_comm, BitVec.shiftLeft_add, BitVec.shiftLeft_eq_mul_twoPow x 8, BitVec.mul_comm x,
    BitVec.shiftLeft_eq_mul_twoPow, BitVec.shiftLeft_eq_mul_twoPow, BitVec.mul_assoc]
  congr 1
  apply BitVec.eq_of_toNat_eq
  simp

theorem word256_succ {w : Nat} {t : List U8} {d k : Nat} (h : d + k < t.length) :
    256#w * word w ((t.drop d).take (k + 1)) = 256#w * word w ((t.drop d).take k) + t[d + k].setWidth w <<< (8 * k + 8) := by
  rw [word_succ h, BitVec.mul_add, mul256_shl]

theorem word256_one {w : Nat} {t : List U8} {d : Nat} (h : d < t.length) :
    256#w * word w ((t.drop d).take 1) = t[d].setWidth w <<< 8 := by
  have := word256_succ (w := w) (t := t) (d := d) (k := 0) (by omega)
  simpa [word_nil] using this

theorem h232c1_eq (t : List U8) (h : 1 ≤ t.length) (s : S3 32) :
    h232c1 t s = .ok ⟨s.a, s.b, s.c + word 32 ((t.drop 0).take 1)⟩ := by
  have e := word_one (w := 32) (t := t) (d := 0) (by omega)
  rw [e]
  unfold h232c1
  rw [Go.idx_eq (show 0 < t.length by omega)]
  rw [Go.bind_ok]
  rfl

theorem h232c2_eq (t : List U8) (h : 2 ≤ t.length) (s : S3 32) :
    h232c2 t s = .ok ⟨s.a + 256#32 * word 32 ((t.drop 1).take 1), s.b, s.c + word 32 ((t.drop 0).take 1)⟩ := by
  have e := word256_one (w := 32) (t := t) (d := 1) (by omega)
  rw [e]
  unfold h232c2
  rw [Go.idx_eq (show 1 < t.length by omega)]
  rw [Go.bind_ok]
  rw [h232c1_eq t (by omega) _]

theorem h232c3_eq (t : List U8) (h : 3 ≤ t.length) (s : S3 32) :
    h232c3 t s = .ok ⟨s.a + 256#32 * word 32 ((t.drop 1).take 2), s.b, s.c + word 32 ((t.drop 0).take 1)⟩ := by
  have e := word256_succ (w := 32) (t := t) (d := 1) (k := 1) (by omega)
  rw [e, ← add_swap]
  unfold h232c3
  rw [Go.idx_eq (show 2 < t.length by omega)]
  rw [Go.bind_ok]
  rw [h232c2_eq t (by omega) _]

theorem h232c4_eq (t : List U8) (h : 4 ≤ t.length) (s : S3 32) :
    h232c4 t s = .ok ⟨s.a + 256#32 * word 32 ((t.drop 1).take 3), s.b, s.c + word 32 ((t.drop 0).take 1)⟩ := by
  have e := word256_succ (w := 32) (t := t) (d := 1) (k := 2) (by omega)
  rw [e, ← add_swap]
  unfold h232c4
  rw [Go.idx_eq (show 3 < t.length by omega)]
  rw [Go.bind_ok]
  rw [h232c3_eq t (by omega) _]

theorem h232c5_eq (t : List U8) (h : 5 ≤ t.length) (s : S3 32) :
    h232c5 t s = .ok ⟨s.a + 256#32 * word 32 ((t.drop 1).take 3), s.b + word 32 ((t.drop 4).take 1), s.c + word 32 ((t.drop 0).take 1)⟩ := by
  have e := word_one (w := 32) (t := t) (d := 4) (by omega)
  rw [e]
  unfold h232c5
  rw [Go.idx_eq (show 4 < t.length by omega)]
  rw [Go.bind_ok]
  rw [h232c4_eq t (by omega) _]

theorem h232c6_eq (t : List U8) (h : 6 ≤ t.length) (s : S3 32) :
    h232c6 t s = .ok ⟨s.a + 256#32 * word 32 ((t.drop 1).take 3), s.b + word 32 ((t.drop 4).take 2), s.c + word 32 ((t.drop 0).take 1)⟩ := by
  have e := word_succ (w := 32) (t := t) (d := 4) (k := 1) (by omega)
  rw [e, ← add_swap]
  unfold h232c6
  rw [Go.idx_eq (show 5 < t.length by omega)]
  rw [Go.bind_ok]
  rw [h232c5_eq t (by omega) _]

theorem h232c7_eq (t : List U8) (h : 7 ≤ t.length) (s : S3 32) :
    h232c7 t s = .ok ⟨s.a + 256#32 * word 32 ((t.drop 1).take 3), s.b + word 32 ((t.drop 4).take 3), s.c + word 32 ((t.drop 0).take 1)⟩ := by
  have e := word_succ (w := 32) (t := t) (d := 4) (k := 2) (by omega)
  rw [e, ← add_swap]
  unfold h232c7
  rw [Go.idx_eq (show 6 < t.length by omega)]
  rw [Go.bind_ok]
  rw [h232c6_eq t (by omega) _]

theorem h232c8_eq (t : List U8) (h : 8 ≤ t.length) (s : S3 32) :
    h232c8 t s = .ok ⟨s.a + 256#32 * word 32 ((t.drop 1).take 3), s.b + word 32 ((t.drop 4).take 4), s.c + word 32 ((t.drop 0).take 1)⟩ := by
  have e := word_succ (w := 32) (t := t) (d := 4) (k := 3) (by omega)
  rw [e, ← add_swap]
  unfold h232c8
  rw [Go.idx_eq (show 7 < t.length by omega)]
  rw [Go.bind_ok]
  rw [h232c7_eq t (by omega) _]

theorem h232c9_eq (t : List U8) (h : 9 ≤ t.length) (s : S3 32) :
    h232c9 t s = .ok ⟨s.a + 256#32 * word 32 ((t.drop 1).take 3), s.b + word 32 ((t.drop 4).take 4), s.c + word 32 ((t.drop 0).take 1) + 256#32 * word 32 ((t.drop 8).take 1)⟩ := by
  have e := word256_one (w := 32) (t := t) (d := 8) (by omega)
  rw [e, add_swap3 s.c]
  unfold h232c9
  rw [Go.idx_eq (show 8 < t.length by omega)]
  rw [Go.bind_ok]
  rw [h232c8_eq t (by omega) _]

theorem h232c10_eq (t : List U8) (h : 10 ≤ t.length) (s : S3 32) :
    h232c10 t s = .ok ⟨s.a + 256#32 * word 32 ((t.drop 1).take 3), s.b + word 32 ((t.drop 4).take 4), s.c + word 32 ((t.drop 0).take 1) + 256#32 * word 32 ((t.drop 8).take 2)⟩ := by
  have e := word256_succ (w := 32) (t := t) (d := 8) (k := 1) (by omega)
  rw [e, ← add_swap4]
  unfold h232c10
  rw [Go.idx_eq (show 9 < t.length by omega)]
  rw [Go.bind_ok]
  rw [h232c9_eq t (by omega) _]

theorem h232c11_eq (t : List U8) (h : 11 ≤ t.length) (s : S3 32) :
    h232c11 t s = .ok ⟨s.a + 256#32 * word 32 ((t.drop 1).take 3), s.b + word 32 ((t.drop 4).take 4), s.c + word 32 ((t.drop 0).take 1) + 256#32 * word 32 ((t.drop 8).take 3)⟩ := by
  have e := word256_succ (w := 32) (t := t) (d := 8) (k := 2) (by omega)
  rw [e, ← add_swap4]
  unfold h232c11
  rw [Go.idx_eq (show 10 < t.length by omega)]
  rw [Go.bind_ok]
  rw [h232c10_eq t (by omega) _]

theorem h264c1_eq (t : List U8) (h : 1 ≤ t.length) (s : S3 64) :
    h264c1 t s = .ok ⟨s.a + word 64 ((t.drop 0).take 1), s.b, s.c⟩ := by
  have e := word_one (w := 64) (t := t) (d := 0) (by omega)
  rw [e]
  unfold h264c1
  rw [Go.idx_eq (show 0 < t.length by omega)]
  rw [Go.bind_ok]
  rfl

theorem h264c2_eq (t : List U8) (h : 2 ≤ t.length) (s : S3 64) :
    h264c2 t s = .ok ⟨s.a + word 64 ((t.drop 0).take 2), s.b, s.c⟩ := by
  have e := word_succ (w := 64) (t := t) (d := 0) (k := 1) (by omega)
  rw [e, ← add_swap]
  unfold h264c2
  rw [Go.idx_eq (show 1 < t.length by omega)]
  rw [Go.bind_ok]
  rw [h264c1_eq t (by omega) _]

theorem h264c3_eq (t : List U8) (h : 3 ≤ t.length) (s : S3 64) :
    h264c3 t s = .ok ⟨s.a + word 64 ((t.drop 0).take 3), s.b, s.c⟩ := by
  have e := word_succ (w := 64) (t := t) (d := 0) (k := 2) (by omega)
  rw [e, ← add_swap]
  unfold h264c3
  rw [Go.idx_eq (show 2 < t.length by omega)]
  rw [Go.bind_ok]
  rw [h264c2_eq t (by omega) _]

theorem h264c4_eq (t : List U8) (h : 4 ≤ t.length) (s : S3 64) :
    h264c4 t s = .ok ⟨s.a + word 64 ((t.drop 0).take 4), s.b, s.c⟩ := by
  have e := word_succ (w := 64) (t := t) (d := 0) (k := 3) (by omega)
  rw [e, ← add_swap]
  unfold h264c4
  rw [Go.idx_eq (show 3 < t.length by omega)]
  rw [Go.bind_ok]
  rw [h264c3_eq t (by omega) _]

theorem h264c5_eq (t : List U8) (h : 5 ≤ t.length) (s : S3 64) :
    h264c5 t s = .ok ⟨s.a + word 64 ((t.drop 0).take 5), s.b, s.c⟩ := by
  have e := word_succ (w := 64) (t := t) (d := 0) (k := 4) (by omega)
  rw [e, ← add_swap]
  unfold h264c5
  rw [Go.idx_eq (show 4 < t.length by omega)]
  rw [Go.bind_ok]
  rw [h264c4_eq t (by omega) _]

theorem h264c6_eq (t : List U8) (h : 6 ≤ t.length) (s : S3 64) :
    h264c6 t s = .ok ⟨s.a + word 64 ((t.drop 0).take 6), s.b, s.c⟩ := by
  have e := word_succ (w := 64) (t := t) (d := 0) (k := 5) (by omega)
  rw [e, ← add_swap]
  unfold h264c6
  rw [Go.idx_eq (show 5 < t.length by omega)]
  rw [Go.bind_ok]
  rw [h264c5_eq t (by omega) _]

theorem h264c7_eq (t : List U8) (h : 7 ≤ t.length) (s : S3 64) :
    h264c7 t s = .ok ⟨s.a + word 64 ((t.drop 0).take 7), s.b, s.c⟩ := by
  have e := word_succ (w := 64) (t := t) (d := 0) (k := 6) (by omega)
  rw [e, ← add_swap]
  unfold h264c7
  rw [Go.idx_eq (show 6 < t.length by omega)]
  rw [Go.bind_ok]
  rw [h264c6_eq t (by omega) _]

theorem h264c8_eq (t : List U8) (h : 8 ≤ t.length) (s : S3 64) :
    h264c8 t s = .ok ⟨s.a + word 64 ((t.drop 0).take 8), s.b, s.c⟩ := by
  have e := word_succ (w := 64) (t := t) (d := 0) (k := 7) (by omega)
  rw [e, ← add_swap]
  unfold h264c8
  rw [Go.idx_eq (show 7 < t.length by omega)]
  rw [Go.bind_ok]
  rw [h264c7_eq t (by omega) _]

theorem h264c9_eq (t : List U8) (h : 9 ≤ t.length) (s : S3 64) :
    h264c9 t s = .ok ⟨s.a + word 64 ((t.drop 0).take 8), s.b + word 64 ((t.drop 8).take 1), s.c⟩ := by
  have e := word_one (w := 64) (t := t) (d := 8) (by omega)
  rw [e]
  unfold h264c9
  rw [Go.idx_eq (show 8 < t.length by omega)]
  rw [Go.bind_ok]
  rw [h264c8_eq t (by omega) _]

theorem h264c10_eq (t : List U8) (h : 10 ≤ t.length) (s : S3 64) :
    h264c10 t s = .ok ⟨s.a + word 64 ((t.drop 0).take 8), s.b + word 64 ((t.drop 8).take 2), s.c⟩ := by
  have e := word_succ (w := 64) (t := t) (d := 8) (k := 1) (by omega)
  rw [e, ← add_swap]
  unfold h264c10
  rw [Go.idx_eq (show 9 < t.length by omega)]
  rw [Go.bind_ok]
  rw [h264c9_eq t (by omega) _]

theorem h264c11_eq (t : List U8) (h : 11 ≤ t.length) (s : S3 64) :
    h264c11 t s = .ok ⟨s.a + word 64 ((t.drop 0).take 8), s.b + word 64 ((t.drop 8).take 3), s.c⟩ := by
  have e := word_succ (w := 64) (t := t) (d := 8) (k := 2) (by omega)
  rw [e, ← add_swap]
  unfold h264c11
  rw [Go.idx_eq (show 10 < t.length by omega)]
  rw [Go.bind_ok]
  rw [h264c10_eq t (by omega) _]

theorem h264c12_eq (t : List U8) (h : 12 ≤ t.length) (s : S3 64) :
    h264c12 t s = .ok ⟨s.a + word 64 ((t.drop 0).take 8), s.b + word 64 ((t.drop 8).take 4), s.c⟩ := by
  have e := word_succ (w := 64) (t := t) (d := 8) (k := 3) (by omega)
  rw [e, ← add_swap]
  unfold h264c12
  rw [Go.idx_eq (show 11 < t.length by omega)]
  rw [Go.bind_ok]
  rw [h264c11_eq t (by omega) _]

theorem h264c13_eq (t : List U8) (h : 13 ≤ t.length) (s : S3 64) :
    h264c13 t s = .ok ⟨s.a + word 64 ((t.drop 0).take 8), s.b + word 64 ((t.drop 8).take 5), s.c⟩ := by
  have e := word_succ (w := 64) (t := t) (d := 8) (k := 4) (by omega)
  rw [e, ← add_swap]
  unfold h264c13
  rw [Go.idx_eq (show 12 < t.length by omega)]
  rw [Go.bind_ok]
  rw [h264c12_eq t (by omega) _]

theorem h264c14_eq (t : List U8) (h : 14 ≤ t.length) (s : S3 64) :
    h264c14 t s = .ok ⟨s.a + word 64 ((t.drop 0).take 8), s.b + word 64 ((t.drop 8).take 6), s.c⟩ := by
  have e := word_succ (w := 64) (t := t) (d := 8) (k := 5) (by omega)
  rw [e, ← add_swap]
  unfold h264c14
  rw [Go.idx_eq (show 13 < t.length by omega)]
  rw [Go.bind_ok]
  rw [h264c13_eq t (by omega) _]

theorem h264c15_eq (t : List U8) (h : 15 ≤ t.length) (s : S3 64) :
    h264c15 t s = .ok ⟨s.a + word 64 ((t.drop 0).take 8), s.b + word 64 ((t.drop 8).take 7), s.c⟩ := by
  have e := word_succ (w := 64) (t := t) (d := 8) (k := 6) (by omega)
  rw [e, ← add_swap]
  unfold h264c15
  rw [Go.idx_eq (show 14 < t.length by omega)]
  rw [Go.bind_ok]
  rw [h264c14_eq t (by omega) _]

theorem h264c16_eq (t : List U8) (h : 16 ≤ t.length) (s : S3 64) :
    h264c16 t s = .ok ⟨s.a + word 64 ((t.drop 0).take 8), s.b + word 64 ((t.drop 8).take 8), s.c⟩ := by
  have e := word_succ (w := 64) (t := t) (d := 8) (k := 7) (by omega)
  rw [e, ← add_swap]
  unfold h264c16
  rw [Go.idx_eq (show 15 < t.length by omega)]
  rw [Go.bind_ok]
  rw [h264c15_eq t (by omega) _]

theorem h264c17_eq (t : List U8) (h : 17 ≤ t.length) (s : S3 64) :
    h264c17 t s = .ok ⟨s.a + word 64 ((t.drop 0).take 8), s.b + word 64 ((t.drop 8).take 8), s.c + 256#64 * word 64 ((t.drop 16).take 1)⟩ := by
  have e := word256_one (w := 64) (t := t) (d := 16) (by omega)
  rw [e]
  unfold h264c17
  rw [Go.idx_eq (show 16 < t.length by omega)]
  rw [Go.bind_ok]
  rw [h264c16_eq t (by omega) _]

theorem h264c18_eq (t : List U8) (h : 18 ≤ t.length) (s : S3 64) :
    h264c18 t s = .ok ⟨s.a + word 64 ((t.drop 0).take 8), s.b + word 64 ((t.drop 8).take 8), s.c + 256#64 * word 64 ((t.drop 16).take 2)⟩ := by
  have e := word256_succ (w := 64) (t := t) (d := 16) (k := 1) (by omega)
  rw [e, ← add_swap]
  unfold h264c18
  rw [Go.idx_eq (show 17 < t.length by omega)]
  rw [Go.bind_ok]
  rw [h264c17_eq t (by omega) _]

theorem h264c19_eq (t : List U8) (h : 19 ≤ t.length) (s : S3 64) :
    h264c19 t s = .ok ⟨s.a + word 64 ((t.drop 0).take 8), s.b + word 64 ((t.drop 8).take 8), s.c + 256#64 * word 64 ((t.drop 16).take 3)⟩ := by
  have e := word256_succ (w := 64) (t := t) (d := 16) (k := 2) (by omega)
  rw [e, ← add_swap]
  unfold h264c19
  rw [Go.idx_eq (show 18 < t.length by omega)]
  rw [Go.bind_ok]
  rw [h264c18_eq t (by omega) _]

theorem h264c20_eq (t : List U8) (h : 20 ≤ t.length) (s : S3 64) :
    h264c20 t s = .ok ⟨s.a + word 64 ((t.drop 0).take 8), s.b + word 64 ((t.drop 8).take 8), s.c + 256#64 * word 64 ((t.drop 16).take 4)⟩ := by
  have e := word256_succ (w := 64) (t := t) (d := 16) (k := 3) (by omega)
  rw [e, ← add_swap]
  unfold h264c20
  rw [Go.idx_eq (show 19 < t.length by omega)]
  rw [Go.bind_ok]
  rw [h264c19_eq t (by omega) _]

theorem h264c21_eq (t : List U8) (h : 21 ≤ t.length) (s : S3 64) :
    h264c21 t s = .ok ⟨s.a + word 64 ((t.drop 0).take 8), s.b + word 64 ((t.drop 8).take 8), s.c + 256#64 * word 64 ((t.drop 16).take 5)⟩ := by
  have e := word256_succ (w := 64) (t := t) (d := 16) (k := 4) (by omega)
  rw [e, ← add_swap]
  unfold h264c21
  rw [Go.idx_eq (show 20 < t.length by omega)]
  rw [Go.bind_ok]
  rw [h264c20_eq t (by omega) _]

theorem h264c22_eq (t : List U8) (h : 22 ≤ t.length) (s : S3 64) :
    h264c22 t s = .ok ⟨s.a + word 64 ((t.drop 0).take 8), s.b + word 64 ((t.drop 8).take 8), s.c + 256#64 * word 64 ((t.drop 16).take 6)⟩ := by
  have e := word256_succ (w := 64) (t := t) (d := 16) (k := 5) (by omega)
  rw [e, ← add_swap]
  unfold h264c22
  rw [Go.idx_eq (show 21 < t.length by omega)]
  rw [Go.bind_ok]
  rw [h264c21_eq t (by omega) _]

theorem h264c23_eq (t : List U8) (h : 23 ≤ t.length) (s : S3 64) :
    h264c23 t s = .ok ⟨s.a + word 64 ((t.drop 0).take 8), s.b + word 64 ((t.drop 8).take 8), s.c + 256#64 * word 64 ((t.drop 16).take 7)⟩ := by
  have e := word256_succ (w := 64) (t := t) (d := 16) (k := 6) (by omega)
  rw [e, ← add_swap]
  unfold h264c23
  rw [Go.idx_eq (show 22 < t.length by omega)]
  rw [Go.bind_ok]
  rw [h264c22_eq t (by omega) _]

theorem drop_take_short {t : List U8} {d n : Nat} (m : Nat) (h : t.length ≤ d + n) (h2 : t.length ≤ d + m) : (t.drop d).take n = (t.drop d).take m := by
  rw [List.take_of_length_le (by simp; omega), List.take_of_length_le (by simp; omega)]

theorem drop_short {t : List U8} {d : Nat} (n : Nat) (h : t.length ≤ d + n) : t.drop d = (t.drop d).take n := by
  rw [List.take_of_length_le (by simp; omega)]

theorem take_drop_short {t : List U8} {d n : Nat} : (t.take n).drop d = (t.drop d).take (n - d) := by
  rw [List.drop_take]


theorem h232tail_eq (t : List U8) (h : t.length < 12) (s : S3 32) :
    h232tail t t.length s = .ok ⟨s.a + 256#32 * word 32 ((t.take 4).drop 1), s.b + word 32 ((t.drop 4).take 4), s.c + word 32 (t.take 1) + 256#32 * word 32 (t.drop 8)⟩ := by
  rw [take_drop_short, ← List.drop_zero (l := t.take 1), take_drop_short]
  simp only [Nat.reduceSub]
  rcases (by omega : t.length = 0 ∨ t.length = 1 ∨ t.length = 2 ∨ t.length = 3 ∨ t.length = 4 ∨ t.length = 5 ∨ t.length = 6 ∨ t.length = 7 ∨ t.length = 8 ∨ t.length = 9 ∨ t.length = 10 ∨ t.length = 11) with
    hl | hl | hl | hl | hl | hl | hl | hl | hl | hl | hl | hl <;> simp only [h232tail, hl]
  · rw [List.length_eq_zero_iff.1 hl]; simp [h232c0, word_nil]
  · rw [drop_take_short (t := t) (d := 1) (n := 3) 0 (by omega) (by omega), drop_take_short (t := t) (d := 4) (n := 4) 0 (by omega) (by omega), drop_short (t := t) (d := 8) 0 (by omega), h232c1_eq t (by omega)]
    simp only [List.take_zero, word_nil, BitVec.mul_zero, BitVec.add_zero]
  · rw [drop_take_short (t := t) (d := 1) (n := 3) 1 (by omega) (by omega), drop_take_short (t := t) (d := 4) (n := 4) 0 (by omega) (by omega), drop_short (t := t) (d := 8) 0 (by omega), h232c2_eq t (by omega)]
    simp only [List.take_zero, word_nil, BitVec.mul_zero, BitVec.add_zero]
  · rw [drop_take_short (t := t) (d := 1) (n := 3) 2 (by omega) (by omega), drop_take_short (t := t) (d := 4) (n := 4) 0 (by omega) (by omega), drop_short (t := t) (d := 8) 0 (by omega), h232c3_eq t (by omega)]
    simp only [List.take_zero, word_nil, BitVec.mul_zero, BitVec.add_zero]
  · rw [drop_take_short (t := t) (d := 4) (n := 4) 0 (by omega) (by omega), drop_short (t := t) (d := 8) 0 (by omega), h232c4_eq t (by omega)]
    simp only [List.take_zero, word_nil, BitVec.mul_zero, BitVec.add_zero]
  · rw [drop_take_short (t := t) (d := 4) (n := 4) 1 (by omega) (by omega), drop_short (t := t) (d := 8) 0 (by omega), h232c5_eq t (by omega)]
    simp only [List.take_zero, word_nil, BitVec.mul_zero, BitVec.add_zero]
  · rw [drop_take_short (t := t) (d := 4) (n := 4) 2 (by omega) (by omega), drop_short (t := t) (d := 8) 0 (by omega), h232c6_eq t (by omega)]
    simp only [List.take_zero, word_nil, BitVec.mul_zero, BitVec.add_zero]
  · rw [drop_take_short (t := t) (d := 4) (n := 4) 3 (by omega) (by omega), drop_short (t := t) (d := 8) 0 (by omega), h232c7_eq t (by omega)]
    simp only [List.take_zero, word_nil, BitVec.mul_zero, BitVec.add_zero]
  · rw [drop_short (t := t) (d := 8) 0 (by omega), h232c8_eq t (by omega)]
    simp only [List.take_zero, word_nil, BitVec.mul_zero, BitVec.add_zero]
  · rw [drop_short (t := t) (d := 8) 1 (by omega), h232c9_eq t (by omega)]
  · rw [drop_short (t := t) (d := 8) 2 (by omega), h232c10_eq t (by omega)]
  · rw [drop_short (t := t) (d := 8) 3 (by omega), h232c11_eq t (by omega)]

theorem h264tail_eq (t : List U8) (h : t.length < 24) (s : S3 64) :
    h264tail t t.length s = .ok ⟨s.a + word 64 (t.take 8), s.b + word 64 ((t.drop 8).take 8), s.c + 256#64 * word 64 (t.drop 16)⟩ := by
  rw [← List.drop_zero (l := t.take 8), take_drop_short]
  simp only [Nat.reduceSub]
  rcases (by omega : t.length = 0 ∨ t.length = 1 ∨ t.length = 2 ∨ t.length = 3 ∨ t.length = 4 ∨ t.length = 5 ∨ t.length = 6 ∨ t.length = 7 ∨ t.length = 8 ∨ t.length = 9 ∨ t.length = 10 ∨ t.length = 11 ∨ t.length = 12 ∨ t.length = 13 ∨ t.length = 14 ∨ t.length = 15 ∨ t.length = 16 ∨ t.length = 17 ∨ t.length = 18 ∨ t.length = 19 ∨ t.length = 20 ∨ t.length = 21 ∨ t.length = 22 ∨ t.length = 23) with
    hl | hl | hl | hl | hl | hl | hl | hl | hl | hl | hl | hl | hl | hl | hl | hl | hl | hl | hl | hl | hl | hl | hl | hl <;> simp only [h264tail, hl]
  · rw [List.length_eq_zero_iff.1 hl]; simp [h264c0, word_nil]
  · rw [drop_take_short (t := t) (d := 0) (n := 8) 1 (by omega) (by omega), drop_take_short (t := t) (d := 8) (n := 8) 0 (by omega) (by omega), drop_short (t := t) (d := 16) 0 (by omega), h264c1_eq t (by omega)]
    simp only [List.take_zero, word_nil, BitVec.mul_zero, BitVec.add_zero]
  · rw [drop_take_short (t := t) (d := 0) (n := 8) 2 (by omega) (by omega), drop_take_short (t := t) (d := 8) (n := 8) 0 (by omega) (by omega), drop_short (t := t) (d := 16) 0 (by omega), h264c2_eq t (by omega)]
    simp only [List.take_zero, word_nil, BitVec.mul_zero, BitVec.add_zero]
  · rw [drop_take_short (t := t) (d := 0) (n := 8) 3 (by omega) (by omega), drop_take_short (t := t) (d := 8) (n := 8) 0 (by omega) (by omega), drop_short (t := t) (d := 16) 0 (by omega), h264c3_eq t (by omega)]
    simp only [List.take_zero, word_nil, BitVec.mul_zero, BitVec.add_zero]
  · rw [drop_take_short (t := t) (d := 0) (n := 8) 4 (by omega) (by omega), drop_take_short (t := t) (d := 8) (n := 8) 0 (by omega) (by omega), drop_short (t := t) (d := 16) 0 (by omega), h264c4_eq t (by omega)]
    simp only [List.take_zero, word_nil, BitVec.mul_zero, BitVec.add_zero]
  · rw [drop_take_short (t := t) (d := 0) (n := 8) 5 (by omega) (by omega), drop_take_short (t := t) (d := 8) (n := 8) 0 (by omega) (by omega), drop_short (t := t) (d := 16) 0 (by omega), h264c5_eq t (by omega)]
    simp only [List.take_zero, word_nil, BitVec.mul_zero, BitVec.add_zero]
  · rw [drop_take_short (t := t) (d := 0) (n := 8) 6 (by omega) (by omega), drop_take_short (t := t) (d := 8) (n := 8) 0 (by omega) (by omega), drop_short (t := t) (d := 16) 0 (by omega), h264c6_eq t (by omega)]
    simp only [List.take_zero, word_nil, BitVec.mul_zero, BitVec.add_zero]
  · rw [drop_take_short (t := t) (d := 0) (n := 8) 7 (by omega) (by omega), drop_take_short (t := t) (d := 8) (n := 8) 0 (by omega) (by omega), drop_short (t := t) (d := 16) 0 (by omega), h264c7_eq t (by omega)]
    simp only [List.take_zero, word_nil, BitVec.mul_zero, BitVec.add_zero]
  · rw [drop_take_short (t := t) (d := 8) (n := 8) 0 (by omega) (by omega), drop_short (t := t) (d := 16) 0 (by omega), h264c8_eq t (by omega)]
    simp only [List.take_zero, word_nil, BitVec.mul_zero, BitVec.add_zero]
  · rw [drop_take_short (t := t) (d := 8) (n := 8) 1 (by omega) (by omega), drop_short (t := t) (d := 16) 0 (by omega), h264c9_eq t (by omega)]
    simp only [List.take_zero, word_nil, BitVec.mul_zero, BitVec.add_zero]
  · rw [drop_take_short (t := t) (d := 8) (n := 8) 2 (by omega) (by omega), drop_short (t := t) (d := 16) 0 (by omega), h264c10_eq t (by omega)]
    simp only [List.take_zero, word_nil, BitVec.mul_zero, BitVec.add_zero]
  · rw [drop_take_short (t := t) (d := 8) (n := 8) 3 (by omega) (by omega), drop_short (t := t) (d := 16) 0 (by omega), h264c11_eq t (by omega)]
    simp only [List.take_zero, word_nil, BitVec.mul_zero, BitVec.add_zero]
  · rw [drop_take_short (t := t) (d := 8) (n := 8) 4 (by omega) (by omega), drop_short (t := t) (d := 16) 0 (by omega), h264c12_eq t (by omega)]
    simp only [List.take_zero, word_nil, BitVec.mul_zero, BitVec.add_zero]
  · rw [drop_take_short (t := t) (d := 8) (n := 8) 5 (by omega) (by omega), drop_short (t := t) (d := 16) 0 (by omega), h264c13_eq t (by omega)]
    simp only [List.take_zero, word_nil, BitVec.mul_zero, BitVec.add_zero]
  · rw [drop_take_short (t := t) (d := 8) (n := 8) 6 (by omega) (by omega), drop_short (t := t) (d := 16) 0 (by omega), h264c14_eq t (by omega)]
    simp only [List.take_zero, word_nil, BitVec.mul_zero, BitVec.add_zero]
  · rw [drop_take_short (t := t) (d := 8) (n := 8) 7 (by omega) (by omega), drop_short (t := t) (d := 16) 0 (by omega), h264c15_eq t (by omega)]
    simp only [List.take_zero, word_nil, BitVec.mul_zero, BitVec.add_zero]
  · rw [drop_short (t := t) (d := 16) 0 (by omega), h264c16_eq t (by omega)]
    simp only [List.take_zero, word_nil, BitVec.mul_zero, BitVec.add_zero]
  · rw [drop_short (t := t) (d := 16) 1 (by omega), h264c17_eq t (by omega)]
  · rw [drop_short (t := t) (d := 16) 2 (by omega), h264c18_eq t (by omega)]
  · rw [drop_short (t := t) (d := 16) 3 (by omega), h264c19_eq t (by omega)]
  · rw [drop_short (t := t) (d := 16) 4 (by omega), h264c20_eq t (by omega)]
  · rw [drop_short (t := t) (d := 16) 5 (by omega), h264c21_eq t (by omega)]
  · rw [drop_short (t := t) (d := 16) 6 (by omega), h264c22_eq t (by omega)]
  · rw [drop_short (t := t) (d := 16) 7 (by omega), h264c23_eq t (by omega)]

end Verif.Lemmas.Jenkins
