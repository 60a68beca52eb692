import Verif.Lemmas.Basic
import Mathlib.Logic.Function.Basic
import Mathlib.Data.Fintype.EquivFin
import Mathlib.Data.Fintype.Prod

/-! Bit-vector lemmas: rotations, byte loads, and reversible steps. -/

namespace Verif

/-! ### Rotations -/

theorem rotl_eq {w : Nat} (x : BitVec w) {n : Nat} (h : n < w) :
    x <<< n ||| x >>> (w - n) = x.rotateLeft n := by
  rw [BitVec.rotateLeft_def, Nat.mod_eq_of_lt h]

theorem rotr_eq {w : Nat} (x : BitVec w) {n : Nat} (h : n < w) :
    x >>> n ||| x <<< (w - n) = x.rotateRight n := by
  rw [BitVec.rotateRight_def, Nat.mod_eq_of_lt h]

theorem rotateLeft_eq_rotateRight {w : Nat} (x : BitVec w) {n : Nat} (h0 : 0 < n) (h : n < w) :
    x.rotateLeft n = x.rotateRight (w - n) := by
  rw [← rotl_eq x h, ← rotr_eq x (by omega : w - n < w), BitVec.or_comm]
  congr 2; omega

theorem rotateRight_rotateLeft {w : Nat} (x : BitVec w) {n : Nat} (h : n < w) :
    (x.rotateLeft n).rotateRight n = x := by
  apply BitVec.eq_of_getLsbD_eq
  intro i hi
  rw [BitVec.getLsbD_rotateRight, BitVec.getLsbD_rotateLeft, BitVec.getLsbD_rotateLeft,
    Nat.mod_eq_of_lt h]
  by_cases h1 : i < w - n
  · have h2 : ¬ n + i < n := by omega
    have h3 : n + i < w := by omega
    simp only [h1, h2, h3, decide_true, decide_false, cond_true, cond_false, Bool.true_and]; simp
  · have h2 : i - (w - n) < n := by omega
    have h3 : w - n + (i - (w - n)) = i := by omega
    simp [h1, h2, h3, hi]

theorem rotateLeft_rotateRight {w : Nat} (x : BitVec w) {n : Nat} (h : n < w) :
    (x.rotateRight n).rotateLeft n = x := by
  apply BitVec.eq_of_getLsbD_eq
  intro i hi
  rw [BitVec.getLsbD_rotateLeft, BitVec.getLsbD_rotateRight, BitVec.getLsbD_rotateRight,
    Nat.mod_eq_of_lt h]
  by_cases h1 : i < n
  · have h3 : w - n + i < w := by omega
    have h2 : ¬ w - n + i < w - n := by omega
    simp only [h1, h2, h3, decide_true, decide_false, cond_true, cond_false, Bool.true_and]; simp
  · have h2 : i - n < w - n := by omega
    have h3 : n + (i - n) = i := by omega
    simp [h1, h2, h3, hi]

theorem rotateLeft_inj {w : Nat} {x y : BitVec w} {n : Nat} (h : n < w)
    (e : x.rotateLeft n = y.rotateLeft n) : x = y := by
  rw [← rotateRight_rotateLeft x h, e, rotateRight_rotateLeft y h]

theorem rotateRight_inj {w : Nat} {x y : BitVec w} {n : Nat} (h : n < w)
    (e : x.rotateRight n = y.rotateRight n) : x = y := by
  rw [← rotateLeft_rotateRight x h, e, rotateLeft_rotateRight y h]

/-! ### Xor, add -/

theorem xor_right_inj' {w : Nat} {x y : BitVec w} (c : BitVec w) (e : x ^^^ c = y ^^^ c) : x = y := by
  have := congrArg (· ^^^ c) e
  simpa [BitVec.xor_assoc] using this

theorem xor_left_inj' {w : Nat} {x y : BitVec w} (c : BitVec w) (e : c ^^^ x = c ^^^ y) : x = y :=
  xor_right_inj' c (by rw [BitVec.xor_comm x, BitVec.xor_comm y]; exact e)

theorem add_right_inj' {w : Nat} {x y : BitVec w} (c : BitVec w) (e : x + c = y + c) : x = y := by
  have := congrArg (· - c) e
  simpa using this

theorem add_left_inj' {w : Nat} {x y : BitVec w} (c : BitVec w) (e : c + x = c + y) : x = y :=
  add_right_inj' c (by rw [BitVec.add_comm x, BitVec.add_comm y]; exact e)

theorem xor_eq_zero' {w : Nat} {x y : BitVec w} (e : x ^^^ y = 0#w) : x = y := by
  apply xor_right_inj' y; simp [e]

/-! ### Xorshift -/

theorem eq_ushiftRight_zero {w : Nat} {d : BitVec w} {n : Nat} (hn : 0 < n) (e : d = d >>> n) : d = 0#w := by
  have h := congrArg BitVec.toNat e
  rw [BitVec.toNat_ushiftRight, Nat.shiftRight_eq_div_pow] at h
  have : 2 ≤ 2 ^ n := by
    calc 2 = 2 ^ 1 := rfl
      _ ≤ 2 ^ n := Nat.pow_le_pow_right (by omega) hn
  apply BitVec.eq_of_toNat_eq
  rcases Nat.eq_zero_or_pos d.toNat with h0 | h0
  · simp [h0]
  · have := Nat.div_lt_self h0 (by omega : 1 < 2 ^ n); omega

theorem eq_shiftLeft_zero {w : Nat} {d : BitVec w} {n : Nat} (hn : 0 < n) (e : d = d <<< n) : d = 0#w := by
  apply BitVec.eq_of_getLsbD_eq
  intro i
  induction i using Nat.strongRecOn with
  | _ i ih =>
    intro hi
    rw [e, BitVec.getLsbD_shiftLeft]
    by_cases h : i < n
    · simp [h]
    · rw [ih (i - n) (by omega) (by omega)]; simp

theorem xorshiftR_inj {w : Nat} {x y : BitVec w} {n : Nat} (hn : 0 < n)
    (e : x ^^^ x >>> n = y ^^^ y >>> n) : x = y := by
  apply xor_eq_zero'
  apply eq_ushiftRight_zero hn
  rw [BitVec.ushiftRight_xor_distrib]
  apply xor_eq_zero'
  have e2 : x ^^^ y ^^^ (x >>> n ^^^ y >>> n) = (x ^^^ x >>> n) ^^^ (y ^^^ y >>> n) := by ac_rfl
  rw [e2, e]; simp

theorem xorshiftL_inj {w : Nat} {x y : BitVec w} {n : Nat} (hn : 0 < n)
    (e : x ^^^ x <<< n = y ^^^ y <<< n) : x = y := by
  apply xor_eq_zero'
  apply eq_shiftLeft_zero hn
  rw [BitVec.shiftLeft_xor_distrib]
  apply xor_eq_zero'
  have e2 : x ^^^ y ^^^ (x <<< n ^^^ y <<< n) = (x ^^^ x <<< n) ^^^ (y ^^^ y <<< n) := by ac_rfl
  rw [e2, e]; simp

/-! ### Multiplication by an odd constant -/

theorem mul_odd_inj {w : Nat} {x y c c' : BitVec w} (hc : c * c' = 1#w) (e : x * c = y * c) : x = y := by
  have := congrArg (· * c') e
  simpa [BitVec.mul_assoc, hc] using this

/-! ### Finite types -/

instance {w : Nat} : Finite (BitVec w) :=
  Finite.of_injective (BitVec.toFin) (fun _ _ h => BitVec.eq_of_toFin_eq h)

theorem bijective_of_injective {α : Type} [Finite α] {f : α → α} (h : Function.Injective f) :
    Function.Bijective f := Finite.injective_iff_bijective.1 h

/-! ### Byte loads -/

/-- Or-ing a byte in above the bits already present adds it with its weight. -/
theorem or_byte {w : Nat} (x : BitVec w) (b : U8) (k : Nat) (hx : x.toNat < 2 ^ k) (hk : k + 8 ≤ w) :
    (x ||| b.setWidth w <<< k).toNat = x.toNat + 2 ^ k * b.toNat := by
  have hb := b.isLt
  have e1 : 2 ^ w = 2 ^ (w - (k + 8)) * (2 ^ 8 * 2 ^ k) := by
    rw [← Nat.pow_add, ← Nat.pow_add]; congr 1; omega
  have h8 : 2 ^ 8 ≤ 2 ^ w := Nat.pow_le_pow_right (by omega) (by omega)
  have hlt : b.toNat <<< k < 2 ^ w := by
    rw [Nat.shiftLeft_eq]
    calc b.toNat * 2 ^ k < 2 ^ 8 * 2 ^ k := Nat.mul_lt_mul_of_pos_right hb (Nat.two_pow_pos _)
      _ = 2 ^ (8 + k) := by rw [Nat.pow_add]
      _ ≤ 2 ^ w := Nat.pow_le_pow_right (by omega) (by omega)
  rw [BitVec.toNat_or, BitVec.toNat_shiftLeft, BitVec.toNat_setWidth, Nat.mod_eq_of_lt (by omega : b.toNat < 2 ^ w),
    Nat.mod_eq_of_lt hlt, Nat.or_comm, ← Nat.shiftLeft_add_eq_or_of_lt hx, Nat.shiftLeft_eq]
  rw [Nat.mul_comm, Nat.add_comm]

/-- Or-ing bytes, each shifted to its place: `acc | b0<<k | b1<<(k+8) | ...`. -/
def orBytes (w : Nat) : Nat → BitVec w → List U8 → BitVec w
  | _, acc, [] => acc
  | k, acc, b :: bs => orBytes w (k + 8) (acc ||| b.setWidth w <<< k) bs

theorem orBytes_toNat {w : Nat} (bs : List U8) (k : Nat) (acc : BitVec w) (ha : acc.toNat < 2 ^ k)
    (hk : k + 8 * bs.length ≤ w) :
    (orBytes w k acc bs).toNat = acc.toNat + 2 ^ k * leNat bs := by
  induction bs generalizing k acc with
  | nil => simp [orBytes, leNat]
  | cons b bs ih =>
    simp only [List.length_cons] at hk
    have e := or_byte acc b k ha (by omega)
    have hb := b.isLt
    have : acc.toNat + 2 ^ k * b.toNat < 2 ^ (k + 8) := by
      rw [Nat.pow_add]
      have : 2 ^ k * (b.toNat + 1) ≤ 2 ^ k * 2 ^ 8 := Nat.mul_le_mul_left _ (by omega)
      rw [Nat.mul_add] at this; omega
    rw [orBytes, ih _ _ (by omega) (by omega), e]
    simp only [leNat, Nat.pow_add, Nat.mul_add, Nat.mul_assoc]
    simp [Nat.add_assoc]

theorem setWidth_shl_zero {w : Nat} (b : U8) : (b.setWidth w) = b.setWidth w <<< 0 := by simp

theorem eq_ofNat_of_toNat {w : Nat} {x : BitVec w} {n : Nat} (h : x.toNat = n) : x = BitVec.ofNat w n := by
  rw [← h]; simp

theorem orBytes_eq {w : Nat} (bs : List U8) (hk : 8 * bs.length ≤ w) :
    orBytes w 0 0#w bs = BitVec.ofNat w (leNat bs) := by
  apply eq_ofNat_of_toNat
  rw [orBytes_toNat bs 0 _ (by simp) (by omega)]; simp

theorem orBytes_acc {w : Nat} (k : Nat) (acc : BitVec w) (bs : List U8) :
    orBytes w k acc bs = acc ||| orBytes w k 0#w bs := by
  induction bs generalizing k acc with
  | nil => simp [orBytes]
  | cons b bs ih =>
    rw [orBytes, orBytes, ih, ih (acc := 0#w ||| _)]
    simp [BitVec.or_assoc]

/-- Xor-ing bytes into place, where the accumulator lies below the place, is or-ing. -/
theorem xor_byte {w : Nat} (x : BitVec w) (b : U8) (k : Nat) (hx : x.toNat < 2 ^ k) :
    x ^^^ b.setWidth w <<< k = x ||| b.setWidth w <<< k := by
  apply BitVec.eq_of_getLsbD_eq
  intro i hi
  rw [BitVec.getLsbD_xor, BitVec.getLsbD_or, BitVec.getLsbD_shiftLeft]
  by_cases h : i < k
  · simp [h]
  · have : x.getLsbD i = false := by
      rw [BitVec.getLsbD, Nat.testBit_lt_two_pow]
      exact Nat.lt_of_lt_of_le hx (Nat.pow_le_pow_right (by omega) (by omega))
    simp [this]

/-- `acc ^ b0<<k ^ b1<<(k+8) ^ ...` -/
def xorBytes (w : Nat) : Nat → BitVec w → List U8 → BitVec w
  | _, acc, [] => acc
  | k, acc, b :: bs => xorBytes w (k + 8) (acc ^^^ b.setWidth w <<< k) bs

theorem xorBytes_eq_orBytes {w : Nat} (bs : List U8) (k : Nat) (acc : BitVec w) (ha : acc.toNat < 2 ^ k)
    (hk : k + 8 * bs.length ≤ w) : xorBytes w k acc bs = orBytes w k acc bs := by
  induction bs generalizing k acc with
  | nil => rfl
  | cons b bs ih =>
    simp only [List.length_cons] at hk
    have e := or_byte acc b k ha (by omega)
    have hb := b.isLt
    have : acc.toNat + 2 ^ k * b.toNat < 2 ^ (k + 8) := by
      rw [Nat.pow_add]
      have : 2 ^ k * (b.toNat + 1) ≤ 2 ^ k * 2 ^ 8 := Nat.mul_le_mul_left _ (by omega)
      rw [Nat.mul_add] at this; omega
    rw [xorBytes, orBytes, xor_byte acc b k ha, ih _ _ (by omega) (by omega)]

theorem xorBytes_eq {w : Nat} (bs : List U8) (hk : 8 * bs.length ≤ w) :
    xorBytes w 0 0#w bs = BitVec.ofNat w (leNat bs) := by
  rw [xorBytes_eq_orBytes bs 0 _ (by simp) (by omega), orBytes_eq bs hk]

theorem leNat_take_succ {t : List U8} {k : Nat} (h : k < t.length) :
    leNat (t.take (k + 1)) = leNat (t.take k) + 2 ^ (8 * k) * t[k].toNat := by
  rw [List.take_add_one, List.getElem?_eq_getElem h, leNat_append]
  have : (256 : Nat) ^ k = 2 ^ (8 * k) := by rw [Nat.pow_mul]
  simp only [List.length_take, Nat.min_eq_left (Nat.le_of_lt h), this, Option.toList_some, leNat]
  simp

/-- Xor-ing in the next byte. -/
theorem xor_take_succ {w : Nat} {t : List U8} {k : Nat} (h : k < t.length) (hw : 8 * (k + 1) ≤ w) :
    BitVec.ofNat w (leNat (t.take k)) ^^^ t[k].setWidth w <<< (8 * k) = BitVec.ofNat w (leNat (t.take (k + 1))) := by
  have hl := leNat_lt (t.take k)
  have : (256 : Nat) ^ k = 2 ^ (8 * k) := by rw [Nat.pow_mul]
  rw [List.length_take, Nat.min_eq_left (Nat.le_of_lt h), this] at hl
  have hlw : leNat (t.take k) < 2 ^ w := Nat.lt_of_lt_of_le hl (Nat.pow_le_pow_right (by omega) (by omega))
  have hx : (BitVec.ofNat w (leNat (t.take k))).toNat = leNat (t.take k) := by
    rw [BitVec.toNat_ofNat, Nat.mod_eq_of_lt hlw]
  rw [xor_byte _ _ _ (by rw [hx]; exact hl)]
  apply eq_ofNat_of_toNat
  rw [or_byte _ _ _ (by rw [hx]; exact hl) (by omega), hx, leNat_take_succ h]

/-- `acc + b0<<k + b1<<(k+8) + ...` -/
def addBytes (w : Nat) : Nat → BitVec w → List U8 → BitVec w
  | _, acc, [] => acc
  | k, acc, b :: bs => addBytes w (k + 8) (acc + b.setWidth w <<< k) bs

theorem byte_shl {w : Nat} (b : U8) (k : Nat) : b.setWidth w <<< k = BitVec.ofNat w (2 ^ k * b.toNat) := by
  apply BitVec.eq_of_toNat_eq
  rw [BitVec.toNat_shiftLeft, BitVec.toNat_setWidth, BitVec.toNat_ofNat, Nat.shiftLeft_eq, Nat.mod_mul_mod, Nat.mul_comm]

theorem addBytes_eq' {w : Nat} (bs : List U8) (k : Nat) (acc : BitVec w) :
    addBytes w k acc bs = acc + BitVec.ofNat w (2 ^ k * leNat bs) := by
  induction bs generalizing k acc with
  | nil => simp [addBytes, leNat]
  | cons b bs ih =>
    rw [addBytes, ih, byte_shl, BitVec.add_assoc, ← BitVec.ofNat_add]
    congr 2
    rw [leNat, Nat.pow_add, Nat.mul_add, Nat.mul_assoc]

theorem addBytes_eq {w : Nat} (bs : List U8) (acc : BitVec w) :
    addBytes w 0 acc bs = acc + BitVec.ofNat w (leNat bs) := by simp [addBytes_eq']

theorem le64_of_take {p : List U8} : le64 (p.take 8) = le64 p := by rw [le64, le64, List.take_take]; rfl

theorem le32_of_take {p : List U8} : le32 (p.take 4) = le32 p := by rw [le32, le32, List.take_take]; rfl

theorem exists_cons8 {p : List U8} (h : 8 ≤ p.length) :
    ∃ a b c d e f g i q, p = a :: b :: c :: d :: e :: f :: g :: i :: q := by
  match p, h with
  | a :: b :: c :: d :: e :: f :: g :: i :: q, _ => exact ⟨_, _, _, _, _, _, _, _, _, rfl⟩

theorem exists_cons4 {p : List U8} (h : 4 ≤ p.length) : ∃ a b c d q, p = a :: b :: c :: d :: q := by
  match p, h with
  | a :: b :: c :: d :: q, _ => exact ⟨_, _, _, _, _, rfl⟩

/-- The eight-byte or-of-shifts is the little-endian word. -/
theorem or8_eq (a b c d e f g i : U8) (q : List U8) :
    (a.setWidth 64 ||| b.setWidth 64 <<< 8 ||| c.setWidth 64 <<< 16 ||| d.setWidth 64 <<< 24 |||
      e.setWidth 64 <<< 32 ||| f.setWidth 64 <<< 40 ||| g.setWidth 64 <<< 48 ||| i.setWidth 64 <<< 56 : U64)
    = le64 (a :: b :: c :: d :: e :: f :: g :: i :: q) := by
  have := orBytes_eq (w := 64) [a, b, c, d, e, f, g, i] (by simp)
  simp only [orBytes, Nat.zero_add, Nat.reduceAdd, BitVec.shiftLeft_zero, BitVec.zero_or] at this
  rw [this]; rfl

/-- The four-byte or-of-shifts is the little-endian word. -/
theorem or4_eq (a b c d : U8) (q : List U8) :
    (a.setWidth 32 ||| b.setWidth 32 <<< 8 ||| c.setWidth 32 <<< 16 ||| d.setWidth 32 <<< 24 : U32)
    = le32 (a :: b :: c :: d :: q) := by
  have := orBytes_eq (w := 32) [a, b, c, d] (by simp)
  simp only [orBytes, Nat.zero_add, Nat.reduceAdd, BitVec.shiftLeft_zero, BitVec.zero_or] at this
  rw [this]; rfl

end Verif
