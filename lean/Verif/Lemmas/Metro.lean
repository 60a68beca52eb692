import Verif.Model.Metro
import Verif.Spec.Metro
import Verif.Lemmas.Basic
import Verif.Lemmas.Bits
import Mathlib.Data.Nat.Bitwise

namespace Verif.Lemmas.Metro
open Verif Verif.Model.Metro
open Verif.Spec.Metro (num off piece)

theorem rr_eq (v : U64) {k : Nat} (h : k < 64) : rotate_right v k = v.rotateRight k := rotr_eq v h

/-- What is left of the key before the pieces of less than `2^j` bytes. -/
def rest (m : List U8) (j : Nat) : List U8 := m.drop (m.length / 2 ^ j * 2 ^ j)

theorem rest_length (m : List U8) (j : Nat) : (rest m j).length = m.length % 2 ^ j := by
  rw [rest, List.length_drop]
  have := Nat.div_add_mod m.length (2 ^ j)
  rw [Nat.mul_comm] at this
  omega

theorem div_split (n i : Nat) : n / 2 ^ i = 2 * (n / 2 ^ (i + 1)) + n / 2 ^ i % 2 := by
  rw [Nat.pow_succ, ← Nat.div_div_eq_div_mul]; omega

theorem testBit_iff (n i : Nat) : n.testBit i = true ↔ n / 2 ^ i % 2 = 1 := by
  rw [Nat.testBit_eq_decide_div_mod_eq]; simp

theorem mod_split (n i : Nat) : n % 2 ^ (i + 1) = 2 ^ i * (n / 2 ^ i % 2) + n % 2 ^ i := by
  rw [Nat.pow_succ, Nat.mod_mul]; omega

theorem ge_iff (m : List U8) (i : Nat) : (rest m (i + 1)).length ≥ 2 ^ i ↔ m.length.testBit i = true := by
  rw [rest_length, testBit_iff, mod_split]
  have h1 : m.length / 2 ^ i % 2 < 2 := Nat.mod_lt _ (by decide)
  have h2 : m.length % 2 ^ i < 2 ^ i := Nat.mod_lt _ (Nat.pow_pos (by decide))
  rcases (by omega : m.length / 2 ^ i % 2 = 0 ∨ m.length / 2 ^ i % 2 = 1) with h | h <;> rw [h]
  · constructor
    · intro h'; omega
    · intro h'; omega
  · constructor
    · intro _; rfl
    · intro _; omega

theorem off_succ (n i : Nat) (h : n.testBit i = true) : n / 2 ^ i * 2 ^ i = off n i + 2 ^ i := by
  rw [testBit_iff] at h
  rw [off, div_split n i, h, Nat.pow_succ, Nat.add_mul, Nat.mul_comm 2, Nat.mul_assoc, Nat.mul_comm 2 (2 ^ i)]
  omega

theorem rest_drop (m : List U8) (i : Nat) (h : m.length.testBit i = true) : (rest m (i + 1)).drop (2 ^ i) = rest m i := by
  rw [rest, List.drop_drop, rest, off_succ _ _ h, off]

theorem rest_same (m : List U8) (i : Nat) (h : ¬ m.length.testBit i = true) : rest m (i + 1) = rest m i := by
  rw [testBit_iff] at h
  have h0 : m.length / 2 ^ i % 2 = 0 := by omega
  rw [rest, rest]
  congr 1
  conv => rhs; rw [div_split m.length i, h0]
  rw [Nat.pow_succ, Nat.add_zero, Nat.mul_comm 2, Nat.mul_assoc, Nat.mul_comm 2 (2 ^ i)]

theorem num_rest (m : List U8) (i n : Nat) : BitVec.ofNat 64 (leNat ((rest m (i + 1)).take n)) = num m (off m.length i) n := rfl

theorem u64_eq {p : List U8} (h : 8 ≤ p.length) : u64 p = .ok (BitVec.ofNat 64 (leNat (p.take 8))) := by
  rw [u64, if_pos h]; rfl

theorem setWidth_le {w : Nat} (l : List U8) (h : 8 * l.length = w) (hw : w ≤ 64) : (BitVec.ofNat w (leNat l)).setWidth 64 = BitVec.ofNat 64 (leNat l) := by
  apply BitVec.eq_of_toNat_eq
  have h1 := leNat_lt l
  have h2 : (256 : Nat) ^ l.length = 2 ^ w := by rw [← h, Nat.pow_mul]
  rw [h2] at h1
  rw [BitVec.toNat_setWidth, BitVec.toNat_ofNat, BitVec.toNat_ofNat, Nat.mod_eq_of_lt h1]

theorem u32_eq {p : List U8} (h : 4 ≤ p.length) : u32 p = .ok (BitVec.ofNat 64 (leNat (p.take 4))) := by
  rw [u32, if_pos h, le32, setWidth_le _ (by simp; omega) (by decide)]

theorem u16_eq {p : List U8} (h : 2 ≤ p.length) : u16 p = .ok (BitVec.ofNat 64 (leNat (p.take 2))) := by
  rw [u16, if_pos h, setWidth_le _ (by simp; omega) (by decide)]

theorem idx0_eq {p : List U8} (h : 1 ≤ p.length) : ∃ x, Go.idx p 0 = .ok x ∧ x.setWidth 64 = BitVec.ofNat 64 (leNat (p.take 1)) := by
  match p, h with
  | a :: p, _ => exact ⟨a, rfl, by simp [leNat]⟩

/-! ## Blocks -/

def toV (v : V) : Spec.Metro.V4 := (v.v0, v.v1, v.v2, v.v3)
def ofV (v : Spec.Metro.V4) : V := ⟨v.1, v.2.1, v.2.2.1, v.2.2.2⟩

theorem body32_eq (k : Spec.Metro.Keys) (v : V) (p : List U8) (h : 32 ≤ p.length) :
    body32 k.k0 k.k1 k.k2 k.k3 (v, p) = .ok (ofV (Spec.Metro.block k (toV v) (p.take 32)), p.drop 32) := by
  have l1 : (p.drop 8).length = p.length - 8 := by simp
  have l2 : (p.drop 16).length = p.length - 16 := by simp
  have l3 : (p.drop 24).length = p.length - 24 := by simp
  unfold body32
  simp only [u64_eq (show 8 ≤ p.length by omega), Go.from_eq (show 8 ≤ p.length by omega), Go.bind_ok,
    u64_eq (show 8 ≤ (p.drop 8).length by omega), Go.from_eq (show 8 ≤ (p.drop 8).length by omega), List.drop_drop, Nat.reduceAdd,
    u64_eq (show 8 ≤ (p.drop 16).length by omega), Go.from_eq (show 8 ≤ (p.drop 16).length by omega),
    u64_eq (show 8 ≤ (p.drop 24).length by omega), Go.from_eq (show 8 ≤ (p.drop 24).length by omega), Go.pure_ok,
    rr_eq _ (show 29 < 64 by decide)]
  have e : ∀ o, o + 8 ≤ 32 → num (p.take 32) o 8 = BitVec.ofNat 64 (leNat ((p.drop o).take 8)) := by
    intro o ho
    rw [num, List.drop_take, List.take_take, Nat.min_eq_left (by omega)]
  simp only [Spec.Metro.block, toV, ofV, e 0 (by decide), e 8 (by decide), e 16 (by decide), e 24 (by decide), List.drop_zero]

theorem foldl_ofV (k : Spec.Metro.Keys) (bs : List (List U8)) (v : V) :
    bs.foldl (fun v b => ofV (Spec.Metro.block k (toV v) b)) v = ofV (bs.foldl (Spec.Metro.block k) (toV v)) := by
  induction bs generalizing v with
  | nil => rfl
  | cons b bs ih => rw [List.foldl_cons, ih]; rfl

theorem loop32_eq (k : Spec.Metro.Keys) (v : V) (p : List U8) :
    loop32 k.k0 k.k1 k.k2 k.k3 v p = .ok (ofV ((blocks 32 p).foldl (Spec.Metro.block k) (toV v)), rest p 5) := by
  rw [loop32, Go.while_blocks (n := 32) (by decide) (f := fun v b => ofV (Spec.Metro.block k (toV v) b)) (fun _ _ => rfl)
    (fun v p h => body32_eq k v p h) _ _ _ (by omega), foldl_ofV]
  rfl

theorem after32_eq (k : Spec.Metro.Keys) (a b c d : Nat) (ha : a < 64) (hb : b < 64) (hc : c < 64) (hd : d < 64) (v : V) :
    after32 k.k0 k.k1 a b c d v = ofV (Spec.Metro.fold k a b c d (toV v)) := by
  simp only [after32, rr_eq _ ha, rr_eq _ hb, rr_eq _ hc, rr_eq _ hd, Spec.Metro.fold, toV, ofV]

theorem rest_short (p : List U8) (h : p.length < 32) : rest p 5 = p := by
  rw [rest, Nat.div_eq_of_lt (by simpa using h)]; simp

/-! ## 64 bits -/

theorem big64_eq (k : Spec.Metro.Keys) (r : Nat) (hr : r < 64) (hash : U64) (p : List U8) :
    big64 k.k0 k.k1 k.k2 k.k3 r hash p = .ok (if 32 ≤ p.length then
      hash + ((Spec.Metro.fold k r r r r ((blocks 32 p).foldl (Spec.Metro.block k) (hash, hash, hash, hash))).1 ^^^
        (Spec.Metro.fold k r r r r ((blocks 32 p).foldl (Spec.Metro.block k) (hash, hash, hash, hash))).2.1) else hash, rest p 5) := by
  unfold big64
  by_cases h : 32 ≤ p.length
  · rw [if_pos h, if_pos h, loop32_eq, Go.bind_ok]
    simp only [after32_eq k r r r r hr hr hr hr]
    rfl
  · rw [if_neg h, if_neg h, rest_short p (by omega)]

theorem mid64_eq (ka kb kc kd k0 k3 : U64) (r r' : Nat) (hr : r < 64) (hr' : r' < 64) (h : U64) (m : List U8) :
    mid64 ka kb kc kd k0 k3 r r' h (rest m 5) = .ok (if m.length.testBit 4 then
      (let o := off m.length 4
      let v0 := (h + num m o 8 * ka).rotateRight r * kb
      let v1 := (h + num m (o + 8) 8 * kc).rotateRight r * kd
      let v0 := v0 ^^^ ((v0 * k0).rotateRight r' + v1)
      let v1 := v1 ^^^ ((v1 * k3).rotateRight r' + v0)
      h + v1) else h, rest m 4) := by
  unfold mid64
  have hg := ge_iff m 4
  simp only [Nat.reducePow, Nat.reduceAdd] at hg
  by_cases ht : m.length.testBit 4 = true
  · have h16 := hg.2 ht
    have hd := rest_drop m 4 ht
    simp only [Nat.reducePow, Nat.reduceAdd] at hd
    have l1 : ((rest m 5).drop 8).length = (rest m 5).length - 8 := by simp
    rw [if_pos h16, if_pos ht]
    simp only [u64_eq (show 8 ≤ (rest m 5).length by omega), Go.from_eq (show 8 ≤ (rest m 5).length by omega), Go.bind_ok,
      u64_eq (show 8 ≤ ((rest m 5).drop 8).length by omega), Go.from_eq (show 8 ≤ ((rest m 5).drop 8).length by omega),
      List.drop_drop, Nat.reduceAdd, Go.pure_ok, rr_eq _ hr, rr_eq _ hr', hd]
    have e1 : BitVec.ofNat 64 (leNat ((rest m 5).take 8)) = num m (off m.length 4) 8 := rfl
    have e2 : BitVec.ofNat 64 (leNat (((rest m 5).drop 8).take 8)) = num m (off m.length 4 + 8) 8 := by
      rw [rest, List.drop_drop]; rfl
    rw [e1, e2]
  · rw [if_neg (fun h => ht (hg.1 h)), if_neg ht, rest_same m 4 ht]

theorem absorb64_eq (k1 k3 : U64) (r : Nat) (hr : r < 64) (x h : U64) :
    absorb64 k1 k3 r x h = (h + x * k3) ^^^ (h + x * k3).rotateRight r * k1 := by
  simp only [absorb64, rr_eq _ hr]

theorem eight64_eq (k1 k3 : U64) (r : Nat) (h : U64) (m : List U8) :
    eight64 k1 k3 r h (rest m 4) = .ok (piece m 3 (absorb64 k1 k3 r) h, rest m 3) := by
  unfold eight64 piece
  have hg := ge_iff m 3
  simp only [Nat.reducePow, Nat.reduceAdd] at hg
  by_cases ht : m.length.testBit 3 = true
  · have hl := hg.2 ht
    have hd := rest_drop m 3 ht
    simp only [Nat.reducePow, Nat.reduceAdd] at hd
    rw [if_pos hl, if_pos ht, u64_eq hl, Go.bind_ok, Go.from_eq hl, Go.bind_ok, hd]; rfl
  · rw [if_neg (fun h => ht (hg.1 h)), if_neg ht, rest_same m 3 ht]

theorem four64_eq (k1 k3 : U64) (r : Nat) (h : U64) (m : List U8) :
    four64 4 k1 k3 r h (rest m 3) = .ok (piece m 2 (absorb64 k1 k3 r) h, rest m 2) := by
  unfold four64 piece
  have hg := ge_iff m 2
  simp only [Nat.reducePow, Nat.reduceAdd] at hg
  by_cases ht : m.length.testBit 2 = true
  · have hl := hg.2 ht
    have hd := rest_drop m 2 ht
    simp only [Nat.reducePow, Nat.reduceAdd] at hd
    rw [if_pos hl, if_pos ht, u32_eq hl, Go.bind_ok, Go.from_eq hl, Go.bind_ok, hd]; rfl
  · rw [if_neg (fun h => ht (hg.1 h)), if_neg ht, rest_same m 2 ht]

theorem two64_eq (k1 k3 : U64) (r : Nat) (h : U64) (m : List U8) :
    two64 k1 k3 r h (rest m 2) = .ok (piece m 1 (absorb64 k1 k3 r) h, rest m 1) := by
  unfold two64 piece
  have hg := ge_iff m 1
  simp only [Nat.reducePow, Nat.reduceAdd] at hg
  by_cases ht : m.length.testBit 1 = true
  · have hl := hg.2 ht
    have hd := rest_drop m 1 ht
    simp only [Nat.reducePow, Nat.reduceAdd] at hd
    rw [if_pos hl, if_pos ht, u16_eq hl, Go.bind_ok, Go.from_eq hl, Go.bind_ok, hd]; rfl
  · rw [if_neg (fun h => ht (hg.1 h)), if_neg ht, rest_same m 1 ht]

theorem one64_eq (k1 k3 : U64) (r : Nat) (h : U64) (m : List U8) :
    one64 k1 k3 r h (rest m 1) = .ok (piece m 0 (absorb64 k1 k3 r) h) := by
  unfold one64 piece
  have hg := ge_iff m 0
  simp only [Nat.reducePow, Nat.reduceAdd] at hg
  by_cases ht : m.length.testBit 0 = true
  · have hl := hg.2 ht
    obtain ⟨x, e, hx⟩ := idx0_eq hl
    rw [if_pos hl, if_pos ht, e, Go.bind_ok, hx]; rfl
  · rw [if_neg (fun h => ht (hg.1 h)), if_neg ht]

theorem piece_congr {f g : U64 → σ → σ} (h : ∀ x s, f x s = g x s) (m : List U8) (i : Nat) (s : σ) : piece m i f s = piece m i g s := by
  unfold piece; split
  · exact h _ _
  · rfl

theorem Hash64_2_eq (m : List U8) (seed : U32) : Hash64_2 m seed = .ok (Spec.Metro.metro64 Spec.Metro.params64_2 m seed) := by
  unfold Hash64_2
  have eb := fun h => big64_eq Spec.Metro.keys2 30 (by decide) h m
  simp only [Spec.Metro.keys2] at eb
  simp only [eb, Go.bind_ok, mid64_eq _ _ _ _ _ _ 29 34 (by decide) (by decide), eight64_eq, four64_eq, two64_eq, one64_eq, Go.pure_ok,
    rr_eq _ (show 28 < 64 by decide), rr_eq _ (show 29 < 64 by decide)]
  simp only [Spec.Metro.metro64, Spec.Metro.run64, Spec.Metro.final64, Spec.Metro.sixteen64, Spec.Metro.head64, Spec.Metro.start64, Spec.Metro.params64_2, Spec.Metro.keys2]
  have e : ∀ r, r < 64 → ∀ x h, absorb64 0xA2AA033B#64 0x30BC5B29#64 r x h = Spec.Metro.step64 Spec.Metro.params64_2 r x h := by
    intro r hr x h
    rw [absorb64_eq _ _ _ hr]; rfl
  simp only [piece_congr (e 36 (by decide)), piece_congr (e 15 (by decide)), piece_congr (e 23 (by decide)), Spec.Metro.params64_2, Spec.Metro.keys2]

/-- `Hash64_1` away from the lengths that are 4 modulo 8. -/
theorem four64_5 (k1 k3 : U64) (r : Nat) (h : U64) (m : List U8) (hm : m.length % 8 ≠ 4) :
    four64 5 k1 k3 r h (rest m 3) = four64 4 k1 k3 r h (rest m 3) := by
  have hl := rest_length m 3
  simp only [Nat.reducePow] at hl
  unfold four64
  by_cases h5 : (rest m 3).length ≥ 5
  · rw [if_pos h5, if_pos (by omega)]
  · rw [if_neg h5, if_neg (by omega)]

theorem Hash64_1_eq (m : List U8) (seed : U32) (hm : m.length % 8 ≠ 4) : Hash64_1 m seed = .ok (Spec.Metro.metro64 Spec.Metro.params64_1 m seed) := by
  unfold Hash64_1
  have eb := fun h => big64_eq Spec.Metro.keys1 33 (by decide) h m
  simp only [Spec.Metro.keys1] at eb
  simp only [eb, Go.bind_ok, mid64_eq _ _ _ _ _ _ 33 35 (by decide) (by decide), eight64_eq, four64_5 _ _ _ _ m hm, four64_eq, two64_eq, one64_eq, Go.pure_ok,
    rr_eq _ (show 33 < 64 by decide)]
  simp only [Spec.Metro.metro64, Spec.Metro.run64, Spec.Metro.final64, Spec.Metro.sixteen64, Spec.Metro.head64, Spec.Metro.start64, Spec.Metro.params64_1, Spec.Metro.keys1]
  have e : ∀ r, r < 64 → ∀ x h, absorb64 0x8648DBDB#64 0x2F5870A5#64 r x h = Spec.Metro.step64 Spec.Metro.params64_1 r x h := by
    intro r hr x h
    rw [absorb64_eq _ _ _ hr]; rfl
  simp only [piece_congr (e 33 (by decide)), piece_congr (e 15 (by decide)), piece_congr (e 13 (by decide)), piece_congr (e 25 (by decide)), Spec.Metro.params64_1, Spec.Metro.keys1]

/-- What `Hash64_1` does when four bytes are left: it absorbs the first two and the third, and never looks at the
fourth. -/
theorem Hash64_1_four (m : List U8) (seed : U32) (hm : m.length % 8 = 4) :
    Hash64_1 m seed = .ok (Spec.Metro.final64 Spec.Metro.params64_1
      (Spec.Metro.step64 Spec.Metro.params64_1 25 (num m (m.length - 2) 1)
        (Spec.Metro.step64 Spec.Metro.params64_1 13 (num m (m.length - 4) 2)
          (piece m 3 (Spec.Metro.step64 Spec.Metro.params64_1 33) (Spec.Metro.sixteen64 Spec.Metro.params64_1 m
            (Spec.Metro.head64 Spec.Metro.params64_1 m (Spec.Metro.start64 Spec.Metro.params64_1 m seed))))))) := by
  unfold Hash64_1
  have eb := fun h => big64_eq Spec.Metro.keys1 33 (by decide) h m
  simp only [Spec.Metro.keys1] at eb
  have hl := rest_length m 3
  simp only [Nat.reducePow, hm] at hl
  have hr : rest m 3 = m.drop (m.length - 4) := by
    rw [rest]; congr 1; simp only [Nat.reducePow]; omega
  have e4 : ∀ h, four64 5 0x8648DBDB#64 0x2F5870A5#64 15 h (rest m 3) = .ok (h, rest m 3) := by
    intro h; unfold four64; rw [if_neg (by omega)]
  have e2 : ∀ h, two64 0x8648DBDB#64 0x2F5870A5#64 13 h (rest m 3) = .ok (absorb64 0x8648DBDB#64 0x2F5870A5#64 13 (num m (m.length - 4) 2) h, m.drop (m.length - 2)) := by
    intro h; unfold two64
    rw [if_pos (by omega), u16_eq (by omega), Go.bind_ok, Go.from_eq (by omega), Go.bind_ok, hr, List.drop_drop]
    rw [show m.length - 4 + 2 = m.length - 2 by omega]; rfl
  have e1 : ∀ h, one64 0x8648DBDB#64 0x2F5870A5#64 25 h (m.drop (m.length - 2)) = .ok (absorb64 0x8648DBDB#64 0x2F5870A5#64 25 (num m (m.length - 2) 1) h) := by
    intro h; unfold one64
    have : 1 ≤ (m.drop (m.length - 2)).length := by rw [List.length_drop]; omega
    obtain ⟨x, e, hx⟩ := idx0_eq this
    rw [if_pos this, e, Go.bind_ok, hx]; rfl
  simp only [eb, Go.bind_ok, mid64_eq _ _ _ _ _ _ 33 35 (by decide) (by decide), eight64_eq, e4, e2, e1, Go.pure_ok,
    rr_eq _ (show 33 < 64 by decide)]
  simp only [Spec.Metro.final64, Spec.Metro.sixteen64, Spec.Metro.head64, Spec.Metro.start64, Spec.Metro.params64_1, Spec.Metro.keys1]
  have e : ∀ r, r < 64 → ∀ x h, absorb64 0x8648DBDB#64 0x2F5870A5#64 r x h = Spec.Metro.step64 Spec.Metro.params64_1 r x h := by
    intro r hr x h
    rw [absorb64_eq _ _ _ hr]; rfl
  simp only [piece_congr (e 33 (by decide)), e 13 (by decide), e 25 (by decide), Spec.Metro.params64_1, Spec.Metro.keys1]

/-- The short form: the last byte is only counted, never read. -/
theorem num_append (k l : List U8) (o n : Nat) (h : o + n ≤ k.length) : num (k ++ l) o n = num k o n := by
  rw [num, num, List.drop_append_of_le_length (by omega), List.take_append_of_le_length (by simp; omega)]

theorem bit_congr {a b : Nat} (i : Nat) (h : a / 2 ^ i = b / 2 ^ i) : a.testBit i = b.testBit i := by
  rw [Nat.testBit_eq_decide_div_mod_eq, Nat.testBit_eq_decide_div_mod_eq, h]

theorem off_congr {a b : Nat} (i : Nat) (h : a / 2 ^ (i + 1) = b / 2 ^ (i + 1)) : off a i = off b i := by
  rw [off, off, h]

theorem Hash64_1_ignores (k : List U8) (x : U8) (seed : U32) (hk : k.length % 8 = 3) :
    Hash64_1 (k ++ [x]) seed = .ok (Spec.Metro.run64 Spec.Metro.params64_1 k (Spec.Metro.start64 Spec.Metro.params64_1 (k ++ [x]) seed)) := by
  have hl : (k ++ [x]).length = k.length + 1 := by simp
  rw [Hash64_1_four _ _ (by omega)]
  generalize Spec.Metro.start64 Spec.Metro.params64_1 (k ++ [x]) seed = st
  have b3 : (k ++ [x]).length.testBit 3 = k.length.testBit 3 := bit_congr 3 (by simp only [hl, Nat.reducePow]; omega)
  have b4 : (k ++ [x]).length.testBit 4 = k.length.testBit 4 := bit_congr 4 (by simp only [hl, Nat.reducePow]; omega)
  have o3 : off (k ++ [x]).length 3 = off k.length 3 := off_congr 3 (by simp only [hl, Nat.reducePow]; omega)
  have o4 : off (k ++ [x]).length 4 = off k.length 4 := off_congr 4 (by simp only [hl, Nat.reducePow]; omega)
  have t2 : k.length.testBit 2 = false := by
    rw [Nat.testBit_eq_decide_div_mod_eq]; simp only [Nat.reducePow, decide_eq_false_iff_not]; omega
  have t1 : k.length.testBit 1 = true := by rw [testBit_iff]; simp only [Nat.reducePow]; omega
  have t0 : k.length.testBit 0 = true := by rw [testBit_iff]; simp only [Nat.reducePow]; omega
  have eh : Spec.Metro.head64 Spec.Metro.params64_1 (k ++ [x]) st = Spec.Metro.head64 Spec.Metro.params64_1 k st := by
    have hb : blocks 32 (k ++ [x]) = blocks 32 k := by
      have h1 := tailOf_length 32 k
      rw [blocks_append (by decide), blocks_of_lt (l := tailOf 32 k ++ [x]), List.append_nil]
      rw [List.length_append, h1, List.length_singleton]; omega
    unfold Spec.Metro.head64
    by_cases h : 32 ≤ k.length
    · rw [if_pos (by omega), if_pos h, hb]
    · rw [if_neg (by omega), if_neg h]
  have e16 : ∀ s, Spec.Metro.sixteen64 Spec.Metro.params64_1 (k ++ [x]) s = Spec.Metro.sixteen64 Spec.Metro.params64_1 k s := by
    intro s
    unfold Spec.Metro.sixteen64
    rw [b4, o4]
    by_cases h : k.length.testBit 4 = true
    · rw [if_pos h, if_pos h]
      have := off_succ _ _ h
      simp only [Nat.reducePow] at this
      simp only [num_append k [x] (off k.length 4) 8 (by omega), num_append k [x] (off k.length 4 + 8) 8 (by omega)]
    · rw [if_neg h, if_neg h]
  have e8 : ∀ s, piece (k ++ [x]) 3 (Spec.Metro.step64 Spec.Metro.params64_1 33) s = piece k 3 (Spec.Metro.step64 Spec.Metro.params64_1 33) s := by
    intro s
    unfold piece
    rw [b3, o3]
    by_cases h : k.length.testBit 3 = true
    · rw [if_pos h, if_pos h]
      have := off_succ _ _ h
      simp only [Nat.reducePow] at this
      simp only [Nat.reducePow]
      rw [num_append _ _ _ _ (by omega)]
    · rw [if_neg h, if_neg h]
  rw [eh, e16, e8, hl, num_append _ _ _ _ (by omega), num_append _ _ _ _ (by omega)]
  have f2 : k.length + 1 - 4 = off k.length 1 := by simp only [off, Nat.reduceAdd, Nat.reducePow]; omega
  have f1 : k.length + 1 - 2 = off k.length 0 := by simp only [off, Nat.reduceAdd, Nat.reducePow]; omega
  have p2 : ∀ s, piece k 2 (Spec.Metro.step64 Spec.Metro.params64_1 Spec.Metro.params64_1.r4) s = s := by
    intro s; unfold piece; rw [if_neg (by rw [t2]; decide)]
  have p1 : ∀ s, piece k 1 (Spec.Metro.step64 Spec.Metro.params64_1 Spec.Metro.params64_1.r2) s = Spec.Metro.step64 Spec.Metro.params64_1 13 (num k (k.length + 1 - 4) 2) s := by
    intro s; unfold piece; rw [if_pos t1, f2]; rfl
  have p0 : ∀ s, piece k 0 (Spec.Metro.step64 Spec.Metro.params64_1 Spec.Metro.params64_1.r1) s = Spec.Metro.step64 Spec.Metro.params64_1 25 (num k (k.length + 1 - 2) 1) s := by
    intro s; unfold piece; rw [if_pos t0, f1]; rfl
  rw [Spec.Metro.run64, p2, p1, p0]
  rfl

/-! ## 128 bits -/

open Verif.Spec.Metro (Params128 stepA stepB)

theorem big128_eq (P : Params128) (h0 : P.f0 < 64) (h1 : P.f1 < 64) (h2 : P.f2 < 64) (h3 : P.f3 < 64) (seed : U32) (p : List U8) :
    big128 P.keys.k0 P.keys.k1 P.keys.k2 P.keys.k3 P.f0 P.f1 P.f2 P.f3 seed p =
      .ok ((Spec.Metro.head128 P p seed).1, (Spec.Metro.head128 P p seed).2, rest p 5) := by
  unfold big128 Spec.Metro.head128
  by_cases h : 32 ≤ p.length
  · simp only [if_pos h, ge_iff_le, loop32_eq, Go.bind_ok, after32_eq P.keys _ _ _ _ h0 h1 h2 h3]
    rfl
  · simp only [if_neg h, ge_iff_le, rest_short p (by omega)]

theorem mid128_eq (P : Params128) (hr : P.rot < 64) (ha : P.r16a < 64) (hb : P.r16b < 64) (v : U64 × U64) (m : List U8) :
    mid128 P.keys.k0 P.keys.k1 P.keys.k2 P.keys.k3 P.rot P.r16a P.r16b v.1 v.2 (rest m 5) =
      .ok ((Spec.Metro.sixteen128 P m v).1, (Spec.Metro.sixteen128 P m v).2, rest m 4) := by
  unfold mid128 Spec.Metro.sixteen128
  have hg := ge_iff m 4
  simp only [Nat.reducePow, Nat.reduceAdd] at hg
  by_cases ht : m.length.testBit 4 = true
  · have h16 := hg.2 ht
    have hd := rest_drop m 4 ht
    simp only [Nat.reducePow, Nat.reduceAdd] at hd
    have l1 : ((rest m 5).drop 8).length = (rest m 5).length - 8 := by simp
    rw [if_pos h16, if_pos ht]
    simp only [u64_eq (show 8 ≤ (rest m 5).length by omega), Go.from_eq (show 8 ≤ (rest m 5).length by omega), Go.bind_ok,
      u64_eq (show 8 ≤ ((rest m 5).drop 8).length by omega), Go.from_eq (show 8 ≤ ((rest m 5).drop 8).length by omega),
      List.drop_drop, Nat.reduceAdd, Go.pure_ok, rr_eq _ hr, rr_eq _ ha, rr_eq _ hb, hd]
    have e1 : BitVec.ofNat 64 (leNat ((rest m 5).take 8)) = num m (off m.length 4) 8 := rfl
    have e2 : BitVec.ofNat 64 (leNat (((rest m 5).drop 8).take 8)) = num m (off m.length 4 + 8) 8 := by
      rw [rest, List.drop_drop]; rfl
    rw [e1, e2]
  · rw [if_neg (fun h => ht (hg.1 h)), if_neg ht, rest_same m 4 ht]

theorem absorbA_eq (P : Params128) (r : Nat) (hr : r < 64) (hrot : P.rot < 64) (x : U64) (v : U64 × U64) :
    (absorbA P.keys.k1 P.keys.k2 P.keys.k3 P.rot r x v.1 v.2, v.2) = stepA P r x v := by
  simp only [absorbA, rr_eq _ hr, rr_eq _ hrot, stepA]

theorem absorbB_eq (P : Params128) (r : Nat) (hr : r < 64) (hrot : P.rot < 64) (x : U64) (v : U64 × U64) :
    (v.1, absorbB P.keys.k0 P.keys.k2 P.keys.k3 P.rot r x v.1 v.2) = stepB P r x v := by
  simp only [absorbB, rr_eq _ hr, rr_eq _ hrot, stepB]

theorem eight128_eq (P : Params128) (r : Nat) (hr : r < 64) (hrot : P.rot < 64) (v : U64 × U64) (m : List U8) :
    eight128 P.keys.k1 P.keys.k2 P.keys.k3 P.rot r v.1 v.2 (rest m 4) =
      .ok ((piece m 3 (stepA P r) v).1, (piece m 3 (stepA P r) v).2, rest m 3) := by
  unfold eight128 piece
  have hg := ge_iff m 3
  simp only [Nat.reducePow, Nat.reduceAdd] at hg
  by_cases ht : m.length.testBit 3 = true
  · have hl := hg.2 ht
    have hd := rest_drop m 3 ht
    simp only [Nat.reducePow, Nat.reduceAdd] at hd
    rw [if_pos hl, if_pos ht, u64_eq hl, Go.bind_ok, Go.from_eq hl, Go.bind_ok, hd, ← absorbA_eq P r hr hrot]; rfl
  · rw [if_neg (fun h => ht (hg.1 h)), if_neg ht, rest_same m 3 ht]

theorem four128_eq (P : Params128) (r : Nat) (hr : r < 64) (hrot : P.rot < 64) (v : U64 × U64) (m : List U8) :
    four128 P.keys.k0 P.keys.k2 P.keys.k3 P.rot r v.1 v.2 (rest m 3) =
      .ok ((piece m 2 (stepB P r) v).1, (piece m 2 (stepB P r) v).2, rest m 2) := by
  unfold four128 piece
  have hg := ge_iff m 2
  simp only [Nat.reducePow, Nat.reduceAdd] at hg
  by_cases ht : m.length.testBit 2 = true
  · have hl := hg.2 ht
    have hd := rest_drop m 2 ht
    simp only [Nat.reducePow, Nat.reduceAdd] at hd
    rw [if_pos hl, if_pos ht, u32_eq hl, Go.bind_ok, Go.from_eq hl, Go.bind_ok, hd, ← absorbB_eq P r hr hrot]; rfl
  · rw [if_neg (fun h => ht (hg.1 h)), if_neg ht, rest_same m 2 ht]

theorem two128_eq (P : Params128) (r : Nat) (hr : r < 64) (hrot : P.rot < 64) (v : U64 × U64) (m : List U8) :
    two128 P.keys.k1 P.keys.k2 P.keys.k3 P.rot r v.1 v.2 (rest m 2) =
      .ok ((piece m 1 (stepA P r) v).1, (piece m 1 (stepA P r) v).2, rest m 1) := by
  unfold two128 piece
  have hg := ge_iff m 1
  simp only [Nat.reducePow, Nat.reduceAdd] at hg
  by_cases ht : m.length.testBit 1 = true
  · have hl := hg.2 ht
    have hd := rest_drop m 1 ht
    simp only [Nat.reducePow, Nat.reduceAdd] at hd
    rw [if_pos hl, if_pos ht, u16_eq hl, Go.bind_ok, Go.from_eq hl, Go.bind_ok, hd, ← absorbA_eq P r hr hrot]; rfl
  · rw [if_neg (fun h => ht (hg.1 h)), if_neg ht, rest_same m 1 ht]

theorem one128_eq (P : Params128) (r : Nat) (hr : r < 64) (hrot : P.rot < 64) (v : U64 × U64) (m : List U8) :
    one128 P.keys.k0 P.keys.k2 P.keys.k3 P.rot r v.1 v.2 (rest m 1) = .ok (piece m 0 (stepB P r) v) := by
  unfold one128 piece
  have hg := ge_iff m 0
  simp only [Nat.reducePow, Nat.reduceAdd] at hg
  by_cases ht : m.length.testBit 0 = true
  · have hl := hg.2 ht
    obtain ⟨x, e, hx⟩ := idx0_eq hl
    rw [if_pos hl, if_pos ht, e, Go.bind_ok, hx, ← absorbB_eq P r hr hrot]; rfl
  · rw [if_neg (fun h => ht (hg.1 h)), if_neg ht]

theorem last128_eq (P : Params128) (ha : P.rA < 64) (hb : P.rB < 64) (v : U64 × U64) :
    last128 P.keys.k0 P.keys.k1 P.keys.k2 P.keys.k3 P.rA P.rB v.1 v.2 = Spec.Metro.final128 P v := by
  simp only [last128, rr_eq _ ha, rr_eq _ hb, Spec.Metro.final128]

/-- The common code of the two 128-bit functions. -/
def gen128 (P : Params128) (key : List U8) (seed : U32) : Go (U64 × U64) := do
  let (v0, v1, ptr) ← big128 P.keys.k0 P.keys.k1 P.keys.k2 P.keys.k3 P.f0 P.f1 P.f2 P.f3 seed key
  let (v0, v1, ptr) ← mid128 P.keys.k0 P.keys.k1 P.keys.k2 P.keys.k3 P.rot P.r16a P.r16b v0 v1 ptr
  let (v0, v1, ptr) ← eight128 P.keys.k1 P.keys.k2 P.keys.k3 P.rot P.r8 v0 v1 ptr
  let (v0, v1, ptr) ← four128 P.keys.k0 P.keys.k2 P.keys.k3 P.rot P.r4 v0 v1 ptr
  let (v0, v1, ptr) ← two128 P.keys.k1 P.keys.k2 P.keys.k3 P.rot P.r2 v0 v1 ptr
  let (v0, v1) ← one128 P.keys.k0 P.keys.k2 P.keys.k3 P.rot P.r1 v0 v1 ptr
  return last128 P.keys.k0 P.keys.k1 P.keys.k2 P.keys.k3 P.rA P.rB v0 v1

theorem gen128_eq (P : Params128) (h : P.f0 < 64 ∧ P.f1 < 64 ∧ P.f2 < 64 ∧ P.f3 < 64 ∧ P.rot < 64 ∧ P.r16a < 64 ∧ P.r16b < 64 ∧
    P.r8 < 64 ∧ P.r4 < 64 ∧ P.r2 < 64 ∧ P.r1 < 64 ∧ P.rA < 64 ∧ P.rB < 64) (m : List U8) (seed : U32) :
    gen128 P m seed = .ok (Spec.Metro.metro128 P m seed) := by
  obtain ⟨a1, a2, a3, a4, hr, b1, b2, c8, c4, c2, c1, d1, d2⟩ := h
  unfold gen128
  simp only [big128_eq P a1 a2 a3 a4, Go.bind_ok, mid128_eq P hr b1 b2, eight128_eq P _ c8 hr, four128_eq P _ c4 hr, two128_eq P _ c2 hr,
    one128_eq P _ c1 hr, last128_eq P d1 d2, Go.pure_ok, Spec.Metro.metro128]

theorem Hash128_1_eq (m : List U8) (seed : U32) : Hash128_1 m seed = .ok (Spec.Metro.metro128 Spec.Metro.params128_1 m seed) :=
  gen128_eq Spec.Metro.params128_1 (by decide) m seed

theorem Hash128_2_eq (m : List U8) (seed : U32) : Hash128_2 m seed = .ok (Spec.Metro.metro128 Spec.Metro.params128_2 m seed) :=
  gen128_eq Spec.Metro.params128_2 (by decide) m seed

end Verif.Lemmas.Metro
