import Verif.Model.Farm
import Verif.Spec.Farm
import Verif.Lemmas.Basic
import Verif.Lemmas.Bits
import Verif.Lemmas.Loop
import Mathlib.Tactic.IntervalCases
import Mathlib.Tactic.Set

namespace Verif.Lemmas.Farm
open Verif Verif.Model.Farm
open Verif.Spec.Farm (w32 w64 byte scramble stir mix2 mix16 weak)

/-! ## Reads -/

theorem at_eq {s : List U8} {i : Int} (n : Nat) (hi : i = n) (h : n < s.length) : at_ s i = .ok s[n] := by
  subst hi
  rw [at_, if_pos (by omega), Int.toNat_natCast, Go.idx_eq h]

theorem tail_eq {s : List U8} {i : Int} (n : Nat) (hi : i = n) (h : n ≤ s.length) : tail s i = .ok (s.drop n) := by
  subst hi
  rw [tail, if_pos (by omega), Int.toNat_natCast, Go.from_eq h]

theorem drop4 {s : List U8} {n : Nat} (h : n + 4 ≤ s.length) :
    s.drop n = s[n] :: s[n + 1] :: s[n + 2] :: s[n + 3] :: s.drop (n + 4) := by
  rw [List.drop_eq_getElem_cons (show n < s.length by omega), List.drop_eq_getElem_cons (show n + 1 < s.length by omega),
    List.drop_eq_getElem_cons (show n + 2 < s.length by omega), List.drop_eq_getElem_cons (show n + 3 < s.length by omega)]

theorem fetch32_eq {s : List U8} {i : Int} (n : Nat) (hi : i = n) (h : n + 4 ≤ s.length) : fetch32 s i = .ok (w32 s n) := by
  unfold fetch32
  rw [at_eq n (by omega) (by omega), Go.bind_ok, at_eq (n + 1) (by omega) (by omega), Go.bind_ok, at_eq (n + 2) (by omega) (by omega), Go.bind_ok,
    at_eq (n + 3) (by omega) (by omega), Go.bind_ok, or4_eq _ _ _ _ (s.drop (n + 4)), w32, drop4 h]
  rfl

theorem fetch64_eq {s : List U8} {i : Int} (n : Nat) (hi : i = n) (h : n + 8 ≤ s.length) : fetch64 s i = .ok (w64 s n) := by
  unfold fetch64
  rw [at_eq n (by omega) (by omega), Go.bind_ok, at_eq (n + 1) (by omega) (by omega), Go.bind_ok, at_eq (n + 2) (by omega) (by omega), Go.bind_ok,
    at_eq (n + 3) (by omega) (by omega), Go.bind_ok, at_eq (n + 4) (by omega) (by omega), Go.bind_ok, at_eq (n + 5) (by omega) (by omega), Go.bind_ok,
    at_eq (n + 6) (by omega) (by omega), Go.bind_ok, at_eq (n + 7) (by omega) (by omega), Go.bind_ok, or8_eq _ _ _ _ _ _ _ _ (s.drop (n + 8)), w64,
    drop4 (show n + 4 ≤ s.length by omega), drop4 (show n + 4 + 4 ≤ s.length by omega)]
  rfl

theorem w32_drop (s : List U8) (a b : Nat) : w32 (s.drop a) b = w32 s (a + b) := by rw [w32, w32, List.drop_drop]
theorem w64_drop (s : List U8) (a b : Nat) : w64 (s.drop a) b = w64 s (a + b) := by rw [w64, w64, List.drop_drop]

/-! ## Arithmetic -/

theorem rot32 (v : U32) (n : Nat) (h : n < 32) : rotate32 v n = v.rotateRight n := by
  unfold rotate32
  by_cases h0 : n = 0
  · subst h0; rw [if_pos rfl, ← rotr_eq v h]; simp
  · rw [if_neg h0, ← rotr_eq v h]

theorem rot64 (v : U64) (n : Nat) (h : n < 64) : rotate64 v n = v.rotateRight n := by
  unfold rotate64
  by_cases h0 : n = 0
  · subst h0; rw [if_pos rfl, ← rotr_eq v h]; simp
  · rw [if_neg h0, ← rotr_eq v h]

theorem k0_eq : k0 = Spec.Farm.k0 := rfl
theorem k1_eq : k1 = Spec.Farm.k1 := rfl
theorem k2_eq : k2 = Spec.Farm.k2 := rfl
theorem c1_eq : c1 = Spec.Farm.c1 := rfl
theorem c2_eq : c2 = Spec.Farm.c2 := rfl
theorem fmix_eq (h : U32) : fmix h = Spec.Farm.fmix h := by simp only [fmix, Spec.Farm.fmix]
theorem pre_eq (x : U32) : pre x = scramble x := by simp only [pre, scramble, rot32 _ 17 (by decide), c1_eq, c2_eq]
theorem mur_eq (a h : U32) : mur a h = Spec.Farm.mur a h := by
  simp only [mur, Spec.Farm.mur, stir, scramble, rot32 _ 17 (by decide), rot32 _ 19 (by decide), c1_eq, c2_eq]
theorem shiftMix_eq (x : U64) : shiftMix x = Spec.Farm.shiftMix x := rfl
theorem mul_eq (u v mul : U64) : hashLen16Mul u v mul = mix2 u v mul := by simp only [hashLen16Mul, mix2, Spec.Farm.shiftMix]
theorem len16_eq (u v : U64) : hashLen16 u v = mix16 u v := by simp only [hashLen16, hash128to64, mix16, mix2, Spec.Farm.shiftMix]
theorem uoH_eq (x y mul : U64) (r : Nat) (h : r < 64) : uoH x y mul r = Spec.Farm.uoH x y mul r := by
  simp only [uoH, Spec.Farm.uoH, rot64 _ _ h, Spec.Farm.shiftMix]

/-! ## 32 bits -/

theorem len13to24_eq (s : List U8) (seed : U32) (h : 13 ≤ s.length) : hash32Len13to24Seed s seed = .ok (Spec.Farm.len13to24 s seed) := by
  unfold hash32Len13to24Seed
  simp only [fetch32_eq (s := s) (i := -4 + (s.length : Int) / 2) (s.length / 2 - 4) (by omega) (by omega),
    fetch32_eq (s := s) (i := 4) 4 (by omega) (by omega), fetch32_eq (s := s) (i := (s.length : Int) - 8) (s.length - 8) (by omega) (by omega),
    fetch32_eq (s := s) (i := (s.length : Int) / 2) (s.length / 2) (by omega) (by omega), fetch32_eq (s := s) (i := 0) 0 (by omega) (by omega),
    fetch32_eq (s := s) (i := (s.length : Int) - 4) (s.length - 4) (by omega) (by omega), Go.bind_ok, Go.pure_ok, rot32 _ 12 (by decide), rot32 _ 3 (by decide),
    mur_eq, fmix_eq, c1_eq, Spec.Farm.len13to24]

theorem len0to4_eq (s : List U8) (seed : U32) : hash32Len0to4 s seed = .ok (Spec.Farm.len0to4 s seed) := by
  unfold hash32Len0to4
  have e : ∀ (t : List U8) (p : List U8) (bc : U32 × U32), p ++ t = s →
      Go.forRange p.length t.length (fun i bc => do return step0to4 bc (← at_ s i)) bc = .ok (t.foldl step0to4 bc) := by
    intro t
    induction t with
    | nil => intro p bc _; rfl
    | cons a t ih =>
      intro p bc hp
      have hl : p.length < s.length := by rw [← hp]; simp
      have ha : s[p.length] = a := by simp [← hp]
      rw [List.length_cons, Go.forRange, at_eq p.length rfl hl, ha]
      have := ih (p ++ [a]) (step0to4 bc a) (by rw [← hp]; simp)
      rw [List.length_append, List.length_singleton] at this
      exact this
  rw [show (0 : Nat) = ([] : List U8).length from rfl, e s [] _ rfl, Go.bind_ok]
  simp only [mur_eq, fmix_eq, Go.pure_ok, Spec.Farm.len0to4]
  rfl

theorem len5to12_eq (s : List U8) (seed : U32) (h : 5 ≤ s.length) (h' : s.length ≤ 12) : hash32Len5to12 s seed = .ok (Spec.Farm.len5to12 s seed) := by
  unfold hash32Len5to12
  have e : s.length >>> 1 &&& 4 = if 8 ≤ s.length then 4 else 0 := by
    generalize s.length = n at h h'
    interval_cases n <;> decide
  rw [e]
  have hb : (if 8 ≤ s.length then 4 else 0) + 4 ≤ s.length := by split <;> omega
  simp only [fetch32_eq (s := s) (i := 0) 0 (by omega) (by omega), fetch32_eq (s := s) (i := (s.length : Int) - 4) (s.length - 4) (by omega) (by omega),
    fetch32_eq (s := s) (i := ((if 8 ≤ s.length then 4 else 0 : Nat) : Int)) _ rfl hb, Go.bind_ok, Go.pure_ok, mur_eq, fmix_eq, Spec.Farm.len5to12, Nat.mul_comm 5]

def hgf (v : U32 × U32 × U32) : HGF := ⟨v.1, v.2.1, v.2.2⟩

theorem body32_eq (m : List U8) (o : Nat) (v : U32 × U32 × U32) (k : Nat) (h : o + 20 ≤ m.length) :
    body32 (hgf v, m.drop o, k) = .ok (hgf (Spec.Farm.block20 m o v), m.drop (o + 20), k - 1) := by
  have hl : (m.drop o).length = m.length - o := by simp
  unfold body32
  simp only [fetch32_eq (s := m.drop o) (i := 0) 0 (by omega) (by omega), fetch32_eq (s := m.drop o) (i := 4) 4 (by omega) (by omega),
    fetch32_eq (s := m.drop o) (i := 8) 8 (by omega) (by omega), fetch32_eq (s := m.drop o) (i := 12) 12 (by omega) (by omega),
    fetch32_eq (s := m.drop o) (i := 16) 16 (by omega) (by omega), tail_eq (s := m.drop o) (i := 20) 20 (by omega) (by omega), Go.bind_ok, Go.pure_ok,
    w32_drop, List.drop_drop, Nat.add_zero, hgf, round32, Spec.Farm.block20, mur_eq, c1_eq]

/-- The words before the first block. -/
def begin32 (s : List U8) : U32 × U32 × U32 :=
  (stir (stir (BitVec.ofNat 32 s.length ^^^ scramble (w32 s (s.length - 4))) ^^^ scramble (w32 s (s.length - 16))),
    stir (stir (Spec.Farm.c1 * BitVec.ofNat 32 s.length ^^^ scramble (w32 s (s.length - 8))) ^^^ scramble (w32 s (s.length - 12))),
    (Spec.Farm.c1 * BitVec.ofNat 32 s.length + scramble (w32 s (s.length - 20))).rotateRight 19 + 113#32)

theorem start32_eq (s : List U8) (h : 24 < s.length) : start32 s = .ok (hgf (begin32 s)) := by
  unfold start32
  simp only [fetch32_eq (s := s) (i := (s.length : Int) - 4) (s.length - 4) (by omega) (by omega), fetch32_eq (s := s) (i := (s.length : Int) - 8) (s.length - 8) (by omega) (by omega),
    fetch32_eq (s := s) (i := (s.length : Int) - 16) (s.length - 16) (by omega) (by omega), fetch32_eq (s := s) (i := (s.length : Int) - 12) (s.length - 12) (by omega) (by omega),
    fetch32_eq (s := s) (i := (s.length : Int) - 20) (s.length - 20) (by omega) (by omega), Go.bind_ok, Go.pure_ok, pre_eq, rot32 _ 19 (by decide), c1_eq, hgf, begin32, stir]

def after32 (s : List U8) (i : Nat) : U32 × U32 × U32 := (List.range i).foldl (fun v i => Spec.Farm.block20 s (20 * i) v) (begin32 s)

theorem after32_succ (s : List U8) (i : Nat) : after32 s (i + 1) = Spec.Farm.block20 s (20 * i) (after32 s i) := by
  simp only [after32, List.range_succ, List.foldl_append, List.foldl_cons, List.foldl_nil]

theorem finish32_eq (v : U32 × U32 × U32) : finish32 (hgf v) =
    (stir ((stir (v.1 + (v.2.1.rotateRight 11 * Spec.Farm.c1).rotateRight 17 * Spec.Farm.c1)).rotateRight 17 * Spec.Farm.c1 +
      (v.2.2.rotateRight 11 * Spec.Farm.c1).rotateRight 17 * Spec.Farm.c1)).rotateRight 17 * Spec.Farm.c1 := by
  simp only [finish32, hgf, stir, rot32 _ 11 (by decide), rot32 _ 17 (by decide), rot32 _ 19 (by decide), c1_eq]

theorem Hash32_long (s : List U8) (h : 24 < s.length) : Hash32 s = .ok (Spec.Farm.long32 s) := by
  unfold Hash32
  rw [if_neg (by omega), start32_eq s h, Go.bind_ok]
  have hb : ∀ i, i < (s.length - 1) / 20 → body32 (hgf (after32 s i), s.drop (20 * i), (s.length - 1) / 20 - i) =
      .ok (hgf (after32 s (i + 1)), s.drop (20 * (i + 1)), (s.length - 1) / 20 - (i + 1)) := by
    intro i hi
    rw [body32_eq s (20 * i) (after32 s i) _ (by omega), after32_succ]
    rfl
  have h0 := hb 0 (by omega)
  simp only [Nat.mul_zero, List.drop_zero, Nat.sub_zero] at h0
  have hw := Go.while_traj (cond := fun x => decide (x.2.2 ≠ 0)) (body := body32)
    (fun i => (hgf (after32 s i), s.drop (20 * i), (s.length - 1) / 20 - i)) ((s.length - 1) / 20) 1 (s.length + 1)
    (fun i _ h2 => by simp only [ne_eq, decide_not, Bool.not_eq_true', decide_eq_false_iff_not]; omega) (fun i _ h2 => hb i h2) (by omega)
    (by simp) (by omega)
  rw [show begin32 s = after32 s 0 from rfl]
  simp only []
  rw [h0, Go.bind_ok, hw, Go.bind_ok, finish32_eq]
  rfl

theorem Hash32_eq (s : List U8) : Hash32 s = .ok (Spec.Farm.hash32 s) := by
  by_cases h : 24 < s.length
  · rw [Hash32_long s h, Spec.Farm.hash32, if_neg (by omega), if_neg (by omega), if_neg (by omega)]
  · unfold Hash32 Spec.Farm.hash32
    rw [if_pos (by omega)]
    by_cases h4 : s.length ≤ 4
    · rw [if_pos (by omega), if_pos h4, if_pos h4, len0to4_eq]
    · by_cases h12 : s.length ≤ 12
      · rw [if_pos h12, if_neg h4, if_neg h4, if_pos h12, len5to12_eq _ _ (by omega) h12]
      · rw [if_neg h12, if_neg h4, if_neg h12, if_pos (by omega), len13to24_eq _ _ (by omega)]

theorem Hash32WithSeed_eq (s : List U8) (seed : U32) : Hash32WithSeed s seed = .ok (Spec.Farm.hash32Seed s seed) := by
  unfold Hash32WithSeed Spec.Farm.hash32Seed
  by_cases h24 : s.length ≤ 24
  · rw [if_pos h24]
    by_cases h4 : s.length ≤ 4
    · rw [if_neg (by omega), if_neg (by omega), if_pos h4, len0to4_eq]
    · by_cases h12 : s.length ≤ 12
      · rw [if_neg (by omega), if_pos (by omega), if_neg h4, if_pos h12, len5to12_eq _ _ (by omega) h12]
      · rw [if_pos (by omega), if_neg h4, if_neg h12, if_pos h24, len13to24_eq _ _ (by omega), c1_eq]
  · rw [if_neg h24, if_neg (by omega), if_neg (by omega), if_neg h24]
    have e : Go.slice s 0 24 = .ok (s.take 24) := by
      rw [Go.slice, if_pos (by omega)]; rfl
    rw [e, Go.bind_ok, len13to24_eq _ _ (by rw [List.length_take]; omega), Go.bind_ok, tail_eq 24 (by omega) (by omega), Go.bind_ok, Hash32_eq, Go.bind_ok,
      mur_eq]
    rfl

/-! ## 64 bits -/

theorem len0to16_eq (s : List U8) : hashLen0to16 s = .ok (Spec.Farm.len0to16 s) := by
  unfold hashLen0to16 Spec.Farm.len0to16
  by_cases h8 : 8 ≤ s.length
  · simp only [ge_iff_le, if_pos h8, fetch64_eq (s := s) (i := 0) 0 (by omega) (by omega), fetch64_eq (s := s) (i := (s.length : Int) - 8) (s.length - 8) (by omega) (by omega),
      Go.bind_ok, Go.pure_ok, mul_eq, rot64 _ 37 (by decide), rot64 _ 25 (by decide), k2_eq]
  · by_cases h4 : 4 ≤ s.length
    · simp only [ge_iff_le, if_neg h8, if_pos h4, fetch32_eq (s := s) (i := 0) 0 (by omega) (by omega), fetch32_eq (s := s) (i := (s.length : Int) - 4) (s.length - 4) (by omega) (by omega),
        Go.bind_ok, Go.pure_ok, mul_eq, k2_eq]
    · by_cases h0 : 0 < s.length
      · have hb : ∀ n (hn : n < s.length), s[n] = byte s n := by intro n hn; simp [byte, hn]
        simp only [ge_iff_le, if_neg h8, if_neg h4, gt_iff_lt, if_pos h0, at_eq (s := s) (i := 0) 0 (by omega) h0,
          at_eq (s := s) (i := (s.length : Int) / 2) (s.length / 2) (by omega) (by omega), at_eq (s := s) (i := (s.length : Int) - 1) (s.length - 1) (by omega) (by omega),
          Go.bind_ok, Go.pure_ok, k2_eq, k0_eq, shiftMix_eq, hb]
      · simp only [ge_iff_le, if_neg h8, if_neg h4, gt_iff_lt, if_neg h0, Go.pure_ok, k2_eq]

theorem len17to32_eq (s : List U8) (h : 17 ≤ s.length) : hashLen17to32 s = .ok (Spec.Farm.len17to32 s) := by
  unfold hashLen17to32 Spec.Farm.len17to32
  simp only [fetch64_eq (s := s) (i := 0) 0 (by omega) (by omega), fetch64_eq (s := s) (i := 8) 8 (by omega) (by omega),
    fetch64_eq (s := s) (i := (s.length : Int) - 8) (s.length - 8) (by omega) (by omega),
    fetch64_eq (s := s) (i := (s.length : Int) - 16) (s.length - 16) (by omega) (by omega),
    Go.bind_ok, Go.pure_ok, mul_eq, rot64 _ 43 (by decide), rot64 _ 30 (by decide), rot64 _ 18 (by decide), k2_eq, k1_eq]

theorem len33to64_eq (s : List U8) (h : 33 ≤ s.length) : hashLen33to64 s = .ok (Spec.Farm.len33to64 s) := by
  unfold hashLen33to64 Spec.Farm.len33to64
  simp only [fetch64_eq (s := s) (i := 0) 0 (by omega) (by omega), fetch64_eq (s := s) (i := 8) 8 (by omega) (by omega),
    fetch64_eq (s := s) (i := 16) 16 (by omega) (by omega), fetch64_eq (s := s) (i := 24) 24 (by omega) (by omega),
    fetch64_eq (s := s) (i := (s.length : Int) - 8) (s.length - 8) (by omega) (by omega),
    fetch64_eq (s := s) (i := (s.length : Int) - 16) (s.length - 16) (by omega) (by omega),
    fetch64_eq (s := s) (i := (s.length : Int) - 24) (s.length - 24) (by omega) (by omega),
    fetch64_eq (s := s) (i := (s.length : Int) - 32) (s.length - 32) (by omega) (by omega),
    Go.bind_ok, Go.pure_ok, mul_eq, rot64 _ 43 (by decide), rot64 _ 30 (by decide), rot64 _ 18 (by decide), k2_eq]

theorem weak_eq (m : List U8) (o : Nat) (h : o + 32 ≤ m.length) (a b : U64) : weakHashLen32WithSeeds (m.drop o) a b = .ok (weak m o a b) := by
  have hl : (m.drop o).length = m.length - o := by simp
  unfold weakHashLen32WithSeeds
  simp only [fetch64_eq (s := m.drop o) (i := 0) 0 (by omega) (by omega), fetch64_eq (s := m.drop o) (i := 8) 8 (by omega) (by omega),
    fetch64_eq (s := m.drop o) (i := 16) 16 (by omega) (by omega), fetch64_eq (s := m.drop o) (i := 24) 24 (by omega) (by omega), Go.bind_ok, Go.pure_ok,
    w64_drop, Nat.add_zero, weakHashLen32WithSeedsWords, weak, rot64 _ 21 (by decide), rot64 _ 44 (by decide)]

def stOf (t : Spec.Farm.St) : St := ⟨t.x, t.y, t.z, t.v1, t.v2, t.w1, t.w2⟩

theorem body64_eq (m : List U8) (o : Nat) (t : Spec.Farm.St) (h : o + 64 ≤ m.length) :
    body64 (stOf t, m.drop o) = .ok (stOf (Spec.Farm.block64 m o t), m.drop (o + 64)) := by
  have hl : (m.drop o).length = m.length - o := by simp
  unfold body64
  simp only [fetch64_eq (s := m.drop o) (i := 8) 8 (by omega) (by omega), fetch64_eq (s := m.drop o) (i := 48) 48 (by omega) (by omega),
    fetch64_eq (s := m.drop o) (i := 40) 40 (by omega) (by omega), fetch64_eq (s := m.drop o) (i := 16) 16 (by omega) (by omega), Go.bind_ok, Go.pure_ok,
    tail_eq (s := m.drop o) (i := 32) 32 (by omega) (by omega), tail_eq (s := m.drop o) (i := 64) 64 (by omega) (by omega), List.drop_drop,
    weak_eq m o (by omega), weak_eq m (o + 32) (by omega), w64_drop, rot64 _ 37 (by decide), rot64 _ 42 (by decide), rot64 _ 33 (by decide), k1_eq, stOf, Spec.Farm.block64]

theorem lastIdx_eq (n slen : Nat) (h : n ≤ slen) (hn : 0 < n) : lastIdx n slen = ((slen - n : Nat) : Int) := by
  have := Nat.div_add_mod (slen - 1) n
  rw [Nat.mul_comm] at this
  rw [lastIdx]; omega

/-- Farmhashna's state after `i` blocks. -/
def afterNa (s : List U8) (i : Nat) : Spec.Farm.St :=
  (List.range i).foldl (fun t i => Spec.Farm.block64 s (64 * i) t)
    ⟨81#64 * Spec.Farm.k2 + w64 s 0, 81#64 * Spec.Farm.k1 + 113#64, Spec.Farm.shiftMix ((81#64 * Spec.Farm.k1 + 113#64) * Spec.Farm.k2 + 113#64) * Spec.Farm.k2, 0#64, 0#64, 0#64, 0#64⟩

theorem finish64_eq (m : List U8) (o n : Nat) (t : Spec.Farm.St) (h : o + 64 ≤ m.length) :
    finish64 (stOf t) n (m.drop o) = .ok (
  let mul := Spec.Farm.k1 + (t.z &&& 0xff#64) <<< 1
  let w1 := t.w1 + ((BitVec.ofNat 64 n - 1#64) &&& 63#64)
  let v1 := t.v1 + w1
  let w1 := w1 + v1
  let x := (t.x + t.y + v1 + w64 m (o + 8)).rotateRight 37 * mul ^^^ t.w2 * 9#64
  let y := (t.y + t.v2 + w64 m (o + 48)).rotateRight 42 * mul + (v1 * 9#64 + w64 m (o + 40))
  let z := (t.z + w1).rotateRight 33 * mul
  let v := weak m o (t.v2 * mul) (x + w1)
  let w := weak m (o + 32) (z + t.w2) (y + w64 m (o + 16))
  mix2 (mix2 v.1 w.1 mul + Spec.Farm.shiftMix y * Spec.Farm.k0 + x) (mix2 v.2 w.2 mul + z) mul) := by
  have hl : (m.drop o).length = m.length - o := by simp
  unfold finish64
  simp only [fetch64_eq (s := m.drop o) (i := 8) 8 (by omega) (by omega), fetch64_eq (s := m.drop o) (i := 48) 48 (by omega) (by omega),
    fetch64_eq (s := m.drop o) (i := 40) 40 (by omega) (by omega), fetch64_eq (s := m.drop o) (i := 16) 16 (by omega) (by omega), Go.bind_ok, Go.pure_ok,
    tail_eq (s := m.drop o) (i := 32) 32 (by omega) (by omega), List.drop_drop,
    weak_eq m o (by omega), weak_eq m (o + 32) (by omega), w64_drop, rot64 _ 37 (by decide), rot64 _ 42 (by decide), rot64 _ 33 (by decide), k1_eq, k0_eq, stOf, mul_eq, shiftMix_eq]

theorem naLong_eq (s : List U8) (h : 64 < s.length) : naHash64 s = .ok (Spec.Farm.naLong s) := by
  unfold naHash64
  rw [if_neg (by omega), if_neg (by omega)]
  have hw := Go.while_traj (cond := fun q => decide (q.2.length > 64)) (body := body64)
    (fun i => (stOf (afterNa s i), s.drop (64 * i))) ((s.length - 1) / 64) 0 s.length
    (fun i _ h2 => by simp only [List.length_drop, decide_eq_true_eq]; omega)
    (fun i _ h2 => by
      rw [body64_eq s (64 * i) _ (by omega)]
      simp only [afterNa, List.range_succ, List.foldl_append, List.foldl_cons, List.foldl_nil, Nat.mul_add, Nat.mul_one]) (by omega)
    (by simp only [List.length_drop, decide_eq_false_iff_not]; omega) (by omega)
  have e0 : (⟨81#64 * k2 + w64 s 0, 2480279821605975764#64, shiftMix (2480279821605975764#64 * k2 + 113#64) * k2, 0#64, 0#64, 0#64, 0#64⟩ : St) = stOf (afterNa s 0) := by
    have : 2480279821605975764#64 = 81#64 * Spec.Farm.k1 + 113#64 := by decide
    simp only [stOf, afterNa, List.range_zero, List.foldl_nil, k2_eq, shiftMix_eq, this]
  simp only [fetch64_eq (s := s) (i := 0) 0 (by omega) (by omega), Go.bind_ok, tail_eq (s := s) (s.length - 64) (lastIdx_eq 64 s.length (by omega) (by omega)) (by omega), e0]
  simp only [Nat.mul_zero, List.drop_zero] at hw
  rw [hw, Go.bind_ok, finish64_eq _ _ _ _ (by omega)]
  rfl

theorem na_eq (s : List U8) : naHash64 s = .ok (Spec.Farm.na s) := by
  by_cases h : 64 < s.length
  · rw [naLong_eq s h, Spec.Farm.na, if_neg (by omega), if_neg (by omega), if_neg (by omega)]
  · unfold naHash64 Spec.Farm.na
    by_cases h16 : s.length ≤ 16
    · rw [if_pos (by omega), if_pos h16, if_pos h16, len0to16_eq]
    · by_cases h32 : s.length ≤ 32
      · rw [if_pos h32, if_neg h16, if_neg h16, if_pos h32, len17to32_eq _ (by omega)]
      · rw [if_neg h32, if_pos (by omega), if_neg h16, if_neg h32, if_pos (by omega), len33to64_eq _ (by omega)]

theorem naSeeds_eq (s : List U8) (a b : U64) : naHash64WithSeeds s a b = .ok (mix16 (Spec.Farm.na s - a) b) := by
  rw [naHash64WithSeeds, na_eq, Go.bind_ok, len16_eq]; rfl

def uoOf (t : Spec.Farm.Uo) : Uo := ⟨t.u, t.x, t.y, t.z, t.vlo, t.vhi, t.wlo, t.whi⟩

theorem bodyUo_eq (mul : U64) (m : List U8) (o : Nat) (t : Spec.Farm.Uo) (h : o + 64 ≤ m.length) :
    bodyUo mul (uoOf t, m.drop o) = .ok (uoOf (Spec.Farm.blockUo mul m o t), m.drop (o + 64)) := by
  have hl : (m.drop o).length = m.length - o := by simp
  unfold bodyUo
  simp only [fetch64_eq (s := m.drop o) (i := 0) 0 (by omega) (by omega), fetch64_eq (s := m.drop o) (i := 8) 8 (by omega) (by omega),
    fetch64_eq (s := m.drop o) (i := 16) 16 (by omega) (by omega), fetch64_eq (s := m.drop o) (i := 24) 24 (by omega) (by omega),
    fetch64_eq (s := m.drop o) (i := 32) 32 (by omega) (by omega), fetch64_eq (s := m.drop o) (i := 40) 40 (by omega) (by omega),
    fetch64_eq (s := m.drop o) (i := 48) 48 (by omega) (by omega), fetch64_eq (s := m.drop o) (i := 56) 56 (by omega) (by omega),
    tail_eq (s := m.drop o) (i := 64) 64 (by omega) (by omega), List.drop_drop, Go.bind_ok, Go.pure_ok, w64_drop, uoOf, roundUo, Spec.Farm.blockUo,
    rot64 _ 26 (by decide), rot64 _ 29 (by decide), rot64 _ 33 (by decide), rot64 _ 30 (by decide), rot64 _ 32 (by decide), rot64 _ 34 (by decide),
    Nat.mul_zero, Nat.add_zero, Nat.reduceMul]

theorem finishUo_eq (mul : U64) (m : List U8) (o n : Nat) (t : Spec.Farm.Uo) (h : o + 64 ≤ m.length) :
    finishUo mul (uoOf t) n (m.drop o) = .ok (
  let vhi := t.vhi.rotateRight 28
  let vlo := t.vlo.rotateRight 20
  let wlo := t.wlo + (BitVec.ofNat 64 (n - 1) &&& 63#64)
  let u := t.u * 9#64 + t.y
  let y := t.y + u
  let x := (y - t.x + vlo + w64 m (o + 8)).rotateRight 37 * mul ^^^ t.whi * 9#64
  let y := (y ^^^ vhi ^^^ w64 m (o + 48)).rotateRight 42 * mul + (vlo + w64 m (o + 40))
  let z := (t.z + wlo).rotateRight 33 * mul
  let v := weak m o (vhi * mul) (x + wlo)
  let w := weak m (o + 32) (z + t.whi) (y + w64 m (o + 16))
  Spec.Farm.uoH (mix2 (v.1 + x) (w.1 ^^^ y) mul + z - u) (Spec.Farm.uoH (v.2 + y) (w.2 + z) Spec.Farm.k2 30 ^^^ x) Spec.Farm.k2 31) := by
  have hl : (m.drop o).length = m.length - o := by simp
  unfold finishUo
  simp only [fetch64_eq (s := m.drop o) (i := 8) 8 (by omega) (by omega), fetch64_eq (s := m.drop o) (i := 48) 48 (by omega) (by omega),
    fetch64_eq (s := m.drop o) (i := 40) 40 (by omega) (by omega), fetch64_eq (s := m.drop o) (i := 16) 16 (by omega) (by omega), Go.bind_ok, Go.pure_ok,
    tail_eq (s := m.drop o) (i := 32) 32 (by omega) (by omega), List.drop_drop,
    weak_eq m o (by omega), weak_eq m (o + 32) (by omega), w64_drop, rot64 _ 37 (by decide), rot64 _ 42 (by decide), rot64 _ 33 (by decide),
    rot64 _ 28 (by decide), rot64 _ 20 (by decide), k2_eq, uoOf, mul_eq, uoH_eq _ _ _ 30 (by decide), uoH_eq _ _ _ 31 (by decide)]

/-- Farmhashuo's state after `i` blocks. -/
def afterUo (mul : U64) (s : List U8) (t0 : Spec.Farm.Uo) (i : Nat) : Spec.Farm.Uo :=
  (List.range i).foldl (fun t i => Spec.Farm.blockUo mul s (64 * i) t) t0

theorem Hash64WithSeeds_eq (s : List U8) (seed0 seed1 : U64) : Hash64WithSeeds s seed0 seed1 = .ok (Spec.Farm.hash64Seeds s seed0 seed1) := by
  unfold Hash64WithSeeds Spec.Farm.hash64Seeds
  by_cases h : s.length ≤ 64
  · rw [if_pos h, if_pos h, naSeeds_eq]
  · rw [if_neg h, if_neg h]
    have hw : ∀ mul t0, Go.while_ s.length (fun q => decide (q.2.length > 64)) (bodyUo mul) (uoOf t0, s) =
        .ok (uoOf (afterUo mul s t0 ((s.length - 1) / 64)), s.drop (64 * ((s.length - 1) / 64))) := by
      intro mul t0
      have hw := Go.while_traj (cond := fun q => decide (q.2.length > 64)) (body := bodyUo mul)
        (fun i => (uoOf (afterUo mul s t0 i), s.drop (64 * i))) ((s.length - 1) / 64) 0 s.length
        (fun i _ h2 => by simp only [List.length_drop, decide_eq_true_eq]; omega)
        (fun i _ h2 => by
          rw [bodyUo_eq mul s (64 * i) _ (by omega)]
          simp only [afterUo, List.range_succ, List.foldl_append, List.foldl_cons, List.foldl_nil, Nat.mul_add, Nat.mul_one]) (by omega)
        (by simp only [List.length_drop, decide_eq_false_iff_not]; omega) (by omega)
      simp only [Nat.mul_zero, List.drop_zero] at hw
      rw [show afterUo mul s t0 0 = t0 from rfl] at hw
      exact hw
    simp only [tail_eq (s := s) (s.length - 64) (lastIdx_eq 64 s.length (by omega) (by omega)) (by omega), Go.bind_ok, k2_eq, shiftMix_eq]
    have mk : ∀ u x y z a b c d, (⟨u, x, y, z, a, b, c, d⟩ : Uo) = uoOf ⟨u, x, y, z, a, b, c, d⟩ := fun _ _ _ _ _ _ _ _ => rfl
    rw [mk, hw, Go.bind_ok, finishUo_eq _ _ _ _ _ (by omega)]
    rfl

theorem Hash64WithSeed_eq (s : List U8) (seed : U64) : Hash64WithSeed s seed = .ok (Spec.Farm.hash64Seed s seed) := by
  unfold Hash64WithSeed Spec.Farm.hash64Seed
  by_cases h : s.length ≤ 64
  · rw [if_pos h, if_pos h, naHash64WithSeed, naSeeds_eq, k2_eq]
  · rw [if_neg h, if_neg h, Hash64WithSeeds_eq, Spec.Farm.hash64Seeds, if_neg h]

theorem Hash64_eq (s : List U8) : Hash64 s = .ok (Spec.Farm.hash64 s) := by
  unfold Hash64 Spec.Farm.hash64
  by_cases h : s.length ≤ 64
  · rw [if_pos h, if_pos h, na_eq]
  · rw [if_neg h, if_neg h, Hash64WithSeeds_eq, Spec.Farm.hash64Seeds, if_neg h]

/-! ## 128 bits -/

def abcd (t : U64 × U64 × U64 × U64) : Abcd := ⟨t.1, t.2.1, t.2.2.1, t.2.2.2⟩

theorem bodyMurmur_eq (m : List U8) (o : Nat) (t : U64 × U64 × U64 × U64) (l : Int) (h : o + 16 ≤ m.length) :
    bodyMurmur (abcd t, m.drop o, l) = .ok (abcd (Spec.Farm.block16 m o t), m.drop (o + 16), l - 16) := by
  have hl : (m.drop o).length = m.length - o := by simp
  unfold bodyMurmur
  simp only [fetch64_eq (s := m.drop o) (i := 0) 0 (by omega) (by omega), fetch64_eq (s := m.drop o) (i := 8) 8 (by omega) (by omega),
    tail_eq (s := m.drop o) (i := 16) 16 (by omega) (by omega), List.drop_drop, Go.bind_ok, Go.pure_ok, w64_drop, Nat.add_zero, abcd, Spec.Farm.block16, k1_eq, shiftMix_eq]

def afterMurmur (s : List U8) (t0 : U64 × U64 × U64 × U64) (i : Nat) : U64 × U64 × U64 × U64 :=
  (List.range i).foldl (fun t i => Spec.Farm.block16 s (16 * i) t) t0

theorem murmurLong_eq (s : List U8) (seed : uint128) (h : 16 < s.length) :
    murmurLong s seed = .ok (abcd (afterMurmur s
      (seed.lo + mix16 (seed.hi + BitVec.ofNat 64 s.length) (mix16 (w64 s (s.length - 8) + Spec.Farm.k1) seed.lo + w64 s (s.length - 16)), seed.hi,
        mix16 (w64 s (s.length - 8) + Spec.Farm.k1) seed.lo,
        mix16 (seed.hi + BitVec.ofNat 64 s.length) (mix16 (w64 s (s.length - 8) + Spec.Farm.k1) seed.lo + w64 s (s.length - 16))) ((s.length - 1) / 16))) := by
  have hb : ∀ t0 i, i < (s.length - 1) / 16 → bodyMurmur (abcd (afterMurmur s t0 i), s.drop (16 * i), (s.length : Int) - 16 - 16 * (i : Int)) =
      .ok (abcd (afterMurmur s t0 (i + 1)), s.drop (16 * (i + 1)), (s.length : Int) - 16 - 16 * ((i + 1 : Nat) : Int)) := by
    intro t0 i hi
    rw [bodyMurmur_eq s (16 * i) _ _ (by omega)]
    have : (s.length : Int) - 16 - 16 * (i : Int) - 16 = (s.length : Int) - 16 - 16 * ((i + 1 : Nat) : Int) := by omega
    simp only [afterMurmur, List.range_succ, List.foldl_append, List.foldl_cons, List.foldl_nil, Nat.mul_add, Nat.mul_one, this]
  have h0 := fun t0 => hb t0 0 (by omega)
  simp only [Nat.mul_zero, List.drop_zero, Int.natCast_zero, Int.mul_zero, Int.sub_zero, Int.ofNat_zero] at h0
  have hw := fun t0 => Go.while_traj (cond := fun q => decide (¬ q.2.2 ≤ 0)) (body := bodyMurmur)
    (fun i => (abcd (afterMurmur s t0 i), s.drop (16 * i), (s.length : Int) - 16 - 16 * (i : Int))) ((s.length - 1) / 16) 1 (s.length + 1)
    (fun i _ h2 => by simp only [decide_eq_true_eq]; omega) (fun i _ h2 => hb t0 i h2) (by omega)
    (by simp only [decide_eq_false_iff_not]; omega) (by omega)
  have mk : ∀ a b c d, (⟨a, b, c, d⟩ : Abcd) = abcd (afterMurmur s (a, b, c, d) 0) := fun _ _ _ _ => rfl
  unfold murmurLong
  simp only [fetch64_eq (s := s) (i := (s.length : Int) - 8) (s.length - 8) (by omega) (by omega),
    fetch64_eq (s := s) (i := (s.length : Int) - 16) (s.length - 16) (by omega) (by omega), Go.bind_ok, k1_eq, len16_eq]
  rw [mk, h0, Go.bind_ok]
  have hw1 := hw (seed.lo + mix16 (seed.hi + BitVec.ofNat 64 s.length) (mix16 (w64 s (s.length - 8) + Spec.Farm.k1) seed.lo + w64 s (s.length - 16)), seed.hi,
        mix16 (w64 s (s.length - 8) + Spec.Farm.k1) seed.lo,
        mix16 (seed.hi + BitVec.ofNat 64 s.length) (mix16 (w64 s (s.length - 8) + Spec.Farm.k1) seed.lo + w64 s (s.length - 16)))
  rw [hw1]
  rfl

theorem murmurShort_eq (s : List U8) (seed : uint128) :
    murmurShort s seed = .ok (abcd (Spec.Farm.shiftMix (seed.lo * Spec.Farm.k1) * Spec.Farm.k1, seed.hi, seed.hi * Spec.Farm.k1 + Spec.Farm.len0to16 s,
      Spec.Farm.shiftMix (Spec.Farm.shiftMix (seed.lo * Spec.Farm.k1) * Spec.Farm.k1 +
        if 8 ≤ s.length then w64 s 0 else seed.hi * Spec.Farm.k1 + Spec.Farm.len0to16 s))) := by
  unfold murmurShort
  by_cases h : 8 ≤ s.length
  · simp only [len0to16_eq, Go.bind_ok, ge_iff_le, if_pos h, fetch64_eq (s := s) (i := 0) 0 (by omega) (by omega), Go.pure_ok, k1_eq, shiftMix_eq, abcd]
  · simp only [len0to16_eq, Go.bind_ok, ge_iff_le, if_neg h, Go.pure_ok, k1_eq, shiftMix_eq, abcd]

def pair (x : U64 × U64) : uint128 := ⟨x.1, x.2⟩

theorem cityMurmur_eq (s : List U8) (seed : uint128) : cityMurmur s seed = .ok (pair (Spec.Farm.cityMurmur s seed.lo seed.hi)) := by
  unfold cityMurmur Spec.Farm.cityMurmur
  by_cases h : s.length ≤ 16
  · simp only [if_pos (show (s.length : Int) - 16 ≤ 0 by omega), murmurShort_eq, Go.bind_ok, if_pos h, abcd, len16_eq, pair, Go.pure_ok]
  · simp only [if_neg (show ¬ (s.length : Int) - 16 ≤ 0 by omega), murmurLong_eq s seed (by omega), Go.bind_ok, if_neg h, abcd, len16_eq, pair, Go.pure_ok]
    rfl

def after128 (s : List U8) (t0 : Spec.Farm.St) (i : Nat) : Spec.Farm.St :=
  (List.range i).foldl (fun t i => Spec.Farm.block64 s (64 * i) t) t0

theorem after128_succ (s : List U8) (t0 : Spec.Farm.St) (i : Nat) : after128 s t0 (i + 1) = Spec.Farm.block64 s (64 * i) (after128 s t0 i) := by
  simp only [after128, List.range_succ, List.foldl_append, List.foldl_cons, List.foldl_nil]

theorem body128_eq (s : List U8) (t0 : Spec.Farm.St) (i k : Nat) (h : 128 * i + 128 ≤ s.length) :
    body128 (stOf (after128 s t0 (2 * i)), s.drop (128 * i), k) = .ok (stOf (after128 s t0 (2 * (i + 1))), s.drop (128 * (i + 1)), k - 128) := by
  unfold body128
  rw [show 2 * (i + 1) = 2 * i + 1 + 1 by omega, after128_succ, after128_succ]
  simp only []
  rw [body64_eq s (128 * i) _ (by omega), Go.bind_ok, body64_eq s (128 * i + 64) _ (by omega), Go.bind_ok]
  simp only [Go.pure_ok]
  rw [show 64 * (2 * i + 1) = 128 * i + 64 by omega, show 64 * (2 * i) = 128 * i by omega, show 128 * (i + 1) = 128 * i + 64 + 64 by omega]

theorem bodyTail_eq (s : List U8) (t : Spec.Farm.St) (j : Nat) (hj : j < 4) (h : 128 ≤ s.length) :
    bodyTail (s.drop (s.length - 128)) (stOf t, 32 * j) = .ok (stOf (Spec.Farm.tail32 s t j), 32 * (j + 1)) := by
  have hl : (s.drop (s.length - 128)).length = 128 := by simp; omega
  unfold bodyTail
  simp only [fetch64_eq (s := s.drop (s.length - 128)) (i := 128 - ((32 * j + 32 : Nat) : Int) + 16) (128 - 32 * (j + 1) + 16) (by omega) (by omega),
    fetch64_eq (s := s.drop (s.length - 128)) (i := 128 - ((32 * j + 32 : Nat) : Int)) (128 - 32 * (j + 1)) (by omega) (by omega),
    tail_eq (s := s.drop (s.length - 128)) (i := 128 - ((32 * j + 32 : Nat) : Int)) (128 - 32 * (j + 1)) (by omega) (by omega),
    Go.bind_ok, Go.pure_ok, List.drop_drop, w64_drop]
  have e : s.length - 128 + (128 - 32 * (j + 1)) = s.length - 32 * (j + 1) := by omega
  simp only [← Nat.add_assoc, e, weak_eq s (s.length - 32 * (j + 1)) (by omega), Go.bind_ok, rot64 _ 42 (by decide), k0_eq, stOf, Spec.Farm.tail32]
  rfl

theorem start128_eq (s : List U8) (seed : uint128) (h : 128 ≤ s.length) :
    start128 s seed = .ok (stOf ⟨seed.lo, seed.hi, BitVec.ofNat 64 s.length * Spec.Farm.k1, (seed.hi ^^^ Spec.Farm.k1).rotateRight 49 * Spec.Farm.k1 + w64 s 0,
      ((seed.hi ^^^ Spec.Farm.k1).rotateRight 49 * Spec.Farm.k1 + w64 s 0).rotateRight 42 * Spec.Farm.k1 + w64 s 8,
      (seed.hi + BitVec.ofNat 64 s.length * Spec.Farm.k1).rotateRight 35 * Spec.Farm.k1 + seed.lo, (seed.lo + w64 s 88).rotateRight 53 * Spec.Farm.k1⟩) := by
  unfold start128
  simp only [fetch64_eq (s := s) (i := 0) 0 (by omega) (by omega), fetch64_eq (s := s) (i := 8) 8 (by omega) (by omega),
    fetch64_eq (s := s) (i := 88) 88 (by omega) (by omega), Go.bind_ok, Go.pure_ok, rot64 _ 49 (by decide), rot64 _ 42 (by decide), rot64 _ 35 (by decide),
    rot64 _ 53 (by decide), k1_eq, stOf]

theorem mid128_eq (t : Spec.Farm.St) : mid128 (stOf t) = stOf ⟨t.x + (t.v1 + t.z).rotateRight 49 * Spec.Farm.k0, t.y * Spec.Farm.k0 + t.w2.rotateRight 37,
    t.z * Spec.Farm.k0 + t.w1.rotateRight 27, t.v1 * Spec.Farm.k0, t.v2, t.w1 * 9#64, t.w2⟩ := by
  simp only [mid128, stOf, rot64 _ 49 (by decide), rot64 _ 37 (by decide), rot64 _ 27 (by decide), k0_eq]

theorem finish128_eq (t : Spec.Farm.St) : finish128 (stOf t) =
    pair (mix16 (mix16 t.x t.v1 + t.v2) t.w2 + mix16 (t.y + t.z) t.w1, mix16 (mix16 t.x t.v1 + t.w2) (mix16 (t.y + t.z) t.w1 + t.v2)) := by
  simp only [finish128, stOf, len16_eq, pair]

theorem city128_eq (s : List U8) (seed : uint128) (h : 128 ≤ s.length) :
    cityHash128WithSeed s seed = .ok (pair (Spec.Farm.city128 s seed.lo seed.hi)) := by
  unfold cityHash128WithSeed
  rw [if_neg (by omega), tail_eq (s.length - 128) (lastIdx_eq 128 s.length h (by decide)) (by omega), Go.bind_ok, start128_eq s seed h, Go.bind_ok]
  unfold Spec.Farm.city128
  simp only []
  generalize (⟨seed.lo, seed.hi, BitVec.ofNat 64 s.length * Spec.Farm.k1, (seed.hi ^^^ Spec.Farm.k1).rotateRight 49 * Spec.Farm.k1 + w64 s 0,
      ((seed.hi ^^^ Spec.Farm.k1).rotateRight 49 * Spec.Farm.k1 + w64 s 0).rotateRight 42 * Spec.Farm.k1 + w64 s 8,
      (seed.hi + BitVec.ofNat 64 s.length * Spec.Farm.k1).rotateRight 35 * Spec.Farm.k1 + seed.lo, (seed.lo + w64 s 88).rotateRight 53 * Spec.Farm.k1⟩ : Spec.Farm.St) = t0
  have hb : ∀ i, i < s.length / 128 → body128 (stOf (after128 s t0 (2 * i)), s.drop (128 * i), s.length - 128 * i) =
      .ok (stOf (after128 s t0 (2 * (i + 1))), s.drop (128 * (i + 1)), s.length - 128 * (i + 1)) := by
    intro i hi
    rw [body128_eq s t0 i _ (by omega), show s.length - 128 * i - 128 = s.length - 128 * (i + 1) by omega]
  have h0 := hb 0 (by omega)
  simp only [Nat.mul_zero, List.drop_zero, Nat.sub_zero] at h0
  rw [show after128 s t0 0 = t0 from rfl] at h0
  have hw := Go.while_traj (cond := fun q => decide (¬ q.2.2 < 128)) (body := body128)
    (fun i => (stOf (after128 s t0 (2 * i)), s.drop (128 * i), s.length - 128 * i)) (s.length / 128) 1 (s.length + 1)
    (fun i _ h2 => by simp only [decide_eq_true_eq]; omega) (fun i _ h2 => hb i h2) (by omega)
    (by simp only [decide_eq_false_iff_not]; omega) (by omega)
  rw [h0, Go.bind_ok, hw, Go.bind_ok, mid128_eq]
  have ee : (List.range (s.length / 128 * 2)).foldl (fun t i => Spec.Farm.block64 s (64 * i) t) t0 = after128 s t0 (2 * (s.length / 128)) := by
    rw [Nat.mul_comm]; rfl
  rw [ee, show s.length - 128 * (s.length / 128) = s.length % 128 by omega]
  generalize (⟨(after128 s t0 (2 * (s.length / 128))).x + ((after128 s t0 (2 * (s.length / 128))).v1 + (after128 s t0 (2 * (s.length / 128))).z).rotateRight 49 * Spec.Farm.k0,
    (after128 s t0 (2 * (s.length / 128))).y * Spec.Farm.k0 + (after128 s t0 (2 * (s.length / 128))).w2.rotateRight 37,
    (after128 s t0 (2 * (s.length / 128))).z * Spec.Farm.k0 + (after128 s t0 (2 * (s.length / 128))).w1.rotateRight 27,
    (after128 s t0 (2 * (s.length / 128))).v1 * Spec.Farm.k0, (after128 s t0 (2 * (s.length / 128))).v2,
    (after128 s t0 (2 * (s.length / 128))).w1 * 9#64, (after128 s t0 (2 * (s.length / 128))).w2⟩ : Spec.Farm.St) = t1
  have ht := Go.while_traj (cond := fun r => decide (r.2 < s.length % 128)) (body := bodyTail (s.drop (s.length - 128)))
    (fun j => (stOf ((List.range j).foldl (Spec.Farm.tail32 s) t1), 32 * j)) ((s.length % 128 + 31) / 32) 0 5
    (fun i _ h2 => by simp only [decide_eq_true_eq]; omega)
    (fun i _ h2 => by
      rw [bodyTail_eq s _ i (by omega) h]
      simp only [List.range_succ, List.foldl_append, List.foldl_cons, List.foldl_nil]) (by omega)
    (by simp only [decide_eq_false_iff_not]; omega) (by omega)
  simp only [List.range_zero, List.foldl_nil, Nat.mul_zero] at ht
  rw [ht, Go.bind_ok, finish128_eq]
  rfl

theorem city_eq (s : List U8) (seed : uint128) : cityHash128WithSeed s seed = .ok (pair (Spec.Farm.hash128Seed s seed.lo seed.hi)) := by
  by_cases h : s.length < 128
  · unfold cityHash128WithSeed
    rw [if_pos h, cityMurmur_eq, Spec.Farm.hash128Seed, if_pos h]
  · rw [city128_eq s seed (by omega), Spec.Farm.hash128Seed, if_neg h]

theorem Hash128WithSeed_eq (s : List U8) (a b : U64) : Hash128WithSeed s a b = .ok (Spec.Farm.hash128Seed s a b) := by
  rw [Hash128WithSeed, city_eq]; rfl

theorem Fingerprint128_eq (s : List U8) : Fingerprint128 s = .ok (Spec.Farm.hash128 s) := by
  unfold Fingerprint128 cityHash128 Spec.Farm.hash128
  by_cases h : 16 ≤ s.length
  · rw [if_pos h, if_pos h, fetch64_eq 0 (by omega) (by omega), Go.bind_ok, fetch64_eq 8 (by omega) (by omega), Go.bind_ok, tail_eq 16 (by omega) (by omega), Go.bind_ok,
      city_eq, Go.bind_ok, k0_eq]
    rfl
  · rw [if_neg h, if_neg h, city_eq, Go.bind_ok, k0_eq, k1_eq]
    rfl

end Verif.Lemmas.Farm
