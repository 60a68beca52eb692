import Verif.Model.Small
import Verif.Spec.Small
import Verif.Lemmas.Loop
import Verif.Lemmas.Bits
import Verif.Lemmas.Odd

namespace Verif

/-- A counted loop over the elements of a list is a fold. -/
theorem Go.forRange_foldl {α σ : Type} {body : Nat → σ → Go σ} {f : σ → α → σ} (l : List α)
    (hb : ∀ i s (h : i < l.length), body i s = .ok (f s l[i])) (s : σ) : Go.forRange 0 l.length body s = .ok (l.foldl f s) := by
  have key : ∀ n k s, k + n = l.length → Go.forRange k n body s = .ok ((l.drop k).foldl f s) := by
    intro n
    induction n with
    | zero => intro k s h; rw [List.drop_of_length_le (by omega)]; rfl
    | succ n ih =>
      intro k s h
      rw [Go.forRange, hb k s (by omega), List.drop_eq_getElem_cons (by omega), List.foldl_cons]
      exact ih (k + 1) _ (by omega)
  simpa using key l.length 0 s (by omega)

end Verif

namespace Verif.Lemmas.Sbox
open Verif Verif.Model.Sbox
open Verif.Spec.Sbox (T step mix acc sbox)

theorem table_length : Gen.SBoxTable.length = 256 := by decide +kernel

theorem idx_T (b : U8) : Go.idx Gen.SBoxTable b.toNat = .ok (T b) := by
  have := b.isLt
  have h : b.toNat < Gen.SBoxTable.length := by rw [table_length]; omega
  rw [Go.idx_eq h, T, List.getD_eq_getElem?_getD, List.getElem?_eq_getElem h, Option.getD_some]

theorem body_eq (h : U32) (key : List U8) (i : Nat) (hi : 2 * i + 2 ≤ key.length) (k : Nat) :
    body (h, key.drop (2 * i), k) = .ok (((key.drop (2 * i)).take 2).foldl step h, key.drop (2 * (i + 1)), k - 2) := by
  have e : key.drop (2 * i) = key[2 * i] :: key[2 * i + 1] :: key.drop (2 * (i + 1)) := by
    rw [List.drop_eq_getElem_cons (by omega), List.drop_eq_getElem_cons (by omega)]; rfl
  rw [e]
  unfold body
  simp only [Go.idx, Go.from_, List.getElem?_cons_zero, List.getElem?_cons_succ, Go.bind_ok]
  rw [← Go.idx, ← Go.idx, idx_T, idx_T, Go.bind_ok, Go.bind_ok, if_pos (by simp), Go.bind_ok]
  rfl

theorem loop_eq (key : List U8) (h : U32) :
    Go.while_ key.length (fun q => decide (q.2.2 / 2 * 2 ≠ 0)) body (h, key, key.length) =
      .ok ((key.take (2 * (key.length / 2))).foldl step h, key.drop (2 * (key.length / 2)), key.length - 2 * (key.length / 2)) := by
  have hw := Go.while_traj (cond := fun q => decide (q.2.2 / 2 * 2 ≠ 0)) (body := body)
    (fun i => ((key.take (2 * i)).foldl step h, key.drop (2 * i), key.length - 2 * i)) (key.length / 2) 0 key.length
    (fun i _ h2 => by simp only [decide_eq_true_eq]; omega)
    (fun i _ h2 => by
      rw [body_eq _ key i (by omega), ← List.foldl_append, ← List.take_add, Nat.mul_add, Nat.mul_one]
      rw [show key.length - (2 * i + 2) = key.length - 2 * i - 2 by omega]) (by omega)
    (by simp only [decide_eq_false_iff_not]; omega) (by omega)
  simpa using hw

theorem Sbox_eq (key : List U8) (seed : U32) : Sbox key seed = .ok (sbox key seed) := by
  unfold Sbox
  rw [loop_eq, Go.bind_ok]
  simp only []
  have ho : odd ((key.take (2 * (key.length / 2))).foldl step (BitVec.ofNat 32 key.length + seed)) (key.drop (2 * (key.length / 2)))
      (key.length - 2 * (key.length / 2)) = .ok (acc key seed) := by
    unfold odd acc
    by_cases h : key.length % 2 = 0
    · rw [if_neg (by omega), List.take_of_length_le (by omega)]
    · rw [if_pos (by omega)]
      have e : key.drop (2 * (key.length / 2)) = [key[2 * (key.length / 2)]'(by omega)] := by
        rw [List.drop_eq_getElem_cons (by omega), List.drop_of_length_le (by omega)]
      rw [e]
      simp only [Go.idx, List.getElem?_cons_zero, Go.bind_ok]
      rw [← Go.idx, idx_T, Go.bind_ok]
      conv => rhs; rw [← List.take_append_drop (2 * (key.length / 2)) key, e, List.foldl_append]
      simp only [List.length_append, List.length_take, List.length_singleton]
      rw [show min (2 * (key.length / 2)) key.length + 1 = key.length by omega]
      rfl
  rw [ho, Go.bind_ok]; rfl

theorem step_inj {x y : U32} (b : U8) (e : step x b = step y b) : x = y :=
  xor_right_inj' _ (mul_inj_of_odd (by decide) e)

theorem fold_inj (l : List U8) {x y : U32} (e : l.foldl step x = l.foldl step y) : x = y := by
  induction l generalizing x y with
  | nil => exact e
  | cons b l ih => exact step_inj b (ih e)

theorem acc_seed_inj (key : List U8) {s t : U32} (e : acc key s = acc key t) : s = t :=
  add_left_inj' _ (fold_inj key e)

theorem acc_bij (key : List U8) : Function.Bijective (acc key) :=
  bijective_of_injective (fun _ _ e => acc_seed_inj key e)

theorem T_inj : ∀ {x y : U8}, T x = T y → x = y := by decide +kernel

theorem Hash32_eq (s : State) (b : List U8) (seeds : List U32) :
    s.Hash32 b seeds = .ok (⟨sbox b (match seeds with | [] => s.seed | x :: _ => x), match seeds with | [] => s.seed | x :: _ => x⟩,
      sbox b (match seeds with | [] => s.seed | x :: _ => x)) := by
  unfold State.Hash32
  cases seeds <;> simp only [Sbox_eq, Go.bind_ok, Go.pure_ok]

theorem seed_cons (seed : U32) (b : List U8) (seeds : List U32) (l : List (List U8 × List U32)) :
    Spec.Small.seedInForce (match seeds with | [] => seed | x :: _ => x) l = Spec.Small.seedInForce seed ((b, seeds) :: l) := by
  unfold Spec.Small.seedInForce
  cases seeds with
  | nil => rfl
  | cons x xs =>
    simp only [List.filterMap_cons, List.head?_cons]
    cases hl : l.filterMap (fun c => c.2.head?) with
    | nil => rfl
    | cons y ys => rw [List.getLast?_cons_cons, List.getLast?_cons, Option.getD_some, Option.getD_some]

theorem run_eq (s : State) (calls : List (List U8 × List U32)) :
    s.run calls = .ok ((List.range calls.length).map (fun i => sbox ((calls.getD i ([], [])).1) (Spec.Small.seedInForce s.seed (calls.take (i + 1))))) := by
  induction calls generalizing s with
  | nil => rfl
  | cons c cs ih =>
    obtain ⟨b, seeds⟩ := c
    unfold State.run
    rw [Hash32_eq, Go.bind_ok]
    simp only []
    rw [ih, Go.bind_ok, List.length_cons, List.range_succ_eq_map, List.map_cons, List.map_map, Go.pure_ok]
    congr 2
    · exact congrArg (sbox b) (seed_cons s.seed b seeds [])
    · apply List.map_congr_left
      intro i _
      simp only [Function.comp, Nat.succ_eq_add_one, List.getD_cons_succ, List.take_succ_cons]
      rw [seed_cons]

end Verif.Lemmas.Sbox

namespace Verif.Lemmas.CrapWow
open Verif Verif.Model.CrapWow
open Verif.Spec.CrapWow (Pair plus lo hi A B M N block rest finish ofSum total crapwow)

def pr (s : HK) : Pair := (s.h, s.k)

theorem lo_eq (x c : U32) : (x.setWidth 64 * c.setWidth 64).setWidth 32 = lo x.toNat c.toNat := by
  apply BitVec.eq_of_toNat_eq
  have h1 := x.isLt
  have h2 := c.isLt
  simp only [lo, BitVec.toNat_setWidth, BitVec.toNat_mul, BitVec.toNat_ofNat]
  rw [Nat.mod_eq_of_lt (show x.toNat < 2 ^ 64 by omega), Nat.mod_eq_of_lt (show c.toNat < 2 ^ 64 by omega)]
  exact Nat.mod_mod_of_dvd _ (by decide)

theorem hi_eq (x c : U32) : ((x.setWidth 64 * c.setWidth 64) >>> 32).setWidth 32 = hi x.toNat c.toNat := by
  apply BitVec.eq_of_toNat_eq
  have h1 := x.isLt
  have h2 := c.isLt
  have h3 : x.toNat * c.toNat < 2 ^ 64 := by
    calc x.toNat * c.toNat < 2 ^ 32 * 2 ^ 32 := Nat.mul_lt_mul'' h1 h2
    _ = 2 ^ 64 := by decide
  simp only [hi, BitVec.toNat_setWidth, BitVec.toNat_ushiftRight, BitVec.toNat_mul, BitVec.toNat_ofNat, Nat.shiftRight_eq_div_pow]
  rw [Nat.mod_eq_of_lt (show x.toNat < 2 ^ 64 by omega), Nat.mod_eq_of_lt (show c.toNat < 2 ^ 64 by omega), Nat.mod_eq_of_lt h3]

theorem mixa (s : HK) (x : U32) : pr (cwmixa s x) = plus (pr s) (A x.toNat) := by
  simp only [pr, cwmixa, lo_eq, hi_eq, plus, A, show m.toNat = M from rfl]

theorem mixb (s : HK) (x : U32) : pr (cwmixb s x) = plus (pr s) (B x.toNat) := by
  simp only [pr, cwmixb, lo_eq, hi_eq, plus, B, show n.toNat = N from rfl]

theorem plus_assoc (a b c : Pair) : plus (plus a b) c = plus a (plus b c) := by simp only [plus, BitVec.xor_assoc]
theorem plus_comm (a b : Pair) : plus a b = plus b a := by simp only [plus, BitVec.xor_comm]
theorem plus_zero (a : Pair) : plus a (0#32, 0#32) = a := by simp only [plus, BitVec.xor_zero]
theorem zero_plus (a : Pair) : plus (0#32, 0#32) a = a := by simp only [plus, BitVec.zero_xor]
theorem plus_self (a : Pair) : plus a a = (0#32, 0#32) := by simp only [plus, BitVec.xor_self]
theorem A_zero : A 0 = (0#32, 0#32) := by decide
theorem B_zero : B 0 = (0#32, 0#32) := by decide

theorem HK_ext {s t : HK} (e : pr s = pr t) : s = t := by
  cases s; cases t; simp only [pr, Prod.mk.injEq] at e; rw [e.1, e.2]

/-- The loop state reached from a pair. -/
def hk (p : Pair) : HK := ⟨p.1, p.2⟩

theorem le32_toNat (l : List U8) : (le32 l).toNat = leNat (l.take 4) := by
  rw [le32, BitVec.toNat_ofNat, Nat.mod_eq_of_lt]
  have h := leNat_lt (l.take 4)
  have : (l.take 4).length ≤ 4 := by simp
  calc _ < _ := h
  _ ≤ 256 ^ 4 := Nat.pow_le_pow_right (by decide) this
  _ = 2 ^ 32 := by decide

theorem word (key : List U8) (i : Nat) (h : 4 * i + 4 ≤ key.length) : (sliceUI32 key)[i]? = some (le32 (key.drop (4 * i))) := by
  have hl : i < (sliceUI32 key).length := by simp only [sliceUI32, List.length_map, blocks_length]; omega
  rw [List.getElem?_eq_getElem hl]
  simp only [sliceUI32, blocks, List.getElem_map, List.getElem_range, le32_of_take, Nat.mul_comm i]

theorem slice_length (key : List U8) : (sliceUI32 key).length = key.length / 4 := by simp only [sliceUI32, List.length_map, blocks_length]

theorem body_eq (key : List U8) (p : Pair) (i k : Nat) (h : 8 * i + 8 ≤ key.length) :
    body (hk p, (sliceUI32 key).drop (2 * i), key.drop (8 * i), k) =
      .ok (hk (plus p (block ((key.drop (i * 8)).take 8))), (sliceUI32 key).drop (2 * (i + 1)), key.drop (8 * (i + 1)), k - 8) := by
  unfold body
  simp only [Go.idx, Go.from_, List.getElem?_drop, word key (2 * i + 0) (by omega), word key (2 * i + 1) (by omega), Go.bind_ok, List.length_drop, slice_length, List.drop_drop,
    if_pos (show 2 ≤ key.length / 4 - 2 * i by omega), if_pos (show 8 ≤ key.length - 8 * i by omega), Go.pure_ok]
  have e : cwmixa (cwmixb (hk p) (le32 (key.drop (4 * (2 * i + 0))))) (le32 (key.drop (4 * (2 * i + 1)))) = hk (plus p (block ((key.drop (i * 8)).take 8))) := by
    apply HK_ext
    rw [mixa, mixb, le32_toNat, le32_toNat, plus_assoc, block, List.take_take, List.drop_take, List.take_take, List.drop_drop, Nat.mul_comm i 8,
      show 4 * (2 * i + 0) = 8 * i by omega, show 4 * (2 * i + 1) = 8 * i + 4 by omega]
    rfl
  rw [e]
  rfl

theorem loop_eq (key : List U8) (p : Pair) :
    Go.while_ key.length (fun q => decide (q.2.2.2 ≥ 8)) body (hk p, sliceUI32 key, key, key.length) =
      .ok (hk (((blocks 8 key).map block).foldl plus p), (sliceUI32 key).drop (2 * (key.length / 8)), key.drop (8 * (key.length / 8)), key.length - 8 * (key.length / 8)) := by
  have hw := Go.while_traj (cond := fun q => decide (q.2.2.2 ≥ 8)) (body := body)
    (fun i => (hk (((List.range i).map (fun j => block ((key.drop (j * 8)).take 8))).foldl plus p), (sliceUI32 key).drop (2 * i), key.drop (8 * i), key.length - 8 * i))
    (key.length / 8) 0 key.length
    (fun i _ h2 => by simp only [decide_eq_true_eq]; omega)
    (fun i _ h2 => by
      rw [body_eq key _ i _ (by omega)]
      simp only [List.range_succ, List.map_append, List.map_cons, List.map_nil, List.foldl_append, List.foldl_cons, List.foldl_nil]
      rw [show key.length - 8 * (i + 1) = key.length - 8 * i - 8 by omega]) (by omega)
    (by simp only [decide_eq_false_iff_not]; omega) (by omega)
  simp only [List.range_zero, List.map_nil, List.foldl_nil, Nat.mul_zero, Nat.sub_zero, List.drop_zero] at hw
  rw [hw, blocks, List.map_map]
  rfl

theorem mask_id {x : U32} (k : Nat) (hk : k < 4) (h : x.toNat < 2 ^ (8 * k)) : x &&& mask k = x := by
  apply BitVec.eq_of_toNat_eq
  have e : (mask k).toNat = 2 ^ (8 * k) - 1 := by
    have : k = 0 ∨ k = 1 ∨ k = 2 ∨ k = 3 := by omega
    rcases this with rfl | rfl | rfl | rfl <;> decide
  rw [BitVec.toNat_and, e, Nat.and_two_pow_sub_one_eq_mod, Nat.mod_eq_of_lt h]

theorem masked (l : List U8) (hl : l.length < 4) : BitVec.ofNat 32 (leNat l) &&& mask l.length = BitVec.ofNat 32 (leNat l) := by
  apply mask_id _ hl
  have h := leNat_lt l
  rw [BitVec.toNat_ofNat]
  rw [show 256 = 2 ^ 8 from rfl, ← Nat.pow_mul] at h
  exact Nat.lt_of_le_of_lt (Nat.mod_le _ _) h

theorem small_toNat (l : List U8) (hl : l.length < 4) : (BitVec.ofNat 32 (leNat l)).toNat = leNat l := by
  rw [BitVec.toNat_ofNat, Nat.mod_eq_of_lt]
  have h := leNat_lt l
  calc _ < _ := h
  _ ≤ 256 ^ 4 := Nat.pow_le_pow_right (by decide) (by omega)
  _ = 2 ^ 32 := by decide

theorem tail_eq (p : Pair) (t : List U8) (ht : t.length < 4) : tail (hk p, t, t.length) = .ok (hk (plus p (A (leNat t)))) := by
  have fin : ∀ x : U32, x = BitVec.ofNat 32 (leNat t) → cwmixa (hk p) (x &&& mask t.length) = hk (plus p (A (leNat t))) := by
    intro x hx
    apply HK_ext
    rw [hx, mixa, masked t ht, small_toNat t ht]; rfl
  match t, ht with
  | [], _ => simp only [List.length_nil, tail, leNat, A_zero, plus_zero]
  | [a], _ =>
    have h := fin (a.setWidth 32) (by simp [leNat])
    simp only [List.length_singleton] at h
    simp only [List.length_singleton, tail, Go.idx, List.getElem?_cons_zero, Go.bind_ok, Go.pure_ok, h]
  | [a, b], _ =>
    have e := orBytes_eq (w := 32) [a, b] (by simp)
    simp only [orBytes, Nat.zero_add, Nat.reduceAdd, BitVec.shiftLeft_zero, BitVec.zero_or] at e
    have h := fin (b.setWidth 32 <<< 8 ||| a.setWidth 32) (by rw [← e, BitVec.or_comm])
    simp only [List.length_cons, List.length_nil, Nat.zero_add, Nat.reduceAdd] at h
    simp only [List.length_cons, List.length_nil, Nat.zero_add, Nat.reduceAdd, tail, Go.idx, List.getElem?_cons_zero, List.getElem?_cons_succ, Go.bind_ok, Go.pure_ok, h]
  | [a, b, c], _ =>
    have e := orBytes_eq (w := 32) [a, b, c] (by simp)
    simp only [orBytes, Nat.zero_add, Nat.reduceAdd, BitVec.shiftLeft_zero, BitVec.zero_or] at e
    have h := fin (c.setWidth 32 <<< 16 ||| b.setWidth 32 <<< 8 ||| a.setWidth 32)
      (by rw [← e, BitVec.or_comm (_ ||| _) (a.setWidth 32), BitVec.or_comm (c.setWidth 32 <<< 16), BitVec.or_assoc])
    simp only [List.length_cons, List.length_nil, Nat.zero_add, Nat.reduceAdd] at h
    simp only [List.length_cons, List.length_nil, Nat.zero_add, Nat.reduceAdd, tail, Go.idx, List.getElem?_cons_zero, List.getElem?_cons_succ, Go.bind_ok, Go.pure_ok, h]

theorem four_tail (key : List U8) (p : Pair) :
    (do let q ← four (hk p, (sliceUI32 key).drop (2 * (key.length / 8)), key.drop (8 * (key.length / 8)), key.length - 8 * (key.length / 8)); tail q) =
      (.ok (hk (plus p (rest (tailOf 8 key)))) : Go HK) := by
  have ht : key.drop (8 * (key.length / 8)) = tailOf 8 key := by rw [tailOf, Nat.mul_comm]
  have hl : key.length - 8 * (key.length / 8) = (tailOf 8 key).length := by rw [tailOf_length]; omega
  have hlt := tailOf_length_lt (n := 8) (by decide) key
  unfold four
  by_cases h : (tailOf 8 key).length < 4
  · simp only [hl, ht, if_neg (show ¬ (tailOf 8 key).length ≥ 4 by omega), Go.bind_ok]
    rw [tail_eq _ _ h, rest, if_pos h]
  · have hlen : 4 ≤ (tailOf 8 key).length := by omega
    have hw : ((sliceUI32 key).drop (2 * (key.length / 8)))[0]? = some (le32 (tailOf 8 key)) := by
      rw [List.getElem?_drop, word key _ (by rw [tailOf_length] at hlen; omega), ← ht, Nat.add_zero, ← Nat.mul_assoc]
    have hsl : 1 ≤ ((sliceUI32 key).drop (2 * (key.length / 8))).length := by
      rw [List.length_drop, slice_length]; rw [tailOf_length] at hlen; omega
    simp only [hl, ht, if_pos (show (tailOf 8 key).length ≥ 4 by omega), Go.idx, hw, Go.from_, if_pos hsl, if_pos hlen, Go.bind_ok, Go.pure_ok]
    have e : cwmixb (hk p) (le32 (tailOf 8 key)) = hk (plus p (B (leNat ((tailOf 8 key).take 4)))) := by
      apply HK_ext; rw [mixb, le32_toNat]; rfl
    have hd : (tailOf 8 key).length - 4 = ((tailOf 8 key).drop 4).length := by rw [List.length_drop]
    rw [e, hd, tail_eq _ _ (by rw [List.length_drop]; omega), rest, if_neg h, plus_assoc]

theorem foldl_plus (l : List Pair) (p : Pair) : l.foldl plus p = plus p (l.foldl plus (0#32, 0#32)) := by
  induction l generalizing p with
  | nil => rw [List.foldl_nil, List.foldl_nil, plus_zero]
  | cons a l ih => rw [List.foldl_cons, List.foldl_cons, ih, ih (plus _ a), zero_plus, plus_assoc]

theorem CrapWow_eq (key : List U8) (seed : U32) : CrapWow key seed = .ok (crapwow key seed) := by
  unfold CrapWow
  dsimp only
  rw [show (⟨BitVec.ofNat 32 key.length, BitVec.ofNat 32 key.length + seed + n⟩ : HK) = hk (BitVec.ofNat 32 key.length, BitVec.ofNat 32 key.length + seed + n) from rfl,
    loop_eq, Go.bind_ok]
  have h := four_tail key (((blocks 8 key).map block).foldl plus (BitVec.ofNat 32 key.length, BitVec.ofNat 32 key.length + seed + n))
  cases hf : four (hk (((blocks 8 key).map block).foldl plus (BitVec.ofNat 32 key.length, BitVec.ofNat 32 key.length + seed + n)),
      (sliceUI32 key).drop (2 * (key.length / 8)), key.drop (8 * (key.length / 8)), key.length - 8 * (key.length / 8)) with
  | error e => rw [hf] at h; exact nomatch h
  | ok q =>
    rw [hf, Go.bind_ok] at h
    rw [Go.bind_ok, h, Go.bind_ok]
    rw [crapwow, ofSum, total, ← plus_assoc, ← foldl_plus, show BitVec.ofNat 32 N = n from rfl]
    generalize plus (((blocks 8 key).map block).foldl plus (BitVec.ofNat 32 key.length, BitVec.ofNat 32 key.length + seed + n)) (rest (tailOf 8 key)) = s
    have e : cwmixb (hk s) (s.1 ^^^ (s.2 + n)) = hk (plus s (B (s.1 ^^^ (s.2 + n)).toNat)) := by
      apply HK_ext; rw [mixb]; rfl
    show Except.ok ((cwmixb (hk s) (s.1 ^^^ (s.2 + n))).k ^^^ (cwmixb (hk s) (s.1 ^^^ (s.2 + n))).h) = _
    rw [e]; rfl

theorem Hash32_eq (s : State) (b : List U8) (seeds : List U32) :
    s.Hash32 b seeds = .ok (⟨crapwow b (match seeds with | [] => s.seed | x :: _ => x), match seeds with | [] => s.seed | x :: _ => x⟩,
      crapwow b (match seeds with | [] => s.seed | x :: _ => x)) := by
  unfold State.Hash32
  cases seeds <;> simp only [CrapWow_eq, Go.bind_ok, Go.pure_ok]

theorem run_eq (s : State) (calls : List (List U8 × List U32)) :
    s.run calls = .ok ((List.range calls.length).map (fun i => crapwow ((calls.getD i ([], [])).1) (Spec.Small.seedInForce s.seed (calls.take (i + 1))))) := by
  induction calls generalizing s with
  | nil => rfl
  | cons c cs ih =>
    obtain ⟨b, seeds⟩ := c
    unfold State.run
    rw [Hash32_eq, Go.bind_ok]
    simp only []
    rw [ih, Go.bind_ok, List.length_cons, List.range_succ_eq_map, List.map_cons, List.map_map, Go.pure_ok]
    generalize crapwow = f
    refine congrArg Except.ok (congrArg₂ List.cons ?_ ?_)
    · exact congrArg (f b) (Sbox.seed_cons s.seed b seeds [])
    · apply List.map_congr_left
      intro i _
      simp only [Function.comp, Nat.succ_eq_add_one, List.getD_cons_succ, List.take_succ_cons]
      rw [Sbox.seed_cons]

theorem total_perm {a b : List (List U8)} (h : a.Perm b) : (a.map block).foldl plus (0#32, 0#32) = (b.map block).foldl plus (0#32, 0#32) := by
  apply List.Perm.foldl_eq' (h.map block)
  intro x _ y _ z
  rw [plus_assoc, plus_comm x y, ← plus_assoc]

end Verif.Lemmas.CrapWow

namespace Verif.Lemmas.MaHash
open Verif Verif.Model.MaHash
open Verif.Spec.MaHash (S spread exchange step join state)

theorem lrot14 (x : U32) : LROT14 x = x.rotateLeft 14 := rotl_eq x (by decide)
theorem rrot14 (x : U32) : RROT14 x = x.rotateRight 14 := by
  rw [RROT14, BitVec.or_comm]; exact rotr_eq x (by decide)

theorem table_length : Gen.sTable.length = 256 := by decide +kernel

theorem idx_S (b : U8) : Go.idx Gen.sTable b.toNat = .ok (Gen.sTable.getD b.toNat 0#8) := by
  have := b.isLt
  have h : b.toNat < Gen.sTable.length := by rw [table_length]; omega
  rw [Go.idx_eq h, List.getD_eq_getElem?_getD, List.getElem?_eq_getElem h, Option.getD_some]

theorem setWidth32 (t : U8) : t.setWidth 32 = BitVec.ofNat 32 t.toNat := by
  apply BitVec.eq_of_toNat_eq; simp

theorem half (x y : U32) : (x >>> 16 &&& 0xffff#32) ||| (y &&& 0xffff#32) <<< 16 = BitVec.ofNat 32 (x.toNat / 2 ^ 16 + 2 ^ 16 * (y.toNat % 2 ^ 16)) := by
  apply BitVec.eq_of_toNat_eq
  have h1 := x.isLt
  have h2 := y.isLt
  simp only [BitVec.toNat_or, BitVec.toNat_and, BitVec.toNat_ushiftRight, BitVec.toNat_shiftLeft, BitVec.toNat_ofNat, Nat.shiftRight_eq_div_pow, Nat.shiftLeft_eq]
  rw [show 65535 % 2 ^ 32 = 2 ^ 16 - 1 from rfl, Nat.and_two_pow_sub_one_eq_mod, Nat.and_two_pow_sub_one_eq_mod]
  rw [Nat.mod_eq_of_lt (show x.toNat / 2 ^ 16 < 2 ^ 16 by omega), Nat.mod_eq_of_lt (show y.toNat % 2 ^ 16 * 2 ^ 16 < 2 ^ 32 by omega),
    Nat.mod_eq_of_lt (show x.toNat / 2 ^ 16 + 2 ^ 16 * (y.toNat % 2 ^ 16) < 2 ^ 32 by omega)]
  rw [Nat.or_comm, ← Nat.shiftLeft_eq, ← Nat.shiftLeft_add_eq_or_of_lt (show x.toNat / 2 ^ 16 < 2 ^ 16 by omega), Nat.shiftLeft_eq, Nat.add_comm, Nat.mul_comm]

theorem body_eq (str : List U8) (i : Nat) (q : U32 × U32) (h : i < str.length) : body str i q = .ok (step q str[i]) := by
  obtain ⟨h1, h2⟩ := q
  unfold body
  dsimp only
  rw [Go.idx_eq h, Go.bind_ok, idx_S, Go.bind_ok]
  simp only [Go.pure_ok, lrot14, rrot14, half, setWidth32, step, exchange, spread, S]

theorem join_eq (a b : U32) : a.setWidth 64 <<< 32 ||| b.setWidth 64 = join (a, b) := by
  apply BitVec.eq_of_toNat_eq
  have h1 := a.isLt
  have h2 := b.isLt
  simp only [join, BitVec.toNat_or, BitVec.toNat_setWidth, BitVec.toNat_shiftLeft, BitVec.toNat_ofNat]
  rw [Nat.mod_eq_of_lt (show a.toNat < 2 ^ 64 by omega), Nat.mod_eq_of_lt (show b.toNat < 2 ^ 64 by omega),
    Nat.mod_eq_of_lt (show 2 ^ 32 * a.toNat + b.toNat < 2 ^ 64 by omega), Nat.shiftLeft_eq, Nat.mod_eq_of_lt (show a.toNat * 2 ^ 32 < 2 ^ 64 by omega),
    ← Nat.shiftLeft_eq, ← Nat.shiftLeft_add_eq_or_of_lt h2, Nat.shiftLeft_eq, Nat.mul_comm]

theorem MaHash_eq (str : List U8) : MaHash8v64 str =
    .ok (join (state str) ^^^ LROT64 (join (state str) + (join (state str) <<< 13 ^^^ join (state str) >>> 23))) := by
  unfold MaHash8v64
  dsimp only
  rw [Go.forRange_foldl (f := step) str (fun i s h => body_eq str i s h), Go.bind_ok]
  simp only [join_eq, Go.pure_ok, state]

end Verif.Lemmas.MaHash
