import Verif.Lemmas.Keccak

namespace Verif.Lemmas.Keccak
open Verif Verif.Model.Keccak
open Verif.Spec.Keccak (State keccakf xorInto bytes pad)

/-- What the code does with one block. -/
def stepW (n : Nat) (A : State) (b : List U8) : State := keccakf n (xorInto A (whole b))

/-- Usable parameters: block size `r` between 1 and 200, at most 24 rounds. -/
structure Params (k : Keccak) (r n size : Nat) : Prop where
  bs : k.blockSize = r
  pos : 0 < r
  le : r ≤ 200
  rounds : k.rounds = n
  n24 : n ≤ 24
  size : k.size = size
  len : k.S.length = 25

theorem f_step {k : Keccak} {r n size : Nat} (P : Params k r n size) (b : List U8) (hb : b.length = r) :
    ∃ S', k.f b = .ok { k with S := S' } ∧ lanes S' = stepW n (lanes k.S) b ∧ Params { k with S := S' } r n size := by
  have hle := P.le
  have hn := P.n24
  obtain ⟨S', e1, e2, e3⟩ := f_eq k b P.len (by rw [hb, P.bs]) (by omega) (by rw [P.rounds]; exact hn)
  exact ⟨S', e1, by rw [e3, P.rounds]; rfl, ⟨P.bs, P.pos, P.le, P.rounds, P.n24, P.size, e2⟩⟩

theorem loop_ok (r n size fuel : Nat) : ∀ (k : Keccak) (b : List U8), Params k r n size → b.length ≤ fuel →
    ∃ S', Go.while_ fuel (fun q : Keccak × List U8 => decide ((q.2.length : Int) ≥ q.1.blockSize)) writeBody (k, b) = .ok ({ k with S := S' }, tailOf r b) ∧
      lanes S' = (blocks r b).foldl (stepW n) (lanes k.S) ∧ Params { k with S := S' } r n size := by
  induction fuel with
  | zero =>
    intro k b P hf
    have hp := P.pos
    have hb : b = [] := List.eq_nil_of_length_eq_zero (by omega)
    subst hb
    have hc : decide ((([] : List U8).length : Int) ≥ k.blockSize) = false := by
      rw [P.bs, decide_eq_false_iff_not, List.length_nil]; omega
    refine ⟨k.S, ?_, by simp, P⟩
    rw [Go.while_]
    simp only [hc, tailOf_nil]
    rfl
  | succ f ih =>
    intro k b P hf
    have hp := P.pos
    by_cases h : r ≤ b.length
    · have hc : decide ((b.length : Int) ≥ k.blockSize) = true := by
        rw [P.bs, decide_eq_true_eq]; omega
      obtain ⟨S1, e1, e2, P1⟩ := f_step P (b.take r) (by rw [List.length_take]; omega)
      obtain ⟨S2, g1, g2, P2⟩ := ih _ (b.drop r) P1 (by rw [List.length_drop]; omega)
      refine ⟨S2, ?_, ?_, P2⟩
      · have hbody : writeBody (k, b) = .ok ({ k with S := S1 }, b.drop r) := by
          unfold writeBody upto after
          simp only [P.bs]
          rw [if_pos (by omega), Go.bind_ok, Int.toNat_natCast, e1, Go.bind_ok]
          simp only [P.bs]
          rw [if_pos (by omega), Go.bind_ok, Int.toNat_natCast, Go.pure_ok]
        rw [Go.while_]
        simp only [hc, hbody, if_true]
        rw [tailOf_of_le hp h]
        exact g1
      · rw [g2, blocks_of_le hp h, List.foldl_cons, ← e2]
    · have hc : decide ((b.length : Int) ≥ k.blockSize) = false := by
        rw [P.bs, decide_eq_false_iff_not]; omega
      refine ⟨k.S, ?_, by rw [blocks_of_lt (by omega)]; rfl, P⟩
      rw [Go.while_]
      simp only [hc, tailOf_of_lt (show b.length < r by omega)]
      rfl

theorem writeBlocks_ok {k : Keccak} {r n size : Nat} (P : Params k r n size) (b : List U8) :
    ∃ S', k.writeBlocks b = .ok { k with S := S', buf := tailOf r b } ∧ lanes S' = (blocks r b).foldl (stepW n) (lanes k.S) ∧
      Params { k with S := S', buf := tailOf r b } r n size := by
  obtain ⟨S', e1, e2, P'⟩ := loop_ok r n size (b.length + 1) k b P (by omega)
  refine ⟨S', ?_, e2, ⟨P'.bs, P'.pos, P'.le, P'.rounds, P'.n24, P'.size, P'.len⟩⟩
  unfold Keccak.writeBlocks
  rw [e1, Go.bind_ok]
  rfl

/-- State of a hasher that has absorbed `m`. -/
structure Inv (k : Keccak) (r n size : Nat) (m : List U8) : Prop where
  P : Params k r n size
  S : lanes k.S = (blocks r m).foldl (stepW n) (fun _ _ => 0#64)
  buf : k.buf = tailOf r m

theorem write_ok {k : Keccak} {r n size : Nat} {m : List U8} (h : Inv k r n size m) (p : List U8) :
    ∃ k', k.Write p = .ok (k', p.length) ∧ Inv k' r n size (m ++ p) := by
  obtain ⟨S, sz, bs, rd, buf⟩ := k
  obtain rfl : bs = (r : Int) := h.P.bs
  have hp := h.P.pos
  have hlt := tailOf_length_lt hp m
  have hbuf : buf = tailOf r m := h.buf
  have hbl : buf.length < r := by rw [hbuf]; exact hlt
  have hS : lanes S = (blocks r m).foldl (stepW n) (fun _ _ => 0#64) := h.S
  unfold Keccak.Write
  by_cases h0 : buf.length > 0
  · simp only [if_pos h0]
    by_cases hx : r ≤ buf.length + p.length
    · -- completes a block
      rw [if_neg (show ¬ ((r : Int) - buf.length > p.length) by omega)]
      have hxn : ((r : Int) - buf.length).toNat = r - buf.length := by omega
      unfold upto after
      rw [if_pos (by omega), Go.bind_ok, if_pos (by omega), Go.bind_ok, hxn,
        if_neg (show ¬ (((buf ++ p.take (r - buf.length)).length : Int) < r) by rw [List.length_append, List.length_take]; omega)]
      have P1 : Params (⟨S, sz, (r : Int), rd, buf ++ p.take (r - buf.length)⟩ : Keccak) r n size := ⟨rfl, h.P.pos, h.P.le, h.P.rounds, h.P.n24, h.P.size, h.P.len⟩
      have hfull : (buf ++ p.take (r - buf.length)).length = r := by rw [List.length_append, List.length_take]; omega
      obtain ⟨S1, e1, e2, P2⟩ := f_step P1 _ hfull
      simp only at e1 e2 P2
      have P3 : Params (⟨S1, sz, (r : Int), rd, []⟩ : Keccak) r n size := ⟨P2.bs, P2.pos, P2.le, P2.rounds, P2.n24, P2.size, P2.len⟩
      obtain ⟨S2, g1, g2, P4⟩ := writeBlocks_ok P3 (p.drop (r - buf.length))
      simp only at g1 g2 P4
      rw [e1, Go.bind_ok]
      simp only [g1, Go.bind_ok, Go.pure_ok]
      refine ⟨_, rfl, P4, ?_, ?_⟩
      · simp only [g2, e2]
        have hm : m ++ p = (m ++ p.take (r - buf.length)) ++ p.drop (r - buf.length) := by rw [List.append_assoc, List.take_append_drop]
        have hb1 : blocks r (m ++ p.take (r - buf.length)) = blocks r m ++ [buf ++ p.take (r - buf.length)] := by
          rw [blocks_append hp, ← hbuf, blocks_of_le (l := buf ++ _) hp (by omega), List.take_of_length_le (by omega), List.drop_of_length_le (by omega), blocks_nil]
        have ht1 : tailOf r (m ++ p.take (r - buf.length)) = [] := by
          rw [tailOf_append hp, ← hbuf, tailOf_of_le (l := buf ++ _) hp (by omega), List.drop_of_length_le (by omega), tailOf_nil]
        rw [hm, blocks_append hp, ht1, List.nil_append, hb1, List.foldl_append, List.foldl_append, List.foldl_cons, List.foldl_nil, ← hS]
      · have hm : m ++ p = (m ++ p.take (r - buf.length)) ++ p.drop (r - buf.length) := by rw [List.append_assoc, List.take_append_drop]
        have ht1 : tailOf r (m ++ p.take (r - buf.length)) = [] := by
          rw [tailOf_append hp, ← hbuf, tailOf_of_le (l := buf ++ _) hp (by omega), List.drop_of_length_le (by omega), tailOf_nil]
        simp only
        rw [hm, tailOf_append hp (m ++ _), ht1, List.nil_append]
    · -- does not
      rw [if_pos (show ((r : Int) - buf.length > p.length) by omega)]
      unfold upto after
      rw [if_pos (by omega), Go.bind_ok, if_pos (by omega), Go.bind_ok, Int.toNat_natCast, List.take_length, if_pos (by rw [List.length_append]; omega), Go.pure_ok]
      have hs : (tailOf r m ++ p).length < r := by rw [← hbuf, List.length_append]; omega
      refine ⟨_, rfl, ⟨rfl, h.P.pos, h.P.le, h.P.rounds, h.P.n24, h.P.size, h.P.len⟩, ?_, ?_⟩
      · simp only
        rw [blocks_append hp, blocks_of_lt hs, List.append_nil, hS]
      · simp only
        rw [tailOf_append hp, tailOf_of_lt hs, hbuf]
  · have hnil : tailOf r m = [] := by rw [← hbuf]; exact List.eq_nil_of_length_eq_zero (by omega)
    simp only [if_neg h0]
    obtain ⟨S', e1, e2, P'⟩ := writeBlocks_ok h.P p
    rw [e1, Go.bind_ok, Go.pure_ok]
    refine ⟨_, rfl, P', ?_, ?_⟩
    · simp only
      rw [e2, blocks_append hp, hnil, List.nil_append, List.foldl_append, hS]
    · simp only
      rw [tailOf_append hp, hnil, List.nil_append]

/-- The last block. -/
def padTail (r : Nat) (t : List U8) : List U8 :=
  if t.length = r - 1 then t ++ [0x81#8] else t ++ 0x01#8 :: (List.replicate (r - t.length - 2) 0#8 ++ [0x80#8])

theorem padTail_length {r : Nat} {t : List U8} (h : t.length < r) : (padTail r t).length = r := by
  unfold padTail
  split
  · simp; omega
  · simp; omega

theorem pad_ok (k : Keccak) (r : Nat) (hbs : k.blockSize = r) (hb : k.buf.length < r) : k.pad = .ok (padTail r k.buf) := by
  unfold Keccak.pad
  rw [hbs, if_neg (by omega), Int.toNat_natCast]
  obtain ⟨j, hj⟩ : ∃ j, r = k.buf.length + 1 + j := ⟨r - k.buf.length - 1, by omega⟩
  have e1 : (k.buf ++ List.replicate r 0#8).take r = k.buf ++ List.replicate (j + 1) 0#8 := by
    rw [List.take_append, List.take_of_length_le (by omega), List.take_replicate, show min (r - k.buf.length) r = j + 1 by omega]
  simp only [e1]
  have e2 : Go.set (k.buf ++ List.replicate (j + 1) 0#8) k.buf.length 0x01#8 = .ok (k.buf ++ 0x01#8 :: List.replicate j 0#8) := by
    rw [Go.set, if_pos (by simp), List.set_append_right _ _ (Nat.le_refl _), Nat.sub_self, List.replicate_succ, List.set_cons_zero]
  rw [e2, Go.bind_ok]
  simp only [List.length_append, List.length_cons, List.length_replicate]
  unfold padTail
  cases j with
  | zero =>
    have hl : (k.buf ++ 0x01#8 :: List.replicate 0 0#8)[k.buf.length + (0 + 1) - 1]? = some 0x01#8 := by
      rw [List.getElem?_append_right (by omega)]; simp
    rw [Go.idx, hl, Go.bind_ok, Go.set, if_pos (by simp), if_pos (by omega), List.set_append_right _ _ (by omega)]
    simp
  | succ j =>
    have hrep : List.replicate (j + 1) 0#8 = List.replicate j 0#8 ++ [0#8] := List.replicate_succ'
    have hl : (k.buf ++ 0x01#8 :: List.replicate (j + 1) 0#8)[k.buf.length + (j + 1 + 1) - 1]? = some 0#8 := by
      rw [List.getElem?_append_right (by omega), show k.buf.length + (j + 1 + 1) - 1 - k.buf.length = j + 1 by omega, List.getElem?_cons_succ,
        List.getElem?_replicate, if_pos (by omega)]
    rw [Go.idx, hl, Go.bind_ok, Go.set, if_pos (by simp), if_neg (by omega), List.set_append_right _ _ (by omega),
      show k.buf.length + (j + 1 + 1) - 1 - k.buf.length = j + 1 by omega, List.set_cons_succ, hrep, List.set_append_right _ _ (by simp)]
    simp only [List.length_replicate, Nat.sub_self, List.set_cons_zero]
    rw [show r - k.buf.length - 2 = j by omega]
    rfl

theorem pad_blocks {r : Nat} (hr : 0 < r) (m : List U8) : blocks r (pad r m) = blocks r m ++ [padTail r (tailOf r m)] := by
  have e : pad r m = m ++ (padTail r (tailOf r m)).drop (tailOf r m).length := by
    unfold pad padTail
    rw [tailOf_length]
    split <;> rw [List.drop_left' (tailOf_length r m)]
  have hlt := tailOf_length_lt hr m
  have hl := padTail_length hlt
  have hpre : tailOf r m ++ (padTail r (tailOf r m)).drop (tailOf r m).length = padTail r (tailOf r m) := by
    unfold padTail
    split <;> rw [List.drop_left]
  rw [e, blocks_append hr, hpre, blocks_of_le (l := padTail r _) hr (by omega), List.take_of_length_le (by omega), List.drop_of_length_le (by omega), blocks_nil]

theorem put_eq (x : U64) : putUint64le x = leBytes 8 x.toNat := by
  have h := x.isLt
  have b : ∀ k, (x >>> k).setWidth 8 = BitVec.ofNat 8 (x.toNat / 2 ^ k) := by
    intro k
    apply BitVec.eq_of_toNat_eq
    rw [BitVec.toNat_setWidth, BitVec.toNat_ushiftRight, BitVec.toNat_ofNat, Nat.shiftRight_eq_div_pow]
  have b0 : x.setWidth 8 = BitVec.ofNat 8 x.toNat := by
    apply BitVec.eq_of_toNat_eq
    rw [BitVec.toNat_setWidth, BitVec.toNat_ofNat]
  unfold putUint64le
  simp only [b, b0, leBytes, Nat.div_div_eq_div_mul, Nat.reducePow, Nat.reduceMul]

theorem bytes_eq {S : List U64} (h : S.length = 25) : S.flatMap putUint64le = bytes (lanes S) := by
  have e : S = (List.range 25).map (fun i => lanes S (Fin.ofNat 5 i) (Fin.ofNat 5 (i / 5))) := by
    apply List.ext_getElem
    · simp [h]
    · intro i h1 h2
      simp only [List.length_map, List.length_range] at h2
      simp only [List.getElem_map, List.getElem_range, lanes, Fin.val_ofNat]
      rw [show i % 5 + 5 * (i / 5 % 5) = i by omega, List.getD_eq_getElem?_getD, List.getElem?_eq_getElem h1, Option.getD_some]
  conv => lhs; rw [e, List.flatMap_map]
  unfold bytes
  simp only [put_eq]

theorem bytes_length (A : State) : (bytes A).length = 200 := by
  unfold bytes
  rw [List.length_flatMap]
  simp [leBytes_length]

/-- What the code computes, for every usable block size. -/
def digestW (n r size : Nat) (m : List U8) : List U8 := (bytes ((blocks r (pad r m)).foldl (stepW n) (fun _ _ => 0#64))).take size

theorem sum_ok {k : Keccak} {r n size : Nat} {m : List U8} (h : Inv k r n size m) (hs : size ≤ 200) (b : List U8) :
    k.Sum b = .ok (k, b ++ digestW n r size m) := by
  have hp := h.P.pos
  have hlt := tailOf_length_lt hp m
  unfold Keccak.Sum
  rw [pad_ok k r h.P.bs (by rw [h.buf]; exact hlt), Go.bind_ok]
  obtain ⟨S1, e1, e2, P1⟩ := f_step h.P (padTail r k.buf) (padTail_length (by rw [h.buf]; exact hlt))
  rw [e1, Go.bind_ok]
  simp only
  rw [bytes_eq P1.len, Go.slice, if_pos ⟨Nat.zero_le _, by rw [h.P.size, bytes_length]; exact hs⟩, Go.bind_ok, Go.pure_ok, List.drop_zero, h.P.size, digestW,
    pad_blocks hp, List.foldl_append, List.foldl_cons, List.foldl_nil, e2, h.S, h.buf]

theorem reset_ok {k : Keccak} {r n size : Nat} {m : List U8} (h : Inv k r n size m) : Inv k.Reset r n size [] := by
  refine ⟨⟨h.P.bs, h.P.pos, h.P.le, h.P.rounds, h.P.n24, h.P.size, by simp [Keccak.Reset]⟩, ?_, by simp [Keccak.Reset]⟩
  rw [blocks_nil, List.foldl_nil]
  funext x y
  unfold lanes Keccak.Reset
  rw [List.getD_eq_getElem?_getD, List.getElem?_replicate]
  split <;> rfl

theorem new_inv (bits rounds : Nat) (h1 : bits / 8 ≤ 99) (h2 : rounds ≤ 24) : Inv (newKeccak bits rounds) (200 - 2 * (bits / 8)) rounds (bits / 8) [] := by
  refine ⟨⟨?_, by omega, by omega, rfl, h2, rfl, by simp [newKeccak]⟩, ?_, by simp [newKeccak]⟩
  · simp only [newKeccak]; omega
  · rw [blocks_nil, List.foldl_nil]
    funext x y
    unfold lanes newKeccak
    rw [List.getD_eq_getElem?_getD, List.getElem?_replicate]
    split <;> rfl

theorem run_ok (bits rounds : Nat) (h1 : bits / 8 ≤ 99) (h2 : rounds ≤ 24) (ops : List HOp) :
    hasher.run (newKeccak bits rounds) ops = .ok (contract (digestW rounds (200 - 2 * (bits / 8)) (bits / 8)) (fun _ => []) [] ops) := by
  apply Hasher.run_eq_contract (I := fun k m => Inv k (200 - 2 * (bits / 8)) rounds (bits / 8) m)
  · intro k m p hi; exact write_ok hi p
  · intro k m hi; exact ⟨k.Reset, rfl, reset_ok hi⟩
  · intro k m b hi; exact ⟨k, sum_ok hi (by omega) b, hi⟩
  · intro k m hi; exact ⟨k, rfl, hi⟩
  · exact new_inv bits rounds h1 h2

end Verif.Lemmas.Keccak
