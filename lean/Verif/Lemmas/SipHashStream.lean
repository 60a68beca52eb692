import Verif.Lemmas.SipHash

namespace Verif.Lemmas.SipHash
open Verif.Model.SipHash
open Verif.Spec.SipHash (State sipRound rounds absorb pad compress)

/-- Fields that `Write` must keep. -/
def Same (d d' : Digest) : Prop := d'.k0 = d.k0 ∧ d'.k1 = d.k1 ∧ d'.t = d.t ∧ d'.size = d.size

def absorbAll (s : V) (p : List U8) : V := (blocks 8 p).foldl (fun s b => compress1 s (le64 b)) s

/-- The buffered state of a digest after `m`, started from `s0`. -/
structure J (s0 : V) (d : Digest) (m : List U8) : Prop where
  v : d.v = absorbAll s0 m
  nx : d.nx = (tailOf 8 m).length
  xlen : d.x.length = 8
  x : d.x.take d.nx = tailOf 8 m

theorem blocks_ok (d : Digest) (p : List U8) : d.blocks p = .ok { d with v := absorbAll d.v p } := by
  simp only [Digest.blocks, blocksLoop_eq]; rfl

theorem absorbAll_append (s : V) (a b : List U8) :
    absorbAll s (a ++ b) = absorbAll (absorbAll s a) (tailOf 8 a ++ b) := by
  simp only [absorbAll]
  rw [blocks_append (by omega), List.foldl_append]

theorem absorbAll_small (s : V) (a : List U8) (h : a.length < 8) : absorbAll s a = s := by
  simp [absorbAll, blocks_of_lt h]

theorem tail_small (n : Nat) (l : List U8) (h : l.length = n) (hn : 0 < n) : tailOf n l = [] := by
  rw [tailOf_of_le hn (by omega), ← h, List.drop_length, tailOf_nil]

theorem topUp_ok {s0 : V} {d : Digest} {m : List U8} (p : List U8) (h : J s0 d m) :
    ∃ d' m' q, d.topUp p = .ok (d', q) ∧ J s0 d' m' ∧ m' ++ q = m ++ p ∧ (q = [] ∨ d'.nx = 0) ∧ Same d d' := by
  obtain ⟨v, k0, k1, t, nx, x, size⟩ := d
  obtain ⟨hv, hnx, hxl, hx⟩ := h
  simp only at hv hnx hxl hx
  have ht := tailOf_length_lt (by omega : 0 < 8) m
  by_cases h0 : nx > 0
  · by_cases hp : p.length < 8 - nx
    · refine ⟨⟨v, k0, k1, t, nx + p.length, (copyInto x nx p).1, size⟩, m ++ p, [], ?_, ⟨?_, ?_, ?_, ?_⟩, by simp, Or.inl rfl,
        rfl, rfl, rfl, rfl⟩
      · have e1 : ¬ p.length > 8 - nx := by omega
        have e2 : min (x.length - nx) p.length = p.length := by omega
        have e3 : ¬ nx + p.length = 8 := by omega
        simp only [Digest.topUp, copyInto, if_pos h0, if_neg e1, e2, if_neg e3, Go.from_eq (Nat.le_refl p.length)]
        simp [pure, Except.pure, bind, Except.bind]
      · simp only [hv]
        rw [absorbAll_append, absorbAll_small _ (tailOf 8 m ++ p) (by simp; omega)]
      · rw [tailOf_append (by omega), tailOf_of_lt (by simp; omega)]; simp; omega
      · simp [copyInto]; omega
      · have e2 : min (x.length - nx) p.length = p.length := by omega
        rw [tailOf_append (by omega), tailOf_of_lt (by simp; omega)]
        simp only [copyInto, e2, List.take_length, hx]
        rw [← hx, List.take_append_of_le_length (by simp; omega), List.take_of_length_le (by simp)]
    · have e2 : min (x.length - nx) p.length = 8 - nx := by omega
      have e4 : (copyInto x nx p).1 = tailOf 8 m ++ p.take (8 - nx) := by
        simp only [copyInto, e2, hx]
        rw [List.drop_of_length_le (by omega)]; simp
      have ht2 : (tailOf 8 m ++ p.take (8 - nx)).length = 8 := by simp; omega
      refine ⟨⟨absorbAll v (copyInto x nx p).1, k0, k1, t, 0, (copyInto x nx p).1, size⟩, m ++ p.take (8 - nx), p.drop (8 - nx), ?_,
        ⟨?_, ?_, ?_, ?_⟩, by simp, Or.inr rfl, rfl, rfl, rfl, rfl⟩
      · have e1 : (if p.length > 8 - nx then 8 - nx else p.length) = 8 - nx := by split <;> omega
        have e3 : nx + (8 - nx) = 8 := by omega
        have e5 : 8 - nx ≤ p.length := by omega
        simp only [Digest.topUp, if_pos h0, e1, Go.from_eq e5]
        have e6 : (copyInto x nx p).2 = 8 - nx := e2
        simp only [e6, e3, blocks_ok]
        simp [pure, Except.pure, bind, Except.bind]
      · simp only [hv, e4]; rw [absorbAll_append s0 m]
      · rw [tailOf_append (by omega), tail_small 8 _ ht2 (by omega)]; rfl
      · simp only [e4, ht2]
      · rw [tailOf_append (by omega), tail_small 8 _ ht2 (by omega)]; simp
  · refine ⟨⟨v, k0, k1, t, nx, x, size⟩, m, p, ?_, ⟨hv, hnx, hxl, hx⟩, rfl, Or.inr (show nx = 0 by omega), rfl, rfl, rfl, rfl⟩
    simp only [Digest.topUp, if_neg h0]; rfl

theorem take_blocks_tail (p : List U8) : p = p.take (p.length / 8 * 8) ++ tailOf 8 p := by
  simp [tailOf]

theorem tailOf_mul (n k : Nat) (hn : 0 < n) (l : List U8) (h : l.length = k * n) : tailOf n l = [] := by
  rw [tailOf, h, Nat.mul_div_cancel _ hn, ← h, List.drop_length]

theorem bulk_ok {s0 : V} {d : Digest} {m : List U8} (p : List U8) (h : J s0 d m) (hq : p = [] ∨ d.nx = 0) :
    ∃ d' m' q, d.bulk p = .ok (d', q) ∧ J s0 d' m' ∧ m' ++ q = m ++ p ∧ q.length < 8 ∧
      (q = [] ∨ d'.nx = 0) ∧ Same d d' := by
  by_cases hp : p.length ≥ 8
  · have hne : p ≠ [] := by intro e; simp [e] at hp
    have h0 : d.nx = 0 := by rcases hq with e | e; exact absurd e hne; exact e
    obtain ⟨v, k0, k1, t, nx, x, size⟩ := d
    obtain ⟨hv, hnx, hxl, hx⟩ := h
    simp only at hv hnx hxl hx h0
    have hle : p.length / 8 * 8 ≤ p.length := Nat.div_mul_le_self _ _
    have hm : tailOf 8 m = [] := List.length_eq_zero_iff.1 (by omega)
    have hl : (p.take (p.length / 8 * 8)).length = p.length / 8 * 8 := by simp; omega
    have ht : tailOf 8 (m ++ p.take (p.length / 8 * 8)) = [] := by
      rw [tailOf_append (by omega), hm, List.nil_append, tailOf_mul 8 _ (by omega) _ hl]
    refine ⟨⟨absorbAll v (p.take (p.length / 8 * 8)), k0, k1, t, nx, x, size⟩, m ++ p.take (p.length / 8 * 8), tailOf 8 p,
      ?_, ⟨?_, ?_, hxl, ?_⟩, ?_, tailOf_length_lt (by omega) p, Or.inr h0, rfl, rfl, rfl, rfl⟩
    · simp only [Digest.bulk, if_pos hp, Go.slice, Nat.zero_le, true_and, if_pos hle, Go.from_eq hle, List.drop_zero]
      simp only [bind, Except.bind, blocks_ok]
      rfl
    · simp only [hv]; rw [absorbAll_append s0 m, hm, List.nil_append]
    · rw [ht]; exact h0
    · rw [ht, h0]; rfl
    · rw [List.append_assoc, ← take_blocks_tail]
  · refine ⟨d, m, p, ?_, h, rfl, by omega, hq, rfl, rfl, rfl, rfl⟩
    simp only [Digest.bulk, if_neg hp]; rfl

theorem write_ok {s0 : V} {d : Digest} {m : List U8} (p : List U8) (h : J s0 d m) :
    ∃ d', d.write p = .ok (d', p.length) ∧ J s0 d' (m ++ p) ∧
      d'.k0 = d.k0 ∧ d'.k1 = d.k1 ∧ d'.size = d.size ∧ d'.t = d.t + BitVec.ofNat 8 p.length := by
  have h0 : J s0 { d with t := d.t + BitVec.ofNat 8 p.length } m := ⟨h.v, h.nx, h.xlen, h.x⟩
  obtain ⟨d1, m1, q1, e1, j1, c1, z1, s1⟩ := topUp_ok p h0
  obtain ⟨d2, m2, q2, e2, j2, c2, l2, z2, s2⟩ := bulk_ok q1 j1 z1
  obtain ⟨a1, a2, a3, a4⟩ := s1
  obtain ⟨b1, b2, b3, b4⟩ := s2
  have e : d.write p = (if q2.length > 0 then
      .ok ({ d2 with x := (copyInto d2.x 0 q2).1, nx := (copyInto d2.x 0 q2).2 }, p.length) else .ok (d2, p.length)) := by
    simp only [Digest.write, e1, bind, Except.bind, e2]; rfl
  rw [e]
  by_cases hq : q2.length > 0
  · rw [if_pos hq]
    have hne : q2 ≠ [] := by intro e; simp [e] at hq
    have h0 : d2.nx = 0 := by rcases z2 with e | e; exact absurd e hne; exact e
    have hm : tailOf 8 m2 = [] := List.length_eq_zero_iff.1 (by rw [← j2.nx]; exact h0)
    have hx := j2.xlen
    have hmin : min (d2.x.length - 0) q2.length = q2.length := by omega
    have ht : tailOf 8 (m ++ p) = q2 := by
      rw [← c1, ← c2, tailOf_append (by omega), hm, List.nil_append, tailOf_of_lt l2]
    refine ⟨_, rfl, ⟨?_, ?_, ?_, ?_⟩, b1.trans a1, b2.trans a2, b4.trans a4, b3.trans a3⟩
    · simp only [j2.v]
      rw [← c1, ← c2, absorbAll_append, absorbAll_small _ (tailOf 8 m2 ++ q2) (by rw [hm]; simpa using l2)]
    · simp only [ht, copyInto, hmin]
    · simp [copyInto]; omega
    · simp only [ht, copyInto, hmin]; simp
  · rw [if_neg hq]
    have : q2 = [] := List.length_eq_zero_iff.1 (by omega)
    refine ⟨_, rfl, ?_, b1.trans a1, b2.trans a2, b4.trans a4, b3.trans a3⟩
    rw [this, List.append_nil] at c2
    rw [← c1, ← c2]; exact j2

theorem set_eq {s : List α} {i : Nat} {v : α} (h : i < s.length) : Go.set s i v = .ok (s.set i v) := by
  simp [Go.set, h]

theorem set_snoc (l : List α) (a b : α) (n : Nat) (h : n = l.length) : (l ++ [a]).set n b = l ++ [b] := by
  subst h
  induction l with
  | nil => rfl
  | cons x xs ih => simp [ih]

/-- The zeroing loop of `Sum64`. -/
theorem zero_loop (n lo : Nat) (x : List U8) (h : lo + n ≤ x.length) :
    Go.forRange lo n (fun i x => Go.set x i 0#8) x
      = .ok (x.take lo ++ List.replicate n 0#8 ++ x.drop (lo + n)) := by
  induction n generalizing lo x with
  | zero => simp [Go.forRange]
  | succ n ih =>
    rw [Go.forRange, set_eq (by omega)]
    show Go.forRange (lo + 1) n _ _ = _
    rw [ih _ _ (by simp; omega)]
    congr 1
    rw [List.replicate_succ, List.take_set, List.drop_set_of_lt (by omega)]
    have : (x.take (lo + 1)).set lo 0#8 = x.take lo ++ [0#8] := by
      rw [List.take_succ_eq_append_getElem (by omega), set_snoc _ _ _ _ (by simp; omega)]
    rw [this, show lo + 1 + n = lo + (n + 1) by omega]
    simp only [List.append_assoc, List.cons_append, List.nil_append]

theorem finish_ok {s0 : V} {d : Digest} {m : List U8} (h : J s0 d m) :
    d.finishBuf = .ok { d with x := tailOf 8 m ++ List.replicate (7 - (tailOf 8 m).length) 0#8 ++ [d.t] } := by
  obtain ⟨v, k0, k1, t, nx, x, size⟩ := d
  obtain ⟨hv, hnx, hxl, hx⟩ := h
  simp only at hv hnx hxl hx
  have ht := tailOf_length_lt (by omega : 0 < 8) m
  have e7 : nx + (7 - nx) = 7 := by omega
  have e8 : x.drop 7 = [x[7]] := by
    rw [List.drop_eq_getElem_cons (by omega), List.drop_of_length_le (by omega)]
  simp only [Digest.finishBuf]
  rw [zero_loop _ _ _ (by omega)]
  simp only [bind, Except.bind]
  rw [set_eq (by simp; omega)]
  simp only [hx, e7, e8, ← hnx]
  rw [set_snoc _ _ _ _ (by simp; omega)]
  rfl

/-- What `Sum64` and `sum128` see: the state after the whole padded message. -/
theorem final_v {s0 : V} {d : Digest} {m : List U8} (h : J s0 d m) (ht : d.t = BitVec.ofNat 8 m.length) :
    (do let d ← d.finishBuf
        d.blocks d.x) = .ok { d with
          v := compress1 (absorbAll s0 m) (BitVec.ofNat 64 m.length <<< 56 ||| BitVec.ofNat 64 (leNat (tailOf 8 m))),
          x := tailOf 8 m ++ List.replicate (7 - (tailOf 8 m).length) 0#8 ++ [d.t] } := by
  have hl := tailOf_length_lt (by omega : 0 < 8) m
  rw [finish_ok h]
  simp only [bind, Except.bind, blocks_ok]
  have : absorbAll d.v (tailOf 8 m ++ List.replicate (7 - (tailOf 8 m).length) 0#8 ++ [d.t]) =
    compress1 (absorbAll s0 m) (BitVec.ofNat 64 m.length <<< 56 ||| BitVec.ofNat 64 (leNat (tailOf 8 m))) := by
    rw [absorbAll, blocks_exact (by omega) (by simp; omega), ht, h.v]
    simp only [List.foldl_cons, List.foldl_nil, lastWord _ _ hl]
  rw [this]

theorem sum64_ok {k0 k1 : U64} {d : Digest} {m : List U8} (h : J (init64 k0 k1) d m)
    (ht : d.t = BitVec.ofNat 8 m.length) :
    d.sum64 = .ok (d, Spec.SipHash.hash64 2 4 k0 k1 m) := by
  have e := final_v h ht
  have e2 : d.sum64 = (do
    let d' ← (do let d ← d.finishBuf
                 d.blocks d.x)
    return (d, fin64 d'.v)) := by
    simp only [Digest.sum64, bind, Except.bind]
    cases d.finishBuf <;> rfl
  rw [e2, e]
  simp only [bind, Except.bind]
  rw [fin64_spec, absorbAll, absorb_pad, init64_spec]
  rfl

theorem sum128_ok {k0 k1 : U64} {d : Digest} {m : List U8} (h : J (init128 k0 k1) d m)
    (ht : d.t = BitVec.ofNat 8 m.length) :
    d.sum128 = .ok (d, Spec.SipHash.hash128 2 4 k0 k1 m) := by
  have e := final_v h ht
  have e2 : d.sum128 = (do
    let d' ← (do let d ← d.finishBuf
                 d.blocks d.x)
    return (d, fin128 d'.v)) := by
    simp only [Digest.sum128, bind, Except.bind]
    cases d.finishBuf <;> rfl
  rw [e2, e]
  simp only [bind, Except.bind]
  rw [fin128_spec, absorbAll, absorb_pad, init128_spec]
  rfl

theorem ofNat_div (x k : Nat) (r : U64) (h : r.toNat = x) :
    (r >>> k).setWidth 8 = BitVec.ofNat 8 (x / 2 ^ k) := by
  apply BitVec.eq_of_toNat_eq
  simp [BitVec.toNat_setWidth, BitVec.toNat_ushiftRight, Nat.shiftRight_eq_div_pow, h]

theorem bytesOf_eq (r : U64) : bytesOf r = leBytes 8 r.toNat := by
  have h0 : r.setWidth 8 = BitVec.ofNat 8 r.toNat := by
    apply BitVec.eq_of_toNat_eq; simp [BitVec.toNat_setWidth]
  have h := fun k => ofNat_div r.toNat k r rfl
  simp only [bytesOf, leBytes, h, h0, Nat.div_div_eq_div_mul, Nat.reducePow, Nat.reduceMul]

end Verif.Lemmas.SipHash
