import Verif.Lemmas.KeccakStream
import Verif.Spec.KeccakHeap

namespace Verif.Lemmas.KeccakHeap
open Verif
open Verif.Model.Keccak (Keccak newKeccak putUint64le)
open Verif.Model.KeccakHeap
open Verif.Spec.KeccakHeap
open Verif.Lemmas.Keccak (lanes stepW Params f_step padTail pad_ok padTail_length digestW bytes_eq bytes_length pad_blocks)

theorem overwrite_nil (a : List U8) (p : Nat) : overwrite a p [] = a := by
  unfold overwrite
  simp

theorem overwrite_length {a bs : List U8} {p : Nat} (h : p + bs.length ≤ a.length) : (overwrite a p bs).length = a.length := by
  unfold overwrite
  rw [List.length_append, List.length_append, List.length_take, List.length_drop]
  omega

theorem set_getD_self (l : List (List U8)) (i : Nat) : l.set i (l.getD i []) = l := by
  by_cases h : i < l.length
  · rw [List.getD_eq_getElem?_getD, List.getElem?_eq_getElem h, Option.getD_some, List.set_getElem_self]
  · exact List.set_eq_of_length_le (by omega)

/-- Reading a slice extended by what was just stored behind it. -/
theorem read_overwrite {a bs : List U8} {off len : Nat} (h : off + len + bs.length ≤ a.length) :
    ((overwrite a (off + len) bs).drop off).take (len + bs.length) = (a.drop off).take len ++ bs := by
  unfold overwrite
  rw [List.drop_append_of_le_length (by rw [List.length_take]; omega), List.drop_take, show off + len - off = len by omega]
  have hl : ((a.drop off).take len).length = len := by rw [List.length_take, List.length_drop]; omega
  rw [List.take_append, List.take_of_length_le (by omega), hl, show len + bs.length - len = bs.length by omega, List.take_append_of_le_length (Nat.le_refl _), List.take_length]

structure BufOK (h : Heap) (s : Slice) (handed : List Nat) : Prop where
  le : s.len ≤ s.cap
  fits : s.off + s.cap ≤ (h.arr s.ref).length ∨ s.len = 0
  who : s.len = 0 ∨ (∃ i, s.ref = .caller i ∧ i ∈ handed ∧ s.cap = s.len) ∨ ∃ i, s.ref = .own i ∧ i < h.own.length

theorem read_length {h : Heap} {s : Slice} {hd : List Nat} (b : BufOK h s hd) : (h.read s).length = s.len := by
  unfold Heap.read
  have := b.le
  rw [List.length_take, List.length_drop]
  rcases b.fits with f | f <;> omega

/-- An array that was just allocated. -/
theorem arr_new (h : Heap) (d : List U8) : Heap.arr { h with own := h.own ++ [d] } (.own h.own.length) = d := by
  unfold Heap.arr
  simp

/-- The other arrays do not change. -/
theorem arr_old {h : Heap} {d : List U8} {r : Ref} (hr : (∃ i, r = .caller i) ∨ ∃ i, r = .own i ∧ i < h.own.length) :
    Heap.arr { h with own := h.own ++ [d] } r = h.arr r := by
  rcases hr with ⟨i, rfl⟩ | ⟨i, rfl, hi⟩
  · rfl
  · unfold Heap.arr
    dsimp only
    rw [List.getD_eq_getElem?_getD, List.getElem?_append_left hi, ← List.getD_eq_getElem?_getD]

theorem append_ok (grow : Nat → Nat) {h : Heap} {s : Slice} {hd : List Nat} (b : BufOK h s hd) (h0 : 0 < s.len) (bs : List U8) :
    ∃ h' s', append grow h s bs = (h', s') ∧ h'.caller = h.caller ∧ h'.read s' = h.read s ++ bs ∧ BufOK h' s' hd ∧ s'.len = s.len + bs.length := by
  have hle := b.le
  have hrl := read_length b
  have hfit : s.off + s.cap ≤ (h.arr s.ref).length := by rcases b.fits with f | f; exact f; omega
  unfold append
  by_cases hc : s.len + bs.length ≤ s.cap
  · rw [if_pos hc]
    refine ⟨_, _, rfl, ?_⟩
    rcases b.who with w | ⟨i, w1, w2, w3⟩ | ⟨i, w1, w2⟩
    · omega
    · have hbs : bs = [] := List.eq_nil_of_length_eq_zero (by omega)
      subst hbs
      obtain ⟨ref, off, len, cap⟩ := s
      subst w1
      have e : h.put (.caller i) (off + len) [] = h := by
        unfold Heap.put
        dsimp only
        rw [overwrite_nil, set_getD_self]
      simp only [e, List.append_nil, List.length_nil, Nat.add_zero]
      exact ⟨trivial, trivial, b, trivial⟩
    · obtain ⟨ref, off, len, cap⟩ := s
      subst w1
      have harr : h.arr (.own i) = h.own.getD i [] := rfl
      rw [harr] at hfit
      simp only at hfit hc hle
      have hl : (overwrite (h.own.getD i []) (off + len) bs).length = (h.own.getD i []).length := overwrite_length (by omega)
      have hget : ((h.own.set i (overwrite (h.own.getD i []) (off + len) bs)).getD i []) = overwrite (h.own.getD i []) (off + len) bs := by
        rw [List.getD_eq_getElem?_getD, List.getElem?_set_self w2, Option.getD_some]
      refine ⟨rfl, ?_, ⟨hc, Or.inl ?_, Or.inr (Or.inr ⟨i, rfl, ?_⟩)⟩, rfl⟩
      · unfold Heap.read Heap.put Heap.arr
        simp only [hget]
        exact read_overwrite (by omega)
      · unfold Heap.put Heap.arr
        simp only [hget, hl]
        omega
      · unfold Heap.put
        simp only [List.length_set]
        exact w2
  · rw [if_neg hc]
    refine ⟨_, _, rfl, rfl, ?_, ⟨by simp, Or.inl ?_, Or.inr (Or.inr ⟨_, rfl, by simp⟩)⟩, by simp [hrl]⟩
    · unfold Heap.read
      dsimp only
      rw [arr_new, List.drop_zero, List.take_left]
    · dsimp only
      rw [arr_new]
      simp only [List.length_append, List.length_replicate]
      omega

/-! ### The block loop -/

/-- What is left of a slice after its complete blocks. -/
def rest (r : Nat) (s : Slice) : Slice := ⟨s.ref, s.off + s.len / r * r, s.len - s.len / r * r, s.cap - s.len / r * r⟩

theorem read_take {h : Heap} {s : Slice} {n : Nat} (hn : n ≤ s.len) : h.read { s with len := n } = (h.read s).take n := by
  unfold Heap.read
  rw [List.take_take, Nat.min_eq_left hn]

theorem read_drop {h : Heap} {s : Slice} {n c : Nat} : h.read ⟨s.ref, s.off + n, s.len - n, c⟩ = (h.read s).drop n := by
  unfold Heap.read
  rw [List.drop_take, List.drop_drop]

theorem rest_read {h : Heap} {s : Slice} {r : Nat} (hl : (h.read s).length = s.len) : h.read (rest r s) = tailOf r (h.read s) := by
  unfold rest tailOf
  rw [read_drop, hl]

theorem loop_ok (h : Heap) (r n size fuel : Nat) : ∀ (k : Keccak) (s : Slice), Params k r n size → s.len ≤ fuel → s.len ≤ s.cap → (h.read s).length = s.len →
    ∃ S', Go.while_ fuel (fun q : Keccak × Slice => decide ((q.2.len : Int) ≥ q.1.blockSize)) (loopBody h) (k, s) = .ok ({ k with S := S' }, rest r s) ∧
      lanes S' = (blocks r (h.read s)).foldl (stepW n) (lanes k.S) ∧ Params { k with S := S' } r n size := by
  induction fuel with
  | zero =>
    intro k s P hf hc hl
    have hp := P.pos
    have h0 : s.len = 0 := by omega
    have hcnd : decide ((s.len : Int) ≥ k.blockSize) = false := by
      rw [P.bs, decide_eq_false_iff_not, h0]; omega
    refine ⟨k.S, ?_, ?_, P⟩
    · rw [Go.while_]
      simp only [hcnd]
      have : rest r s = s := by unfold rest; simp [h0]; obtain ⟨a, b, c, d⟩ := s; simp at h0; simp [h0]
      rw [this]
      rfl
    · rw [blocks_of_lt (by omega)]; rfl
  | succ f ih =>
    intro k s P hf hc hl
    have hp := P.pos
    by_cases hr : r ≤ s.len
    · have hcnd : decide ((s.len : Int) ≥ k.blockSize) = true := by
        rw [P.bs, decide_eq_true_eq]; omega
      obtain ⟨S1, e1, e2, P1⟩ := f_step P ((h.read s).take r) (by rw [List.length_take]; omega)
      have hl2 : (h.read ⟨s.ref, s.off + r, s.len - r, s.cap - r⟩).length = s.len - r := by
        rw [read_drop, List.length_drop, hl]
      obtain ⟨S2, g1, g2, P2⟩ := ih _ ⟨s.ref, s.off + r, s.len - r, s.cap - r⟩ P1 (by simp only; omega) (by simp only; omega) hl2
      refine ⟨S2, ?_, ?_, P2⟩
      · have hbody : loopBody h (k, s) = .ok ({ k with S := S1 }, ⟨s.ref, s.off + r, s.len - r, s.cap - r⟩) := by
          unfold loopBody Slice.upto Slice.after
          simp only [P.bs]
          rw [if_pos (by omega), Go.bind_ok, Int.toNat_natCast, read_take hr, e1, Go.bind_ok]
          simp only [P.bs]
          rw [if_pos (by omega), Go.bind_ok, Int.toNat_natCast, Go.pure_ok]
        rw [Go.while_]
        simp only [hcnd, hbody, if_true]
        have hrest : rest r ⟨s.ref, s.off + r, s.len - r, s.cap - r⟩ = rest r s := by
          unfold rest
          have hd : s.len / r = (s.len - r) / r + 1 := by
            rw [Nat.div_eq s.len r, if_pos ⟨hp, hr⟩]
          simp only [Slice.mk.injEq, true_and]
          rw [hd, Nat.add_mul, Nat.one_mul]
          omega
        rw [← hrest]
        exact g1
      · rw [g2, read_drop, blocks_of_le (l := h.read s) hp (by omega), List.foldl_cons, ← e2]
    · have hcnd : decide ((s.len : Int) ≥ k.blockSize) = false := by
        rw [P.bs, decide_eq_false_iff_not]; omega
      refine ⟨k.S, ?_, by rw [blocks_of_lt (by omega)]; rfl, P⟩
      rw [Go.while_]
      simp only [hcnd]
      have : rest r s = s := by
        unfold rest
        rw [Nat.div_eq_of_lt (by omega)]
        simp
      rw [this]
      rfl

theorem writeBlocks_ok {h : Heap} {r n size : Nat} {k : KH} (s : Slice) (P : Params k.core r n size) (hc : s.len ≤ s.cap) (hl : (h.read s).length = s.len) :
    ∃ S', k.writeBlocks h s = .ok ⟨{ k.core with S := S' }, rest r s⟩ ∧ lanes S' = (blocks r (h.read s)).foldl (stepW n) (lanes k.core.S) ∧
      Params { k.core with S := S' } r n size := by
  obtain ⟨S', e1, e2, P'⟩ := loop_ok h r n size (s.len + 1) k.core s P (by omega) hc hl
  refine ⟨S', ?_, e2, P'⟩
  unfold KH.writeBlocks
  rw [e1, Go.bind_ok]
  rfl

/-! ### Invariant -/

structure HInv (h : Heap) (k : KH) (r n size : Nat) (m : List U8) (hd : List Nat) : Prop where
  P : Params k.core r n size
  S : lanes k.core.S = (blocks r m).foldl (stepW n) (fun _ _ => 0#64)
  buf : h.read k.buf = tailOf r m
  ok : BufOK h k.buf hd

theorem caller_read_length {h : Heap} {s : CSlice} (v : Valid h.caller s) : (h.read s.slice).length = s.len := by
  unfold Heap.read CSlice.slice Heap.arr
  obtain ⟨v1, v2⟩ := v
  rw [List.length_take, List.length_drop]
  simp only
  omega

theorem read_slice (h : Heap) (s : CSlice) : h.read s.slice = bytesOf h.caller s := rfl

theorem bufOK_rest {h : Heap} {s : Slice} {hd : List Nat} {r i : Nat} (hr : s.ref = .caller i) (hi : i ∈ hd) (hcap : s.cap = s.len)
    (hfit : s.off + s.cap ≤ (h.arr s.ref).length) : BufOK h (rest r s) hd := by
  have hm := Nat.div_mul_le_self s.len r
  refine ⟨?_, Or.inl ?_, Or.inr (Or.inl ⟨i, hr, hi, ?_⟩)⟩ <;> unfold rest <;> simp only <;> omega

theorem bufOK_mono {h : Heap} {s : Slice} {hd hd' : List Nat} (b : BufOK h s hd) (sub : ∀ i ∈ hd, i ∈ hd') : BufOK h s hd' := by
  refine ⟨b.le, b.fits, ?_⟩
  rcases b.who with w | ⟨i, w1, w2, w3⟩ | w
  · exact Or.inl w
  · exact Or.inr (Or.inl ⟨i, w1, sub i w2, w3⟩)
  · exact Or.inr (Or.inr w)

theorem write_ok (grow : Nat → Nat) {h : Heap} {k : KH} {r n size : Nat} {m : List U8} {hd : List Nat} (I : HInv h k r n size m hd) (s : CSlice)
    (v : Valid h.caller s) (hcap : s.cap = s.len) :
    ∃ h' k', k.Write grow h s.slice = .ok (h', k', (bytesOf h.caller s).length) ∧ h'.caller = h.caller ∧ HInv h' k' r n size (m ++ bytesOf h.caller s) (s.arr :: hd) := by
  have hp := I.P.pos
  have hlt := tailOf_length_lt hp m
  have hbl := read_length I.ok
  rw [I.buf] at hbl
  have hpl := caller_read_length v
  have hpe := read_slice h s
  have hfit : s.slice.off + s.slice.cap ≤ (h.arr s.slice.ref).length := v.2
  have hslen : s.slice.len = s.len := rfl
  have hscap : s.slice.cap = s.len := hcap
  generalize bytesOf h.caller s = p at hpe
  rw [hpe] at hpl
  unfold KH.Write
  simp only [hslen]
  rw [hpl]
  by_cases h0 : k.buf.len > 0
  · simp only [if_pos h0, I.P.bs]
    by_cases hx : r ≤ k.buf.len + p.length
    · rw [if_neg (show ¬ ((r : Int) - k.buf.len > s.len) by omega)]
      have hxn : ((r : Int) - k.buf.len).toNat = r - k.buf.len := by omega
      unfold Slice.upto Slice.after
      rw [if_pos (by rw [hscap]; omega), Go.bind_ok, hxn, read_take (by rw [hslen]; omega), hpe]
      obtain ⟨h', s', a1, a2, a3, a4, a5⟩ := append_ok grow I.ok h0 (p.take (r - k.buf.len))
      rw [a1]
      simp only
      rw [List.length_take] at a5
      rw [if_pos (by rw [hslen]; omega), Go.bind_ok, if_neg (by omega)]
      rw [I.buf] at a3
      have hfull : (tailOf r m ++ p.take (r - k.buf.len)).length = r := by rw [List.length_append, List.length_take]; omega
      obtain ⟨S1, e1, e2, P1⟩ := f_step I.P _ hfull
      rw [a3, e1, Go.bind_ok]
      have hrd : h'.read ⟨s.slice.ref, s.slice.off + (r - k.buf.len), s.slice.len - (r - k.buf.len), s.slice.cap - (r - k.buf.len)⟩ = p.drop (r - k.buf.len) := by
        rw [read_drop]
        have : h'.read s.slice = h.read s.slice := by
          rw [read_slice, read_slice, a2]
        rw [this, hpe]
      obtain ⟨S2, g1, g2, P2⟩ := writeBlocks_ok (h := h') (k := ⟨{ k.core with S := S1 }, nil⟩) ⟨s.slice.ref, s.slice.off + (r - k.buf.len), s.slice.len - (r - k.buf.len), s.slice.cap - (r - k.buf.len)⟩ P1
        (by simp only; omega) (by rw [hrd, List.length_drop]; simp only; omega)
      rw [g1, Go.bind_ok, Go.pure_ok]
      have hm : m ++ p = (m ++ p.take (r - k.buf.len)) ++ p.drop (r - k.buf.len) := by rw [List.append_assoc, List.take_append_drop]
      have ht1 : tailOf r (m ++ p.take (r - k.buf.len)) = [] := by
        rw [tailOf_append hp, tailOf_of_le (l := tailOf r m ++ _) hp (by omega), List.drop_of_length_le (by omega), tailOf_nil]
      refine ⟨_, _, rfl, a2, P2, ?_, ?_, ?_⟩
      · simp only [g2, hrd, e2]
        have hb1 : blocks r (m ++ p.take (r - k.buf.len)) = blocks r m ++ [tailOf r m ++ p.take (r - k.buf.len)] := by
          rw [blocks_append hp, blocks_of_le (l := tailOf r m ++ _) hp (by omega), List.take_of_length_le (by omega), List.drop_of_length_le (by omega), blocks_nil]
        rw [hm, blocks_append hp, ht1, List.nil_append, hb1, List.foldl_append, List.foldl_append, List.foldl_cons, List.foldl_nil, ← I.S]
      · simp only
        rw [rest_read (by rw [hrd, List.length_drop]; simp only; omega), hrd, hm, tailOf_append hp (m ++ _), ht1, List.nil_append]
      · apply bufOK_rest (i := s.arr) rfl (by simp)
        · simp only; omega
        · have harr : h'.arr s.slice.ref = h.arr s.slice.ref := by
            show h'.caller.getD s.arr [] = h.caller.getD s.arr []
            rw [a2]
          simp only [harr]
          omega
    · rw [if_pos (show ((r : Int) - k.buf.len > s.len) by omega)]
      unfold Slice.upto Slice.after
      rw [if_pos (by rw [hscap]; omega), Go.bind_ok, Int.toNat_natCast, read_take (by rw [hslen]), hpe, ← hpl, List.take_length]
      obtain ⟨h', s', a1, a2, a3, a4, a5⟩ := append_ok grow I.ok h0 p
      rw [a1]
      simp only
      rw [if_pos (by rw [hslen]; omega), Go.bind_ok, if_pos (by omega), Go.pure_ok]
      have hs : (tailOf r m ++ p).length < r := by rw [List.length_append]; omega
      refine ⟨_, _, rfl, a2, I.P, ?_, ?_, bufOK_mono a4 (by intro i hi; simp [hi])⟩
      · simp only
        rw [blocks_append hp, blocks_of_lt hs, List.append_nil, I.S]
      · simp only
        rw [a3, I.buf, tailOf_append hp, tailOf_of_lt hs]
  · have hnil : tailOf r m = [] := List.eq_nil_of_length_eq_zero (by omega)
    simp only [if_neg h0]
    obtain ⟨S', e1, e2, P'⟩ := writeBlocks_ok (h := h) (k := k) s.slice I.P (by omega) (by rw [hpe, hslen, hpl])
    rw [e1, Go.bind_ok, Go.pure_ok]
    refine ⟨_, _, rfl, rfl, P', ?_, ?_, bufOK_rest (i := s.arr) rfl (by simp) hscap hfit⟩
    · simp only
      rw [e2, hpe, blocks_append hp, hnil, List.nil_append, List.foldl_append, I.S]
    · simp only
      rw [rest_read (by rw [hpe, hslen, hpl]), hpe, tailOf_append hp, hnil, List.nil_append]

/-- `Sum` into a slice without spare capacity. -/
theorem sum_gen (grow : Nat → Nat) {h : Heap} {k : KH} {r n size : Nat} (P : Params k.core r n size) (t : List U8) (ht : h.read k.buf = t) (htl : t.length < r)
    (hb : k.buf.len = 0 ∨ (∃ i, k.buf.ref = .caller i) ∨ ∃ i, k.buf.ref = .own i ∧ i < h.own.length) (hs : size ≤ 200) (b : CSlice) (hcap : b.cap = b.len) :
    ∃ h', k.Sum grow h b.slice = .ok (h', bytesOf h.caller b ++ (Spec.Keccak.bytes (stepW n (lanes k.core.S) (padTail r t))).take size) ∧ h'.caller = h.caller ∧
      h'.read k.buf = h.read k.buf ∧ (∀ hd, BufOK h k.buf hd → BufOK h' k.buf hd) := by
  unfold KH.Sum
  rw [ht]
  have hpad : ({ k.core with buf := t } : Keccak).pad = .ok (padTail r t) := pad_ok _ r P.bs htl
  rw [hpad, Go.bind_ok]
  obtain ⟨S1, e1, e2, P1⟩ := f_step P _ (padTail_length htl)
  rw [e1, Go.bind_ok]
  have hsz : ({ k.core with S := S1 } : Keccak).size = size := P1.size
  have hlen : S1.length = 25 := P1.len
  rw [hsz]
  simp only
  rw [bytes_eq hlen, e2]
  unfold Go.slice
  rw [if_pos ⟨by omega, by rw [bytes_length]; exact hs⟩, Go.bind_ok, List.drop_zero]
  generalize hd : (Spec.Keccak.bytes (stepW n (lanes k.core.S) (padTail r t))).take size = d
  have hfull : b.slice.cap = b.slice.len := hcap
  unfold append
  by_cases hc : b.slice.len + d.length ≤ b.slice.cap
  · have hd0 : d = [] := List.eq_nil_of_length_eq_zero (by omega)
    subst hd0
    rw [if_pos hc]
    have e : h.put b.slice.ref (b.slice.off + b.slice.len) [] = h := by
      unfold Heap.put CSlice.slice
      dsimp only
      rw [overwrite_nil, set_getD_self]
    simp only [e, List.length_nil, Nat.add_zero, List.append_nil, Go.pure_ok]
    exact ⟨h, rfl, rfl, ht, fun _ hb => hb⟩
  · rw [if_neg hc]
    simp only [Go.pure_ok]
    refine ⟨{ h with own := h.own ++ [(h.read b.slice ++ d) ++ List.replicate (grow (h.read b.slice ++ d).length) 0#8] }, ?_, rfl, ?_, ?_⟩
    · refine congrArg (fun x => Except.ok (_, x)) ?_
      show Heap.read _ _ = h.read b.slice ++ d
      unfold Heap.read
      dsimp only
      rw [arr_new, List.drop_zero, List.take_left]
    · rw [← ht]
      unfold Heap.read
      rcases hb with w | ⟨i, w⟩ | w
      · rw [w]; simp
      · rw [arr_old (Or.inl ⟨i, w⟩)]
      · rw [arr_old (Or.inr w)]
    · intro hd hb
      refine ⟨hb.le, ?_, ?_⟩
      · rcases hb.who with w | ⟨i, w, _⟩ | w
        · exact Or.inr w
        · rw [arr_old (Or.inl ⟨i, w⟩)]; exact hb.fits
        · rw [arr_old (Or.inr w)]; exact hb.fits
      · rcases hb.who with w | w | ⟨i, w1, w2⟩
        · exact Or.inl w
        · exact Or.inr (Or.inl w)
        · exact Or.inr (Or.inr ⟨i, w1, by simp only [List.length_append]; omega⟩)

theorem sum_ok (grow : Nat → Nat) {h : Heap} {k : KH} {r n size : Nat} {m : List U8} {hd : List Nat} (I : HInv h k r n size m hd) (hs : size ≤ 200) (b : CSlice)
    (hcap : b.cap = b.len) :
    ∃ h', k.Sum grow h b.slice = .ok (h', bytesOf h.caller b ++ digestW n r size m) ∧ h'.caller = h.caller ∧ HInv h' k r n size m hd := by
  obtain ⟨h', e1, e2, e3, e4⟩ := sum_gen grow I.P (tailOf r m) I.buf (tailOf_length_lt I.P.pos m)
    (by rcases I.ok.who with w | ⟨i, w, _⟩ | w; exact Or.inl w; exact Or.inr (Or.inl ⟨i, w⟩); exact Or.inr (Or.inr w)) hs b hcap
  refine ⟨h', ?_, e2, I.P, I.S, by rw [e3, I.buf], e4 hd I.ok⟩
  rw [e1]
  unfold digestW
  rw [pad_blocks I.P.pos, List.foldl_append, I.S]
  rfl

theorem nil_ok (h : Heap) (hd : List Nat) : BufOK h nil hd := ⟨Nat.le_refl _, Or.inr rfl, Or.inl rfl⟩

theorem read_nil (h : Heap) : h.read nil = [] := by
  unfold Heap.read nil
  simp

theorem reset_ok {h : Heap} {k : KH} {r n size : Nat} {m : List U8} {hd hd' : List Nat} (I : HInv h k r n size m hd) : HInv h k.Reset r n size [] hd' := by
  refine ⟨⟨I.P.bs, I.P.pos, I.P.le, I.P.rounds, I.P.n24, I.P.size, by simp [KH.Reset, Keccak.Reset]⟩, ?_, by rw [tailOf_nil]; exact read_nil h, nil_ok h hd'⟩
  rw [blocks_nil, List.foldl_nil]
  funext x y
  have hx := x.isLt
  have hy := y.isLt
  show (List.replicate 25 0#64).getD _ _ = _
  rw [List.getD_eq_getElem?_getD, List.getElem?_replicate, if_pos (by omega), Option.getD_some]

theorem poke_ok {h : Heap} {k : KH} {r n size : Nat} {m : List U8} {hd : List Nat} (I : HInv h k r n size m hd) {a : Nat} (i : Nat) (v : U8) (ha : a ∉ hd) :
    HInv { h with caller := poke h.caller a i v } k r n size m hd := by
  have harr : k.buf.len = 0 ∨ Heap.arr { h with caller := poke h.caller a i v } k.buf.ref = h.arr k.buf.ref := by
    rcases I.ok.who with w | ⟨j, w1, w2, _⟩ | ⟨j, w1, _⟩
    · exact Or.inl w
    · right
      rw [w1]
      have hne : a ≠ j := by intro e; subst e; exact ha w2
      unfold Heap.arr poke
      dsimp only
      rw [List.getD_eq_getElem?_getD, List.getElem?_set_ne hne, ← List.getD_eq_getElem?_getD]
    · right
      rw [w1]
      rfl
  refine ⟨I.P, I.S, ?_, I.ok.le, ?_, I.ok.who⟩
  · rw [← I.buf]
    unfold Heap.read
    rcases harr with h0 | h1
    · rw [h0]; simp
    · rw [h1]
  · rcases harr with h0 | h1
    · exact Or.inr h0
    · rw [h1]; exact I.ok.fits

theorem new_inv (mem : List (List U8)) (bits rounds : Nat) (h1 : bits / 8 ≤ 99) (h2 : rounds ≤ 24) (hd : List Nat) :
    HInv ⟨mem, []⟩ (new bits rounds) (200 - 2 * (bits / 8)) rounds (bits / 8) [] hd := by
  have I := Verif.Lemmas.Keccak.new_inv bits rounds h1 h2
  exact ⟨I.P, I.S, by rw [tailOf_nil]; exact read_nil _, nil_ok _ hd⟩

theorem run_polite (grow : Nat → Nat) {r n size : Nat} (hs : size ≤ 200) (ops : List Op) : ∀ (h : Heap) (k : KH) (m : List U8) (hd : List Nat),
    HInv h k r n size m hd → Polite h.caller hd ops →
    run grow h k ops = .ok (contract (digestW n r size) (fun _ => []) m (callsOf h.caller ops), finalMem h.caller ops) := by
  induction ops with
  | nil => intro h k m hd _ _; rfl
  | cons op ops ih =>
    intro h k m hd I pol
    cases op with
    | write s =>
      obtain ⟨v, hcap, pol'⟩ := pol
      obtain ⟨h', k', e1, e2, I'⟩ := write_ok grow I s v hcap
      unfold run
      rw [e1, Go.bind_ok]
      dsimp only
      rw [ih h' k' _ _ I' (by rw [e2]; exact pol'), Go.bind_ok, e2]
      rfl
    | sum b =>
      obtain ⟨v, hcap, pol'⟩ := pol
      obtain ⟨h', e1, e2, I'⟩ := sum_ok grow I hs b hcap
      unfold run
      rw [e1, Go.bind_ok]
      dsimp only
      rw [ih h' k _ _ I' (by rw [e2]; exact pol'), Go.bind_ok, e2]
      rfl
    | reset =>
      unfold run
      rw [ih h k.Reset [] [] (reset_ok I) pol, Go.bind_ok]
      rfl
    | poke a i v =>
      unfold run
      rw [ih _ k m hd (poke_ok I i v pol.1) pol.2]
      rfl

/-! ### Impolite callers -/

/-- A short first write only records the slice. -/
theorem write_first (grow : Nat → Nat) {h : Heap} {k : KH} {r n size : Nat} (P : Params k.core r n size) (hb : k.buf.len = 0) (s : Slice) (h1 : s.len < r) :
    k.Write grow h s = .ok (h, ⟨k.core, s⟩, s.len) := by
  have hp := P.pos
  unfold KH.Write
  rw [if_neg (by omega)]
  unfold KH.writeBlocks
  have hcnd : decide ((s.len : Int) ≥ k.core.blockSize) = false := by
    rw [P.bs, decide_eq_false_iff_not]; omega
  have : ∀ f, Go.while_ f (fun q : Keccak × Slice => decide ((q.2.len : Int) ≥ q.1.blockSize)) (loopBody h) (k.core, s) = .ok (k.core, s) := by
    intro f
    cases f <;> rw [Go.while_] <;> simp only [hcnd] <;> rfl
  rw [this]
  rfl

theorem read_ok_len {h : Heap} {s : CSlice} (v : Valid h.caller s) : (bytesOf h.caller s).length = s.len := caller_read_length v

theorem poke_length (mem : List (List U8)) (a i : Nat) (v : U8) (j : Nat) : ((poke mem a i v).getD j []).length = (mem.getD j []).length := by
  unfold poke
  rw [List.getD_eq_getElem?_getD, List.getElem?_set]
  by_cases h : a = j
  · subst h
    rw [if_pos rfl]
    split
    · rw [Option.getD_some, List.length_set]
    · rename_i hn
      rw [Option.getD_none, List.getD_eq_getElem?_getD, List.getElem?_eq_none (by omega), Option.getD_none]
  · rw [if_neg h, List.getD_eq_getElem?_getD]

theorem valid_poke {mem : List (List U8)} {s : CSlice} (v : Valid mem s) (a i : Nat) (x : U8) : Valid (poke mem a i x) s := by
  refine ⟨v.1, ?_⟩
  rw [poke_length]
  exact v.2

theorem retained (grow : Nat → Nat) (bits rounds : Nat) (h1 : bits / 8 ≤ 99) (h2 : rounds ≤ 24) (mem : List (List U8)) (s b : CSlice) (a i : Nat) (v : U8)
    (hv : Valid mem s) (hl : s.len < 200 - 2 * (bits / 8)) (hcap : b.cap = b.len) :
    run grow ⟨mem, []⟩ (new bits rounds) [.write s, .poke a i v, .sum b] =
      .ok ([.wrote s.len, .bytes (bytesOf (poke mem a i v) b ++ digestW rounds (200 - 2 * (bits / 8)) (bits / 8) (bytesOf (poke mem a i v) s))], poke mem a i v) := by
  have I := new_inv mem bits rounds h1 h2 []
  unfold run
  rw [write_first grow I.P rfl s.slice hl, Go.bind_ok]
  dsimp only
  unfold run
  have hlen : (bytesOf (poke mem a i v) s).length = s.len := read_ok_len (h := ⟨poke mem a i v, []⟩) (valid_poke hv a i v)
  obtain ⟨h', e1, e2, e3, e4⟩ := sum_gen grow (h := ⟨poke mem a i v, []⟩) (k := ⟨(new bits rounds).core, s.slice⟩) I.P (bytesOf (poke mem a i v) s) rfl (by omega)
    (Or.inr (Or.inl ⟨s.arr, rfl⟩)) (by omega) b hcap
  unfold run
  rw [e1, Go.bind_ok]
  dsimp only
  unfold run
  rw [Go.bind_ok, e2]
  have hd : digestW rounds (200 - 2 * (bits / 8)) (bits / 8) (bytesOf (poke mem a i v) s) =
      (Spec.Keccak.bytes (stepW rounds (lanes (new bits rounds).core.S) (padTail (200 - 2 * (bits / 8)) (bytesOf (poke mem a i v) s)))).take (bits / 8) := by
    unfold digestW
    rw [pad_blocks I.P.pos, blocks_of_lt (by omega), tailOf_of_lt (by omega), List.nil_append, List.foldl_cons, List.foldl_nil, I.S, blocks_nil, List.foldl_nil]
  rw [hd]
  rfl

theorem overwritten (grow : Nat → Nat) (bits rounds : Nat) (h1 : bits / 8 ≤ 99) (h2 : rounds ≤ 24) (mem : List (List U8)) (s p : CSlice)
    (hs : Valid mem s) (hp : Valid mem p) (h0 : 0 < s.len) (hl : s.len + p.len < 200 - 2 * (bits / 8)) (hcap : s.len + p.len ≤ s.cap) :
    run grow ⟨mem, []⟩ (new bits rounds) [.write s, .write p] =
      .ok ([.wrote s.len, .wrote p.len], mem.set s.arr (overwrite (mem.getD s.arr []) (s.off + s.len) (bytesOf mem p))) := by
  have I := new_inv mem bits rounds h1 h2 []
  have hpl : (bytesOf mem p).length = p.len := read_ok_len (h := ⟨mem, []⟩) hp
  unfold run
  rw [write_first grow I.P rfl s.slice (show s.len < _ by omega), Go.bind_ok]
  dsimp only
  have hbs : (new bits rounds).core.blockSize = ((200 - 2 * (bits / 8) : Nat) : Int) := I.P.bs
  have hw : KH.Write grow ⟨(new bits rounds).core, s.slice⟩ ⟨mem, []⟩ p.slice = .ok
      (⟨mem.set s.arr (overwrite (mem.getD s.arr []) (s.off + s.len) (bytesOf mem p)), []⟩,
        ⟨(new bits rounds).core, { s.slice with len := s.len + p.len }⟩, p.len) := by
    have e1 : s.slice.len = s.len := rfl
    have e2 : p.slice.len = p.len := rfl
    have hpc := hp.1
    have e3 : p.slice.cap = p.cap := rfl
    unfold KH.Write
    dsimp only
    rw [if_pos (by omega), hbs, e1, e2, if_pos (by omega)]
    unfold Slice.upto Slice.after
    rw [if_pos (by omega), Go.bind_ok, Int.toNat_natCast, read_take (by omega), read_slice]
    dsimp only
    rw [← hpl, List.take_length, hpl]
    unfold append
    rw [if_pos (by rw [e2]; omega), Go.bind_ok, hpl, e1, if_pos (show s.len + p.len ≤ s.slice.cap from hcap)]
    dsimp only
    rw [if_pos (by omega), Go.pure_ok]
    rfl
  unfold run
  rw [hw, Go.bind_ok]
  dsimp only
  unfold run
  rw [Go.bind_ok]
  rfl

end Verif.Lemmas.KeccakHeap
