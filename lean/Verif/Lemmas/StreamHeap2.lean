import Verif.Lemmas.StreamHeap

namespace Verif.Lemmas.StreamHeap
open Verif
open Verif.Model.KeccakHeap (Heap Slice Ref nil append overwrite CSlice poke)
open Verif.Model.StreamHeap
open Verif.Spec.StreamHeap
open Verif.Lemmas.KeccakHeap (overwrite_length overwrite_nil read_overwrite set_getD_self read_take read_drop read_nil)
open Verif.Model.Murmur3 (Mixer mixer32 mixer128)
open Verif.Lemmas.Murmur3 (Folds J step32 step128 folds32 folds128 sum32_ok sum128_ok be32_eq be64_eq)

/-! ## murmur3 -/

/-- The object after the bytes `m`, its array holding `c`. -/
structure MurR (x : Mixer κ) (step : κ → List U8 → κ) (c : List U8) (d : MurObj κ) (m : List U8) : Prop where
  j : J x step ⟨d.h, d.clen, d.tail.len, c⟩ m
  who : d.tail.len = 0 ∨ d.tail = ⟨.own d.buf, 0, d.tail.len, 16⟩

variable {κ : Type} {x : Mixer κ} {step : κ → List U8 → κ}

def murOwn (d : MurObj κ) : Option Nat := some d.buf

theorem mur_read {h : Heap} {d : MurObj κ} {m : List U8} (r : MurR x step (cont murOwn h d) d m) : h.read d.tail = tailOf x.size m := by
  have ht := r.j.tail
  have hn := r.j.nn
  dsimp only [Model.Murmur3.Digest.tail] at ht hn
  rcases r.who with w | w
  · unfold Heap.read
    rw [w, List.take_zero]
    rw [w] at hn
    exact (List.eq_nil_of_length_eq_zero hn.symm).symm
  · rw [← ht]
    unfold Heap.read
    rw [w]
    rfl

theorem view_tail {h : Heap} {d : MurObj κ} {m : List U8} (r : MurR x step (cont murOwn h d) d m) : (d.view h).tail = tailOf x.size m := by
  have h1 := mur_read r
  have hn := r.j.nn
  dsimp only at hn
  show (h.read d.tail).take d.tail.len = _
  rw [h1, hn, List.take_length]

theorem stick_ok (f : Folds x step) (grow : Nat → Nat) {h : Heap} {d : MurObj κ} {m : List U8} {p : Slice} (hb : d.buf < h.own.length) (c : U64)
    (r : MurR x step (cont murOwn h d) d m) (a : Arg h p) :
    ∃ h1 d1 p1, murStick x grow h { d with clen := c } p = .ok (h1, d1, p1) ∧ Frame h h1 (some d.buf) (some d.buf) ∧ d1.buf = d.buf ∧ d1.clen = c ∧
      (h1.own.getD d.buf []).length = 16 ∧ p1.len ≤ p1.cap ∧ (h1.read p1).length = p1.len ∧
      (blocks x.size (h1.read p1)).foldl step d1.h = (blocks x.size (m ++ h.read p)).foldl step x.init ∧
      tailOf x.size (h1.read p1) = tailOf x.size (m ++ h.read p) := by
  have hpos := f.pos
  have hle := f.le
  have ht := tailOf_length_lt f.pos m
  have hh : d.h = (blocks x.size m).foldl step x.init := r.j.h
  have hn : d.tail.len = (tailOf x.size m).length := r.j.nn
  have hbl : (h.own.getD d.buf []).length = 16 := r.j.blen
  have hrd := mur_read r
  have hal := a.length
  have hac := a.le
  unfold murStick
  by_cases h0 : d.tail.len > 0
  · rw [if_pos h0]
    have hw : d.tail = ⟨.own d.buf, 0, d.tail.len, 16⟩ := by
      rcases r.who with w | w
      · omega
      · exact w
    have happ : ∀ bs : List U8, d.tail.len + bs.length ≤ 16 →
        append grow h d.tail bs = (h.put (.own d.buf) d.tail.len bs, ⟨.own d.buf, 0, d.tail.len + bs.length, 16⟩) := by
      intro bs hbs
      rw [hw]
      unfold append
      dsimp only
      rw [if_pos hbs, Nat.zero_add]
    have hread : ∀ bs : List U8, d.tail.len + bs.length ≤ 16 →
        (h.put (.own d.buf) d.tail.len bs).read ⟨.own d.buf, 0, d.tail.len + bs.length, 16⟩ = tailOf x.size m ++ bs := by
      intro bs hbs
      have h2 := read_overwrite (a := h.own.getD d.buf []) (bs := bs) (off := 0) (len := d.tail.len) (by omega)
      rw [Nat.zero_add] at h2
      have h3 : (h.put (.own d.buf) d.tail.len bs).read ⟨.own d.buf, 0, d.tail.len + bs.length, 16⟩ =
          (((h.put (.own d.buf) d.tail.len bs).own.getD d.buf []).drop 0).take (d.tail.len + bs.length) := rfl
      rw [h3, put_own hb, h2, ← hrd]
      rw [show h.read d.tail = ((h.own.getD d.buf []).drop 0).take d.tail.len by unfold Heap.read; rw [hw]; rfl]
    have hlen : ∀ bs : List U8, d.tail.len + bs.length ≤ 16 → ((h.put (.own d.buf) d.tail.len bs).own.getD d.buf []).length = 16 := by
      intro bs hbs
      rw [put_own hb, overwrite_length (by omega), hbl]
    by_cases h1 : x.size - d.tail.len < p.len
    · simp only [if_pos h1]
      have hup : p.upto ((x.size - d.tail.len : Nat) : Int) = .ok { p with len := x.size - d.tail.len } := by
        unfold Slice.upto
        rw [if_pos ⟨by omega, by omega⟩, Int.toNat_natCast]
      have haf : p.after ((x.size - d.tail.len : Nat) : Int) = .ok ⟨p.ref, p.off + (x.size - d.tail.len), p.len - (x.size - d.tail.len), p.cap - (x.size - d.tail.len)⟩ := by
        unfold Slice.after
        rw [if_pos ⟨by omega, by omega⟩, Int.toNat_natCast]
      rw [hup, Go.bind_ok, read_take (s := p) (by omega)]
      have hpl : ((h.read p).take (x.size - d.tail.len)).length = x.size - d.tail.len := by rw [List.length_take]; omega
      generalize hq : (h.read p).take (x.size - d.tail.len) = pre at hpl ⊢
      have hfit : d.tail.len + pre.length ≤ 16 := by omega
      rw [happ pre hfit]
      dsimp only
      rw [haf, Go.bind_ok, hread pre hfit, f.bmix, Go.bind_ok]
      generalize hblk : tailOf x.size m ++ pre = blk
      have hbkl : blk.length = x.size := by rw [← hblk, List.length_append]; omega
      have hfr := put_frame (h := h) (i := d.buf) (pos := d.tail.len) (bs := pre) hb
      have hrest : (h.put (.own d.buf) d.tail.len pre).read ⟨p.ref, p.off + (x.size - d.tail.len), p.len - (x.size - d.tail.len), p.cap - (x.size - d.tail.len)⟩ =
          (h.read p).drop (x.size - d.tail.len) := by
        rw [read_caller hfr.caller (s := ⟨p.ref, p.off + (x.size - d.tail.len), p.len - (x.size - d.tail.len), p.cap - (x.size - d.tail.len)⟩) a.who, read_drop]
      have hmp : m ++ h.read p = (m ++ pre) ++ (h.read p).drop (x.size - d.tail.len) := by
        rw [← hq, List.append_assoc, List.take_append_drop]
      have hbm : (blocks x.size (m ++ pre)).foldl step x.init = (blocks x.size blk).foldl step d.h := by
        rw [blocks_append hpos, List.foldl_append, ← hh, hblk]
      have htm : tailOf x.size (m ++ pre) = [] := by
        rw [tailOf_append hpos, hblk, tailOf_of_le hpos (by omega), List.drop_of_length_le (by omega), tailOf_nil]
      refine ⟨_, _, _, rfl, hfr, rfl, rfl, hlen pre hfit, ?_, ?_, ?_, ?_⟩
      · dsimp only; omega
      · rw [hrest, List.length_drop, hal]
      · rw [hrest, hmp, blocks_append hpos (m ++ pre), List.foldl_append, hbm, htm, List.nil_append]
      · rw [hrest, hmp, tailOf_append hpos (m ++ pre), htm, List.nil_append]
    · simp only [if_neg h1]
      have hfit : d.tail.len + (h.read p).length ≤ 16 := by omega
      rw [happ _ hfit]
      dsimp only
      refine ⟨_, _, _, rfl, put_frame hb, rfl, rfl, hlen _ hfit, hfit, ?_, ?_, ?_⟩
      · rw [hread _ hfit, List.length_append, hn]
      · rw [hread _ hfit, blocks_append hpos m, List.foldl_append, hh]
      · rw [hread _ hfit, tailOf_append hpos m]
  · rw [if_neg h0]
    have hnil : tailOf x.size m = [] := List.length_eq_zero_iff.1 (by omega)
    refine ⟨_, _, _, rfl, Frame.refl (fun i hi => by cases hi; exact hb), rfl, rfl, hbl, hac, hal, ?_, ?_⟩
    · rw [blocks_append hpos m, List.foldl_append, hnil, List.nil_append, hh]
    · rw [tailOf_append hpos m, hnil, List.nil_append]

theorem mur_write (f : Folds x step) (grow : Nat → Nat) {h : Heap} {d : MurObj κ} {m : List U8} {p : Slice} (hb : d.buf < h.own.length)
    (r : MurR x step (cont murOwn h d) d m) (a : Arg h p) :
    ∃ h' d', murWrite x grow h d p = .ok (h', d', p.len) ∧ Frame h h' (murOwn d) (murOwn d') ∧ MurR x step (cont murOwn h' d') d' (m ++ h.read p) := by
  have hpos := f.pos
  have hle := f.le
  have hcl : d.clen + BitVec.ofNat 64 p.len = BitVec.ofNat 64 (m ++ h.read p).length := by
    have hc : d.clen = BitVec.ofNat 64 m.length := r.j.clen
    rw [List.length_append, BitVec.ofNat_add, ← hc, a.length]
  obtain ⟨h1, d1, p1, e, fr, eb, ec, hl, hc, hrl, hf, htl⟩ := stick_ok f grow hb (d.clen + BitVec.ofNat 64 p.len) r a
  unfold murWrite
  dsimp only
  rw [e, Go.bind_ok]
  dsimp only
  rw [f.bmix, Go.bind_ok]
  dsimp only
  have hdm : p1.len / x.size * x.size ≤ p1.len := Nat.div_mul_le_self _ _
  have haf : p1.after ((p1.len / x.size * x.size : Nat) : Int) =
      .ok ⟨p1.ref, p1.off + p1.len / x.size * x.size, p1.len - p1.len / x.size * x.size, p1.cap - p1.len / x.size * x.size⟩ := by
    unfold Slice.after
    rw [if_pos ⟨by omega, by omega⟩, Int.toNat_natCast]
  rw [haf, Go.bind_ok]
  dsimp only
  rw [read_drop, ← hrl]
  have ht : (h1.read p1).drop ((h1.read p1).length / x.size * x.size) = tailOf x.size (m ++ h.read p) := htl
  have htlen : (h1.read p1).length - (h1.read p1).length / x.size * x.size = (tailOf x.size (m ++ h.read p)).length := by
    rw [← ht, List.length_drop]
  rw [ht, htlen, hf]
  have hlt := tailOf_length_lt f.pos (m ++ h.read p)
  generalize htq : tailOf x.size (m ++ h.read p) = tl at *
  rw [Nat.min_eq_right (by omega), List.take_length]
  have hb1 : d1.buf < h1.own.length := by rw [eb]; exact Nat.lt_of_lt_of_le hb fr.len
  refine ⟨_, _, rfl, ?_, ?_⟩
  · show Frame h _ (some d.buf) (some d1.buf)
    rw [eb]
    exact fr.trans (put_frame (by rw [← eb]; exact hb1)) fun _ _ hh => hh
  · have hcont : cont murOwn (h1.put (.own d1.buf) 0 tl) (⟨(blocks x.size (m ++ h.read p)).foldl step x.init, d1.clen, d1.buf, ⟨.own d1.buf, 0, tl.length, 16⟩⟩ : MurObj κ) =
        overwrite (h1.own.getD d1.buf []) 0 tl := put_own hb1
    rw [hcont]
    rw [← eb] at hl
    refine ⟨⟨rfl, ?_, ?_, ?_, ?_⟩, Or.inr rfl⟩
    · dsimp only; rw [ec, hcl]
    · dsimp only; rw [htq]
    · dsimp only; rw [overwrite_length (by omega), hl]
    · rw [htq]
      show (overwrite (h1.own.getD d1.buf []) 0 tl).take tl.length = tl
      unfold overwrite
      rw [List.take_zero, List.nil_append, List.take_left]

end Verif.Lemmas.StreamHeap
