import Verif.Lemmas.StreamHeap2
import Verif.Props.SipHash
import Verif.Props.Jenkins

namespace Verif.Lemmas.StreamHeap
open Verif
open Verif.Model.KeccakHeap (Heap Slice Ref nil append overwrite CSlice poke)
open Verif.Model.StreamHeap
open Verif.Spec.StreamHeap
open Verif.Lemmas.KeccakHeap (overwrite_length overwrite_nil read_overwrite set_getD_self read_take read_drop read_nil arr_new)
open Verif.Model.Murmur3 (Mixer mixer32 mixer128)
open Verif.Lemmas.Murmur3 (Folds J step32 step128 folds32 folds128 sum32_ok sum128_ok be32_eq be64_eq)

/-! ## murmur3 -/

theorem mur_new (x : Mixer κ) (step : κ → List U8 → κ) (h : Heap) :
    ∃ h' t, murNew x h = (h', t) ∧ Frame h h' none (murOwn t) ∧ MurR x step (cont murOwn h' t) t [] := by
  refine ⟨_, _, rfl, ⟨rfl, by simp, fun i hi _ => ?_, fun i hi => ?_⟩, ?_, Or.inl rfl⟩
  · dsimp only
    rw [List.getD_eq_getElem?_getD, List.getElem?_append_left hi, ← List.getD_eq_getElem?_getD]
  · cases hi
    simp
  · have : cont murOwn { h with own := h.own ++ [List.replicate 16 0#8] } (⟨x.init, 0#64, h.own.length, nil⟩ : MurObj κ) = List.replicate 16 0#8 := by
      unfold cont murOwn
      simp
    rw [this]
    exact Murmur3.new_J x step

theorem mur_reset {x : Mixer κ} {step : κ → List U8 → κ} {c : List U8} {d : MurObj κ} {m : List U8} (r : MurR x step c d m) :
    MurR x step c (murReset x d) [] :=
  ⟨Murmur3.reset_J (d := ⟨d.h, d.clen, d.tail.len, c⟩) r.j.blen, Or.inl rfl⟩

/-- The value-level object with the right array. -/
theorem view_eq {x : Mixer κ} {step : κ → List U8 → κ} {h : Heap} {d : MurObj κ} {m : List U8} (r : MurR x step (cont murOwn h d) d m) :
    (d.view h).tail = (⟨d.h, d.clen, d.tail.len, cont murOwn h d⟩ : Model.Murmur3.Digest κ).tail := by
  rw [view_tail r, r.j.tail]

def sim32 (grow : Nat → Nat) : Sim (mem32 grow) murmur32 where
  own := murOwn
  R := MurR mixer32 step32
  new_error _ _ _ _ _ h := nomatch h
  new_ok h k i s _ hs := by
    obtain ⟨h', t, e, f, r⟩ := mur_new mixer32 step32 h
    cases hs
    exact ⟨h', t, congrArg Except.ok e, f, r⟩
  write h t s p ho r a := mur_write folds32 grow (ho _ rfl) r a
  reset c t s r := Or.inr ⟨rfl, mur_reset r⟩
  sum h t s r := by
    refine ⟨t, ?_, rfl, r⟩
    show Except.ok (t, [] ++ Model.Murmur3.be32 t.h) = _
    rw [be32_eq, List.nil_append, show t.h = _ from r.j.h]
    rfl
  value h t s r := by
    refine ⟨t, ?_, rfl, r⟩
    have e := sum32_ok r.j
    have e2 : (t.view h).sum32 = .ok (Spec.Murmur3.x86_32 0#32 s) := by
      rw [← e]; unfold Model.Murmur3.Digest.sum32; rw [view_eq r]; rfl
    show (do return (t, [(← (t.view h).sum32).setWidth 64])) = _
    rw [e2]; rfl

theorem view128 {h : Heap} {t : MurObj (U64 × U64)} {s : List U8} (r : MurR mixer128 step128 (cont murOwn h t) t s) :
    (t.view h).sum128 = .ok (Spec.Murmur3.x64_128 0#64 s) := by
  rw [← sum128_ok r.j]; unfold Model.Murmur3.Digest.sum128; rw [view_eq r]; rfl

def sim64 (grow : Nat → Nat) : Sim (mem64 grow) murmur64 where
  own := murOwn
  R := MurR mixer128 step128
  new_error _ _ _ _ _ h := nomatch h
  new_ok h k i s _ hs := by
    obtain ⟨h', t, e, f, r⟩ := mur_new mixer128 step128 h
    cases hs
    exact ⟨h', t, congrArg Except.ok e, f, r⟩
  write h t s p ho r a := mur_write folds128 grow (ho _ rfl) r a
  reset c t s r := Or.inr ⟨rfl, mur_reset r⟩
  sum h t s r := by
    refine ⟨t, ?_, rfl, r⟩
    show Except.ok (t, [] ++ Model.Murmur3.be64 t.h.1) = _
    rw [be64_eq, List.nil_append, show t.h = _ from r.j.h]
    rfl
  value h t s r := by
    refine ⟨t, ?_, rfl, r⟩
    show (do return (t, [← (do return (← (t.view h).sum128).1)])) = _
    rw [view128 r]; rfl

def sim128 (grow : Nat → Nat) : Sim (mem128 grow) murmur128 where
  own := murOwn
  R := MurR mixer128 step128
  new_error _ _ _ _ _ h := nomatch h
  new_ok h k i s _ hs := by
    obtain ⟨h', t, e, f, r⟩ := mur_new mixer128 step128 h
    cases hs
    exact ⟨h', t, congrArg Except.ok e, f, r⟩
  write h t s p ho r a := mur_write folds128 grow (ho _ rfl) r a
  reset c t s r := Or.inr ⟨rfl, mur_reset r⟩
  sum h t s r := by
    refine ⟨t, ?_, rfl, r⟩
    show Except.ok (t, [] ++ Model.Murmur3.be64 t.h.1 ++ Model.Murmur3.be64 t.h.2) = _
    rw [be64_eq, be64_eq, List.nil_append, show t.h = _ from r.j.h]
    rfl
  value h t s r := by
    refine ⟨t, ?_, rfl, r⟩
    show (do
      let (a, b) ← (t.view h).sum128
      return (t, [a, b])) = _
    rw [view128 r]; rfl

/-! ## jenkins -/

def refOwn : Ref → Option Nat
  | .own i => some i
  | .caller _ => none

def jenOwn (d : JenObj κ) : Option Nat := refOwn d.tail.ref

/-- The slice holds the bytes `m`, in an array with contents `c`. -/
structure Holds (c : List U8) (s : Slice) (m : List U8) : Prop where
  le : s.len ≤ s.cap
  len : s.len = m.length
  at_ : s = nil ∨ ((∃ i, s.ref = .own i) ∧ s.off = 0 ∧ s.cap ≤ c.length ∧ c.take s.len = m)

theorem holds_nil (c : List U8) : Holds c nil [] := ⟨Nat.le_refl _, rfl, Or.inl rfl⟩

theorem holds_read {h : Heap} {s : Slice} {m : List U8} (hs : Holds (cont refOwn h s.ref) s m) : h.read s = m := by
  rcases hs.at_ with e | ⟨⟨i, e⟩, e0, _, e1⟩
  · subst e
    rw [read_nil]
    exact (List.eq_nil_of_length_eq_zero hs.len.symm).symm
  · unfold Heap.read
    rw [e0, List.drop_zero, ← e1, e]
    rfl

theorem append_holds (grow : Nat → Nat) {h : Heap} {s : Slice} {m : List U8} (bs : List U8) (hi : ∀ i, s.ref = .own i → i < h.own.length)
    (hs : Holds (cont refOwn h s.ref) s m) :
    ∃ h' s', append grow h s bs = (h', s') ∧ Frame h h' (refOwn s.ref) (refOwn s'.ref) ∧ Holds (cont refOwn h' s'.ref) s' (m ++ bs) := by
  have hl := hs.le
  have hn := hs.len
  unfold append
  by_cases hc : s.len + bs.length ≤ s.cap
  · rw [if_pos hc]
    rcases hs.at_ with e | ⟨⟨i, e⟩, e0, e1, e2⟩
    · subst e
      have hb : bs = [] := List.eq_nil_of_length_eq_zero (by simpa [nil] using hc)
      subst hb
      have hm : m = [] := List.eq_nil_of_length_eq_zero hn.symm
      subst hm
      refine ⟨_, _, rfl, ?_, ?_⟩
      · refine ⟨?_, Nat.le_refl _, fun _ _ _ => rfl, fun i hi => nomatch hi⟩
        show h.caller.set 0 (overwrite (h.caller.getD 0 []) _ []) = _
        rw [overwrite_nil, set_getD_self]
      · exact holds_nil _
    · obtain ⟨ref, off, len, cap⟩ := s
      dsimp only at e e0 hl hn hc hi e1 e2
      subst e e0
      have hi' := hi i rfl
      refine ⟨_, _, rfl, ?_, ?_⟩
      · exact put_frame hi'
      · dsimp only
        rw [Nat.zero_add]
        have hcont : cont refOwn (h.put (.own i) len bs) (.own i) = overwrite (h.own.getD i []) len bs := put_own hi'
        have hcont0 : cont refOwn h (.own i) = h.own.getD i [] := rfl
        rw [hcont0] at e1 e2
        refine ⟨hc, by dsimp only; rw [List.length_append, hn], Or.inr ⟨⟨i, rfl⟩, rfl, ?_, ?_⟩⟩
        · dsimp only
          rw [hcont, overwrite_length (by omega)]
          exact e1
        · dsimp only
          have h2 := read_overwrite (a := h.own.getD i []) (bs := bs) (off := 0) (len := len) (by omega)
          rw [Nat.zero_add, List.drop_zero, List.drop_zero] at h2
          rw [hcont, h2, e2]
  · rw [if_neg hc]
    have hr := holds_read hs
    refine ⟨_, _, rfl, ⟨rfl, by simp, fun i hi _ => ?_, fun i hi => ?_⟩, ?_⟩
    · dsimp only
      rw [List.getD_eq_getElem?_getD, List.getElem?_append_left hi, ← List.getD_eq_getElem?_getD]
    · cases hi
      simp
    · dsimp only
      rw [hr]
      have hcont : cont refOwn { h with own := h.own ++ [(m ++ bs) ++ List.replicate (grow (m ++ bs).length) 0#8] } (.own h.own.length) =
          (m ++ bs) ++ List.replicate (grow (m ++ bs).length) 0#8 := by
        unfold cont refOwn
        simp
      refine ⟨by dsimp only; omega, rfl, Or.inr ⟨⟨_, rfl⟩, rfl, ?_, ?_⟩⟩
      · dsimp only
        rw [hcont, List.length_append (as := m ++ bs), List.length_replicate]
      · dsimp only
        rw [hcont, List.take_left]

theorem jen_write (count : κ → Nat → κ) (grow : Nat → Nat) {h : Heap} {t : JenObj κ} {m : List U8} {p : Slice}
    (ho : ∀ i, jenOwn t = some i → i < h.own.length) (hs : Holds (cont jenOwn h t) t.tail m) :
    ∃ h' t', jenWrite count grow h t p = .ok (h', t', p.len) ∧ Frame h h' (jenOwn t) (jenOwn t') ∧ Holds (cont jenOwn h' t') t'.tail (m ++ h.read p) ∧
      t'.core = count t.core p.len := by
  obtain ⟨h', s', e, f, hs'⟩ := append_holds grow (h.read p) (fun i hi => ho i (by unfold jenOwn; rw [hi]; rfl)) hs
  refine ⟨h', ⟨count t.core p.len, s'⟩, ?_, f, hs', rfl⟩
  unfold jenWrite
  rw [e]

theorem jen_read {h : Heap} {t : JenObj κ} {m : List U8} (hs : Holds (cont jenOwn h t) t.tail m) : h.read t.tail = m := holds_read hs

/-- Nothing in the array matters but the bytes held. -/
structure R332 (c : List U8) (t : JenObj Model.Jenkins.State332c) (s : Lookup3) : Prop where
  holds : Holds c t.tail s.m
  seed : (t.core.seed, t.core.seed) = s.seed
  words : (t.core.pc, t.core.pb) = s.words

open Verif.Lemmas.Jenkins (Jenkins364_full)

theorem nil_frame (h : Heap) : Frame h h none none := ⟨rfl, Nat.le_refl _, fun _ _ _ => rfl, fun _ h => nomatch h⟩

open Verif.Spec.Jenkins (hashlittle2)
open Verif.Model.Jenkins (State332c State364 State232)

theorem sum332 (d : State332c) : ∃ d', d.sum [] = .ok (d', beBytes 4 (hashlittle2 d.pc d.pb d.tail).1.toNat) ∧
    (d'.pc, d'.pb) = hashlittle2 d.pc d.pb d.tail ∧ d'.seed = d.seed := by
  refine ⟨{ d with pc := (hashlittle2 d.pc d.pb d.tail).1, pb := (hashlittle2 d.pc d.pb d.tail).2, hash := (hashlittle2 d.pc d.pb d.tail).1 }, ?_, rfl, rfl⟩
  simp only [State332c.sum, Jenkins364_full, Go.bind_ok, Go.pure_ok, Props.be4_eq, List.nil_append]

theorem value332 (d : State332c) : ∃ d', d.sum32 = .ok (d', (hashlittle2 d.pc d.pb d.tail).1) ∧
    (d'.pc, d'.pb) = hashlittle2 d.pc d.pb d.tail ∧ d'.seed = d.seed := by
  refine ⟨{ d with pc := (hashlittle2 d.pc d.pb d.tail).1, pb := (hashlittle2 d.pc d.pb d.tail).2, hash := (hashlittle2 d.pc d.pb d.tail).1 }, ?_, rfl, rfl⟩
  simp only [State332c.sum32, Jenkins364_full, Go.bind_ok, Go.pure_ok]

def sim332c (grow : Nat → Nat) : Sim (mem332c grow) jenkins332c where
  own := jenOwn
  R := R332
  new_error _ _ _ _ _ h := nomatch h
  new_ok h k i s _ hs := by
    cases hs
    exact ⟨h, _, rfl, nil_frame h, holds_nil _, rfl, rfl⟩
  write h t s p ho r a := by
    obtain ⟨h', t', e, f, hs, hc⟩ := jen_write (fun s n => { s with clen := s.clen + n }) grow (p := p) ho r.holds
    exact ⟨h', t', e, f, hs, by rw [hc]; exact r.seed, by rw [hc]; exact r.words⟩
  reset c t s r := Or.inl ⟨rfl, holds_nil _, r.seed, r.seed⟩
  sum h t s r := by
    obtain ⟨core, tail⟩ := t
    obtain ⟨seed, m, words⟩ := s
    obtain ⟨hh, hs, hw⟩ := r
    dsimp only at hh hs hw
    subst hw
    obtain ⟨d, e, e1, e2⟩ := sum332 { core with tail := h.read tail }
    rw [jen_read (t := ⟨core, tail⟩) hh] at e e1 e2
    refine ⟨⟨d, tail⟩, ?_, rfl, hh, by rw [e2]; exact hs, e1⟩
    show (do
      let (s', r') ← ({ core with tail := h.read tail } : Model.Jenkins.State332c).sum []
      return ((⟨s', tail⟩ : JenObj _), r')) = _
    rw [jen_read (t := ⟨core, tail⟩) hh, e]
    rfl
  value h t s r := by
    obtain ⟨core, tail⟩ := t
    obtain ⟨seed, m, words⟩ := s
    obtain ⟨hh, hs, hw⟩ := r
    dsimp only at hh hs hw
    subst hw
    obtain ⟨d, e, e1, e2⟩ := value332 { core with tail := h.read tail }
    rw [jen_read (t := ⟨core, tail⟩) hh] at e e1 e2
    refine ⟨⟨d, tail⟩, ?_, rfl, hh, by rw [e2]; exact hs, e1⟩
    show (do
      let (s', r') ← ({ core with tail := h.read tail } : Model.Jenkins.State332c).sum32
      return ((⟨s', tail⟩ : JenObj _), [r'.setWidth 64])) = _
    rw [jen_read (t := ⟨core, tail⟩) hh, e]
    rfl

end Verif.Lemmas.StreamHeap
