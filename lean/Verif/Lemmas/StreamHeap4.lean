import Verif.Lemmas.StreamHeap3

namespace Verif.Lemmas.StreamHeap
open Verif
open Verif.Model.KeccakHeap (Heap Slice Ref nil append overwrite CSlice poke)
open Verif.Model.StreamHeap
open Verif.Spec.StreamHeap
open Verif.Spec.Jenkins (hashlittle2)
open Verif.Model.Jenkins (State332c State364 State232 be8 pack64 Hash232)
open Verif.Lemmas.Jenkins (Jenkins364_full Hash232'_eq)

/-! ## New364 -/

theorem be8_low (pc pb : U32) : be8 ((pb <<< 32).setWidth 64 ||| pc.setWidth 64) = [0#8, 0#8, 0#8, 0#8] ++ beBytes 4 pc.toNat := by
  have e : pb <<< 32 = 0#32 := by apply BitVec.eq_of_toNat_eq; simp [Nat.shiftLeft_eq]
  have e0 : (0#32 : U32).setWidth 64 = 0#64 := by decide
  rw [e, e0, BitVec.zero_or, Props.be8_eq]
  have h := pc.isLt
  have e1 : (pc.setWidth 64).toNat = pc.toNat := by simp; omega
  rw [e1]
  generalize pc.toNat = n at h
  have hz : n / 256 / 256 / 256 / 256 = 0 := by omega
  simp only [beBytes, leBytes, hz, List.reverse_cons, List.reverse_nil, List.nil_append, List.cons_append]

theorem sum364 (d : State364) : ∃ d', d.sum [] = .ok (d', [0#8, 0#8, 0#8, 0#8] ++ beBytes 4 (hashlittle2 d.pc d.pb d.tail).1.toNat) ∧
    (d'.pc, d'.pb) = hashlittle2 d.pc d.pb d.tail ∧ d'.seed = d.seed := by
  refine ⟨{ d with pc := (hashlittle2 d.pc d.pb d.tail).1, pb := (hashlittle2 d.pc d.pb d.tail).2, hash := ((hashlittle2 d.pc d.pb d.tail).2 <<< 32).setWidth 64 ||| (hashlittle2 d.pc d.pb d.tail).1.setWidth 64 }, ?_, rfl, rfl⟩
  simp only [State364.sum, Jenkins364_full, Go.bind_ok, Go.pure_ok, be8_low, List.nil_append]

theorem value364 (d : State364) : ∃ d', d.sum64 = .ok (d', (hashlittle2 d.pc d.pb d.tail).2.setWidth 64 <<< 32 ||| (hashlittle2 d.pc d.pb d.tail).1.setWidth 64) ∧
    (d'.pc, d'.pb) = hashlittle2 d.pc d.pb d.tail ∧ d'.seed = d.seed := by
  refine ⟨{ d with pc := (hashlittle2 d.pc d.pb d.tail).1, pb := (hashlittle2 d.pc d.pb d.tail).2, hash := pack64 (hashlittle2 d.pc d.pb d.tail).1 (hashlittle2 d.pc d.pb d.tail).2 }, ?_, rfl, rfl⟩
  simp only [State364.sum64, Jenkins364_full, Go.bind_ok, Go.pure_ok, pack64]

structure R364 (c : List U8) (t : JenObj State364) (s : Lookup3) : Prop where
  holds : Holds c t.tail s.m
  seed : (t.core.seed.setWidth 32, (t.core.seed >>> 32).setWidth 32) = s.seed
  words : (t.core.pc, t.core.pb) = s.words

def sim364 (grow : Nat → Nat) : Sim (mem364 grow) jenkins364 where
  own := jenOwn
  R := R364
  new_error _ _ _ _ _ h := nomatch h
  new_ok h k i s _ hs := by
    cases hs
    exact ⟨h, _, rfl, nil_frame h, holds_nil _, rfl, rfl⟩
  write h t s p ho r a := by
    obtain ⟨h', t', e, f, hs, hc⟩ := jen_write (fun s n => { s with clen := s.clen + n }) grow (p := p) ho r.holds
    exact ⟨h', t', e, f, hs, by rw [hc]; exact r.seed, by rw [hc]; exact r.words⟩
  reset c t s r := Or.inl ⟨rfl, holds_nil _, r.seed, r.seed⟩
  sum h t s r := by
    obtain ⟨core, tail⟩ := t
    obtain ⟨seed, m, words⟩ := s
    obtain ⟨hh, hs, hw⟩ := r
    dsimp only at hh hs hw
    subst hw
    obtain ⟨d, e, e1, e2⟩ := sum364 { core with tail := h.read tail }
    rw [jen_read (t := ⟨core, tail⟩) hh] at e e1 e2
    refine ⟨⟨d, tail⟩, ?_, rfl, hh, by rw [e2]; exact hs, e1⟩
    show (do
      let (s', r') ← ({ core with tail := h.read tail } : State364).sum []
      return ((⟨s', tail⟩ : JenObj _), r')) = _
    rw [jen_read (t := ⟨core, tail⟩) hh, e]
    rfl
  value h t s r := by
    obtain ⟨core, tail⟩ := t
    obtain ⟨seed, m, words⟩ := s
    obtain ⟨hh, hs, hw⟩ := r
    dsimp only at hh hs hw
    subst hw
    obtain ⟨d, e, e1, e2⟩ := value364 { core with tail := h.read tail }
    rw [jen_read (t := ⟨core, tail⟩) hh] at e e1 e2
    refine ⟨⟨d, tail⟩, ?_, rfl, hh, by rw [e2]; exact hs, e1⟩
    show (do
      let (s', r') ← ({ core with tail := h.read tail } : State364).sum64
      return ((⟨s', tail⟩ : JenObj _), [r'])) = _
    rw [jen_read (t := ⟨core, tail⟩) hh, e]
    rfl

/-! ## New232 -/

structure R232 (c : List U8) (t : JenObj State232) (m : List U8) : Prop where
  holds : Holds c t.tail m
  seed : t.core.seed = 0#32

def sim232 (grow : Nat → Nat) : Sim (mem232 grow) jenkins232 where
  own := jenOwn
  R := R232
  new_error _ _ _ _ _ h := nomatch h
  new_ok h k i s _ hs := by
    cases hs
    exact ⟨h, _, rfl, nil_frame h, holds_nil _, rfl⟩
  write h t s p ho r a := by
    obtain ⟨h', t', e, f, hs, hc⟩ := jen_write (fun s n => { s with clen := s.clen + n }) grow (p := p) ho r.holds
    exact ⟨h', t', e, f, hs, by rw [hc]; exact r.seed⟩
  reset c t s r := Or.inl ⟨rfl, holds_nil _, rfl⟩
  sum h t m r := by
    refine ⟨⟨{ t.core with tail := m, hash := Spec.Jenkins.hash232 (m.take (m.length % 2 ^ 32)) 0#32 }, t.tail⟩, ?_, rfl, r.holds, r.seed⟩
    show (do
      let (s', r') ← ({ t.core with tail := h.read t.tail } : State232).sum []
      return ((⟨s', t.tail⟩ : JenObj _), r')) = _
    rw [jen_read r.holds]
    simp only [State232.sum, Hash232, r.seed, Hash232'_eq, Go.bind_ok, Go.pure_ok, Props.be4_eq, List.nil_append]
    rfl
  value h t m r := by
    refine ⟨⟨{ t.core with tail := m, hash := Spec.Jenkins.hash232 (m.take (m.length % 2 ^ 32)) 0#32 }, t.tail⟩, ?_, rfl, r.holds, r.seed⟩
    show (do
      let (s', r') ← ({ t.core with tail := h.read t.tail } : State232).sum32
      return ((⟨s', t.tail⟩ : JenObj _), [r'.setWidth 64])) = _
    rw [jen_read r.holds]
    simp only [State232.sum32, Hash232, r.seed, Hash232'_eq, Go.bind_ok, Go.pure_ok]
    rfl

/-! ## siphash -/

section
open Verif.Model.SipHash (Digest newDigest load)
open Verif.Lemmas.SipHash
open Verif.Props (newDigest_good reset_fields reset_J reset_J128)

theorem load_short {p : List U8} (h : p.length < 8) : load p = .error .index := by
  match p, h with
  | [], _ => rfl
  | [_], _ => rfl
  | [_, _], _ => rfl
  | [_, _, _], _ => rfl
  | [_, _, _, _], _ => rfl
  | [_, _, _, _, _], _ => rfl
  | [_, _, _, _, _, _], _ => rfl
  | [_, _, _, _, _, _, _], _ => rfl
  | _ :: _ :: _ :: _ :: _ :: _ :: _ :: _ :: _, h => simp at h; omega

theorem newDigest_short {size : Nat} (hs : size = 8 ∨ size = 16) {key : List U8} (hk : ¬ 16 ≤ key.length) : newDigest size key = .error .index := by
  unfold newDigest
  rw [if_neg (by omega : ¬ (size ≠ 8 ∧ size ≠ 16))]
  by_cases h : key.length < 8
  · rw [load_short h]; rfl
  · rw [load_eq (by omega), Go.bind_ok, load_short (by rw [List.length_drop]; omega)]; rfl

theorem sip_new_error {f : U64 → U64 → List U8 → List U8} {g : U64 → U64 → List U8 → List U64} {size : Nat} (hs : size = 8 ∨ size = 16) {key : List U8} {e : Fault}
    (h : (sip f g).new key () = .error e) : newDigest size key = .error e := by
  by_cases hk : 16 ≤ key.length
  · have : (sip f g).new key () = .ok ((le64 key, le64 (key.drop 8)), []) := if_pos hk
    rw [this] at h; exact nomatch h
  · have : (sip f g).new key () = .error .index := if_neg hk
    rw [this] at h
    rw [newDigest_short hs hk, Except.error.inj h]

theorem sip_new_ok {f : U64 → U64 → List U8 → List U8} {g : U64 → U64 → List U8 → List U64} {key : List U8} {s : (U64 × U64) × List U8}
    (h : (sip f g).new key () = .ok s) : 16 ≤ key.length ∧ s = ((le64 key, le64 (key.drop 8)), []) := by
  by_cases hk : 16 ≤ key.length
  · have : (sip f g).new key () = .ok ((le64 key, le64 (key.drop 8)), []) := if_pos hk
    rw [this] at h; exact ⟨hk, (Except.ok.inj h).symm⟩
  · have : (sip f g).new key () = .error .index := if_neg hk
    rw [this] at h; exact nomatch h

structure RSip (size : Nat) (init : U64 → U64 → Verif.Model.SipHash.V) (d : Digest) (s : (U64 × U64) × List U8) : Prop where
  j : J (init s.1.1 s.1.2) d s.2
  t : d.t = BitVec.ofNat 8 s.2.length
  size : d.size = size
  k0 : d.k0 = s.1.1
  k1 : d.k1 = s.1.2

theorem RSip.write {size : Nat} {init : U64 → U64 → Verif.Model.SipHash.V} {d : Digest} {s : (U64 × U64) × List U8} (r : RSip size init d s) (p : List U8) :
    ∃ d', d.write p = .ok (d', p.length) ∧ RSip size init d' (s.1, s.2 ++ p) := by
  obtain ⟨d1, e, j, a, b, c, t⟩ := write_ok p r.j
  exact ⟨d1, e, j, by rw [t, r.t, List.length_append, BitVec.ofNat_add], c.trans r.size, a.trans r.k0, b.trans r.k1⟩

def simSip : Sim memSip siphash64 where
  own _ := none
  R _ d s := RSip 8 init64 d s
  new_error h k i e _ he := by
    show (do return (h, ← newDigest 8 (h.read k))) = _
    rw [sip_new_error (Or.inl rfl) he]; rfl
  new_ok h k i s _ hs := by
    obtain ⟨hk, rfl⟩ := sip_new_ok hs
    obtain ⟨d, e, z, ht, h0, h1, j⟩ := newDigest_good 8 (Or.inl rfl) (h.read k) hk
    refine ⟨h, d, ?_, nil_frame h, by simpa using j, ht, z, h0, h1⟩
    show (do return (h, ← newDigest 8 (h.read k))) = _
    rw [e]; rfl
  write h t s p _ r a := by
    obtain ⟨d, e, r'⟩ := r.write (h.read p)
    refine ⟨h, d, ?_, nil_frame h, r'⟩
    show (do
      let (d, n) ← t.write (h.read p)
      return (h, d, n)) = _
    rw [e, a.length]; rfl
  reset c t s r := by
    obtain ⟨a, b, c, x⟩ := reset_fields t
    have := reset_J t r.j.xlen r.size
    rw [r.k0, r.k1] at this
    exact Or.inl ⟨rfl, this, x, c.trans r.size, a.trans r.k0, b.trans r.k1⟩
  sum h t s r := by
    refine ⟨t, ?_, rfl, r⟩
    show t.sum [] = _
    simp only [Digest.sum, if_pos r.size, sum64_ok r.j r.t, bytesOf_eq]; rfl
  value h t s r := by
    refine ⟨t, ?_, rfl, r⟩
    show (do
      let (d, r) ← t.sum64
      return (d, [r])) = _
    rw [sum64_ok r.j r.t]; rfl

def simSip128 : Sim memSip128 siphash128 where
  own _ := none
  R _ d s := RSip 16 init128 d s
  new_error h k i e _ he := by
    show (do return (h, ← newDigest 16 (h.read k))) = _
    rw [sip_new_error (Or.inr rfl) he]; rfl
  new_ok h k i s _ hs := by
    obtain ⟨hk, rfl⟩ := sip_new_ok hs
    obtain ⟨d, e, z, ht, h0, h1, j⟩ := newDigest_good 16 (Or.inr rfl) (h.read k) hk
    refine ⟨h, d, ?_, nil_frame h, by simpa using j, ht, z, h0, h1⟩
    show (do return (h, ← newDigest 16 (h.read k))) = _
    rw [e]; rfl
  write h t s p _ r a := by
    obtain ⟨d, e, r'⟩ := r.write (h.read p)
    refine ⟨h, d, ?_, nil_frame h, r'⟩
    show (do
      let (d, n) ← t.write (h.read p)
      return (h, d, n)) = _
    rw [e, a.length]; rfl
  reset c t s r := by
    obtain ⟨a, b, c, x⟩ := reset_fields t
    have := reset_J128 t r.j.xlen r.size
    rw [r.k0, r.k1] at this
    exact Or.inl ⟨rfl, this, x, c.trans r.size, a.trans r.k0, b.trans r.k1⟩
  sum h t s r := by
    have hne : ¬ t.size = 8 := by rw [r.size]; decide
    refine ⟨t, ?_, rfl, r⟩
    show t.sum [] = _
    simp only [Digest.sum, if_neg hne, sum128_ok r.j r.t, bytesOf_eq]; rfl
  value h t s r := by
    refine ⟨t, ?_, rfl, r⟩
    show (do
      let (d, r) ← t.sum128
      return (d, [r.1, r.2])) = _
    rw [sum128_ok r.j r.t]; rfl

end

end Verif.Lemmas.StreamHeap
