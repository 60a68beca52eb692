import Verif.Props.Balanced
import Verif.Props.Spooky

/-!
# C123: SpookyHash is balanced over each window of 32 bytes that starts at 16 modulo 32, on keys shorter than 192 bytes
-/

namespace Verif.Props
open Verif Verif.Spec.Spooky
open Verif.Model.Spooky (SpookyHash128 SpookyHashShort Hash128 Hash64 Hash32)
open Verif.Lemmas.Murmur3 (foldl_inj)
open Verif.Spec.Hashf (resultAfter Ok)
open Verif.Model.Hashf (Ext)
open Verif.Spec.HtMain (valueOf)

namespace SpookyBalanced

/-- The first 16 bytes of a block go into words 2 and 3 (before the mixer), the other 16 into words 0 and 1 (after it). -/
def addCD (s : St 4) (b : List U8) : St 4 := upd (upd s 2 (s 2 + Spec.Spooky.word b 0)) 3 (s 3 + Spec.Spooky.word b 1)
def addAB (s : St 4) (b : List U8) : St 4 := upd (upd s 0 (s 0 + Spec.Spooky.word b 0)) 1 (s 1 + Spec.Spooky.word b 1)

theorem shortMix_inj : Function.Injective shortMix := by
  have h : (Model.Spooky.ShortMix : Arx.Regs 4 → Arx.Regs 4) = shortMix := funext fun t => (C40_mixers_are_published (fun _ => 0) (fun _ => 0) t).2.2.2.1
  rw [← h]
  exact (C40_mixers_bijective fun _ => 0).1.1

theorem shortEnd_inj : Function.Injective shortEnd := by
  have h : (Model.Spooky.ShortEnd : Arx.Regs 4 → Arx.Regs 4) = shortEnd := funext fun t => (C40_mixers_are_published (fun _ => 0) (fun _ => 0) t).2.2.2.2
  rw [← h]
  exact (C40_mixers_bijective fun _ => 0).2.1.1

theorem fin4 {P : Fin 4 → Prop} (h0 : P 0) (h1 : P 1) (h2 : P 2) (h3 : P 3) (i : Fin 4) : P i :=
  match i with
  | 0 => h0 | 1 => h1 | 2 => h2 | 3 => h3

theorem cd_apply (s : St 4) (a b : U64) : (upd (upd s 2 a) 3 b) 0 = s 0 ∧ (upd (upd s 2 a) 3 b) 1 = s 1 ∧ (upd (upd s 2 a) 3 b) 2 = a ∧ (upd (upd s 2 a) 3 b) 3 = b := by
  simp [upd, Function.update]

theorem ab_apply (s : St 4) (a b : U64) : (upd (upd s 0 a) 1 b) 0 = a ∧ (upd (upd s 0 a) 1 b) 1 = b ∧ (upd (upd s 0 a) 1 b) 2 = s 2 ∧ (upd (upd s 0 a) 1 b) 3 = s 3 := by
  simp [upd, Function.update]

theorem cd_inj {s t : St 4} {a b : U64} (h : upd (upd s 2 (s 2 + a)) 3 (s 3 + b) = upd (upd t 2 (t 2 + a)) 3 (t 3 + b)) : s = t := by
  obtain ⟨s0, s1, s2, s3⟩ := cd_apply s (s 2 + a) (s 3 + b)
  obtain ⟨t0, t1, t2, t3⟩ := cd_apply t (t 2 + a) (t 3 + b)
  funext i
  refine fin4 (P := fun i => s i = t i) ?_ ?_ ?_ ?_ i
  · rw [← s0, h, t0]
  · rw [← s1, h, t1]
  · exact add_right_inj' (s2.symm.trans ((congrFun h 2).trans t2))
  · exact add_right_inj' (s3.symm.trans ((congrFun h 3).trans t3))

theorem ab_inj {s t : St 4} {a b : U64} (h : upd (upd s 0 (s 0 + a)) 1 (s 1 + b) = upd (upd t 0 (t 0 + a)) 1 (t 1 + b)) : s = t := by
  obtain ⟨s0, s1, s2, s3⟩ := ab_apply s (s 0 + a) (s 1 + b)
  obtain ⟨t0, t1, t2, t3⟩ := ab_apply t (t 0 + a) (t 1 + b)
  funext i
  refine fin4 (P := fun i => s i = t i) ?_ ?_ ?_ ?_ i
  · exact add_right_inj' (s0.symm.trans ((congrFun h 0).trans t0))
  · exact add_right_inj' (s1.symm.trans ((congrFun h 1).trans t1))
  · rw [← s2, h, t2]
  · rw [← s3, h, t3]

theorem d_inj {s t : St 4} {b : U64} (h : upd s 3 (s 3 + b) = upd t 3 (t 3 + b)) : s = t := by
  funext i
  have hi := congrFun h i
  revert hi
  refine fin4 (P := fun i => upd s 3 (s 3 + b) i = upd t 3 (t 3 + b) i → s i = t i) ?_ ?_ ?_ ?_ i
  · simp [upd, Function.update]
  · simp [upd, Function.update]
  · simp [upd, Function.update]
  · intro hi
    simp only [upd, Function.update_self] at hi
    exact add_right_inj' hi

theorem shortBlock_inj (b : List U8) (s t : St 4) (h : shortBlock s b = shortBlock t b) : s = t :=
  cd_inj (shortMix_inj (ab_inj h))

/-- What `shortTail` does after its 16-byte step. -/
def closing (len : Nat) (s : St 4) (u : List U8) : St 4 :=
  let s := upd s 3 (s 3 + BitVec.ofNat 64 len <<< 56)
  if u = [] then upd (upd s 2 (s 2 + scConst)) 3 (s 3 + scConst) else upd (upd s 2 (s 2 + Spec.Spooky.word u 0)) 3 (s 3 + Spec.Spooky.word u 1)

theorem closing_inj (len : Nat) (u : List U8) (s t : St 4) (h : closing len s u = closing len t u) : s = t := by
  unfold closing at h
  by_cases hu : u = []
  · rw [if_pos hu, if_pos hu] at h
    exact d_inj (cd_inj h)
  · rw [if_neg hu, if_neg hu] at h
    exact d_inj (cd_inj h)

theorem shortTail_eq (len : Nat) (s : St 4) (t : List U8) :
    shortTail len s t = if 16 ≤ t.length then closing len (shortMix (addCD s t)) (t.drop 16) else closing len s t := by
  unfold shortTail
  by_cases h : 16 ≤ t.length
  · rw [if_pos h, if_pos h]; rfl
  · rw [if_neg h, if_neg h]; rfl

theorem shortTail_inj (len : Nat) (u : List U8) (s t : St 4) (h : shortTail len s u = shortTail len t u) : s = t := by
  rw [shortTail_eq, shortTail_eq] at h
  by_cases hu : 16 ≤ u.length
  · rw [if_pos hu, if_pos hu] at h
    exact cd_inj (shortMix_inj (closing_inj _ _ _ _ h))
  · rw [if_neg hu, if_neg hu] at h
    exact closing_inj _ _ _ _ h

theorem word_left {p q : List U8} (hp : p.length = 16) (i : Nat) (hi : i < 2) : Spec.Spooky.word (p ++ q) i = Spec.Spooky.word p i := by
  unfold Spec.Spooky.word
  rw [List.drop_append_of_le_length (by omega), List.take_append_of_le_length (by rw [List.length_drop]; omega)]

theorem word_right {p q : List U8} (hp : p.length = 16) (i : Nat) : Spec.Spooky.word (p ++ q) (i + 2) = Spec.Spooky.word q i := by
  unfold Spec.Spooky.word
  rw [show 8 * (i + 2) = p.length + 8 * i by omega, List.drop_length_add_append]

theorem addCD_left {p q : List U8} (hp : p.length = 16) (s : St 4) : addCD s (p ++ q) = addCD s p := by
  unfold addCD
  rw [word_left hp 0 (by decide), word_left hp 1 (by decide)]

theorem shortBlock_halves {p q : List U8} (hp : p.length = 16) (s : St 4) : shortBlock s (p ++ q) = addAB (shortMix (addCD s p)) q := by
  unfold shortBlock addAB addCD
  rw [word_left hp 0 (by decide), word_left hp 1 (by decide), show (2 : Nat) = 0 + 2 from rfl, show (3 : Nat) = 1 + 2 from rfl, word_right hp, word_right hp]

/-- The whole state at the end. -/
def final (m : List U8) (seed1 seed2 : U64) : St 4 :=
  shortEnd (shortTail m.length ((blocks 32 m).foldl shortBlock fun i => if i = 0 then seed1 else if i = 1 then seed2 else scConst) (tailOf 32 m))

theorem short_final (m : List U8) (seed1 seed2 : U64) : short m seed1 seed2 = (final m seed1 seed2 0, final m seed1 seed2 1) := rfl

/-- 32 bytes added to all four words. -/
def add4 (s : St 4) (u : List U8) : St 4 := addCD (addAB s (u.take 16)) (u.drop 16)

theorem blocks_pre {x y : List U8} (hx : x.length % 32 = 0) : blocks 32 (x ++ y) = blocks 32 x ++ blocks 32 y ∧ tailOf 32 (x ++ y) = tailOf 32 y := by
  have ht : tailOf 32 x = [] := by
    unfold tailOf
    apply List.drop_of_length_le
    omega
  rw [blocks_append (by decide), tailOf_append (by decide), ht]
  exact ⟨rfl, rfl⟩

theorem blocks_one {b : List U8} (hb : b.length = 32) : blocks 32 b = [b] := by
  unfold blocks
  rw [hb]
  simp [hb]

/-- Everything after the window. -/
theorem rest (len : Nat) (y : List U8) : ∃ F : St 4 → St 4, Function.Injective F ∧ ∀ (s : St 4) (p : List U8), p.length = 16 →
    shortEnd (shortTail len ((blocks 32 (p ++ y)).foldl shortBlock s) (tailOf 32 (p ++ y))) = F (addCD s p) := by
  by_cases hy : 16 ≤ y.length
  · refine ⟨fun s => shortEnd (shortTail len ((blocks 32 (y.drop 16)).foldl shortBlock (addAB (shortMix s) (y.take 16))) (tailOf 32 (y.drop 16))), ?_, ?_⟩
    · intro s t h
      exact shortMix_inj (ab_inj (foldl_inj shortBlock_inj _ (shortTail_inj _ _ _ _ (shortEnd_inj h))))
    · intro s p hp
      have e : p ++ y = (p ++ y.take 16) ++ y.drop 16 := by rw [List.append_assoc, List.take_append_drop]
      have hl : (p ++ y.take 16).length = 32 := by rw [List.length_append, List.length_take]; omega
      obtain ⟨h1, h2⟩ := blocks_pre (x := p ++ y.take 16) (y := y.drop 16) (by rw [hl])
      rw [e, h1, h2, blocks_one hl, List.foldl_append, List.foldl_cons, List.foldl_nil, shortBlock_halves hp]
  · refine ⟨fun s => shortEnd (closing len (shortMix s) y), ?_, ?_⟩
    · intro s t h
      exact shortMix_inj (closing_inj _ _ _ _ (shortEnd_inj h))
    · intro s p hp
      have hl : (p ++ y).length < 32 := by rw [List.length_append]; omega
      rw [blocks_of_lt hl, tailOf_of_lt hl, List.foldl_nil, shortTail_eq, if_pos (by rw [List.length_append]; omega), addCD_left hp,
        show (16 : Nat) = p.length from hp.symm, List.drop_left]

theorem window (seed1 seed2 : U64) (x y : List U8) (hx : x.length % 32 = 16) : ∃ (S : St 4) (F : St 4 → St 4), Function.Injective F ∧
    ∀ u : List U8, u.length = 32 → final (x ++ u ++ y) seed1 seed2 = F (add4 S u) := by
  obtain ⟨X, p, rfl, hX, hp⟩ : ∃ X p : List U8, x = X ++ p ∧ X.length % 32 = 0 ∧ p.length = 16 :=
    ⟨x.take (x.length - 16), x.drop (x.length - 16), (List.take_append_drop _ _).symm, by rw [List.length_take]; omega, by rw [List.length_drop]; omega⟩
  obtain ⟨F, hF, h⟩ := rest ((X ++ p).length + 32 + y.length) y
  refine ⟨shortMix (addCD ((blocks 32 X).foldl shortBlock fun i => if i = 0 then seed1 else if i = 1 then seed2 else scConst) p), F, hF, fun u hu => ?_⟩
  have h1 : (u.take 16).length = 16 := by rw [List.length_take]; omega
  have h2 : (u.drop 16).length = 16 := by rw [List.length_drop]; omega
  have e : X ++ p ++ u ++ y = X ++ ((p ++ u.take 16) ++ (u.drop 16 ++ y)) := by
    simp only [List.append_assoc]
    rw [← List.append_assoc (u.take 16), List.take_append_drop]
  have hl : (p ++ u.take 16).length = 32 := by rw [List.length_append]; omega
  obtain ⟨a1, a2⟩ := blocks_pre (x := X) (y := (p ++ u.take 16) ++ (u.drop 16 ++ y)) hX
  obtain ⟨b1, b2⟩ := blocks_pre (x := p ++ u.take 16) (y := u.drop 16 ++ y) (by rw [hl])
  have hlen : (X ++ p ++ u ++ y).length = (X ++ p).length + 32 + y.length := by simp only [List.length_append]; omega
  unfold final
  rw [hlen, e, a1, a2, b1, b2, blocks_one hl, List.foldl_append, List.singleton_append, List.foldl_cons, shortBlock_halves hp, h _ _ h2]
  rfl

theorem word8_inj {p q : List U8} (hp : p.length = 16) (hq : q.length = 16) (h0 : Spec.Spooky.word p 0 = Spec.Spooky.word q 0) (h1 : Spec.Spooky.word p 1 = Spec.Spooky.word q 1) : p = q := by
  have key : ∀ r s : List U8, r.length = 8 → s.length = 8 → BitVec.ofNat 64 (leNat r) = BitVec.ofNat 64 (leNat s) → r = s := fun r s hr hs e =>
    word_inj (w := 64) (n := 8) rfl hr hs e
  have e0 := key _ _ (by rw [List.length_take, List.length_drop]; omega) (by rw [List.length_take, List.length_drop]; omega) h0
  have e1 := key _ _ (by rw [List.length_take, List.length_drop]; omega) (by rw [List.length_take, List.length_drop]; omega) h1
  have split : ∀ r : List U8, r.length = 16 → r = (r.drop (8 * 0)).take 8 ++ (r.drop (8 * 1)).take 8 := fun r hr => by
    rw [Nat.mul_zero, List.drop_zero, Nat.mul_one, List.take_of_length_le (l := r.drop 8) (by rw [List.length_drop]; omega), List.take_append_drop]
  rw [split p hp, split q hq, e0, e1]

theorem add_left_inj' {w : Nat} {a b c : BitVec w} (h : a + b = a + c) : b = c := by
  rw [BitVec.add_comm a b, BitVec.add_comm a c] at h
  exact add_right_inj' h

theorem add4_inj (s : St 4) (u v : List U8) (hu : u.length = 32) (hv : v.length = 32) (h : add4 s u = add4 s v) : u = v := by
  obtain ⟨p0, p1, p2, p3⟩ := cd_apply (addAB s (u.take 16)) ((addAB s (u.take 16)) 2 + Spec.Spooky.word (u.drop 16) 0) ((addAB s (u.take 16)) 3 + Spec.Spooky.word (u.drop 16) 1)
  obtain ⟨q0, q1, q2, q3⟩ := cd_apply (addAB s (v.take 16)) ((addAB s (v.take 16)) 2 + Spec.Spooky.word (v.drop 16) 0) ((addAB s (v.take 16)) 3 + Spec.Spooky.word (v.drop 16) 1)
  obtain ⟨a0, a1, a2, a3⟩ := ab_apply s (s 0 + Spec.Spooky.word (u.take 16) 0) (s 1 + Spec.Spooky.word (u.take 16) 1)
  obtain ⟨b0, b1, b2, b3⟩ := ab_apply s (s 0 + Spec.Spooky.word (v.take 16) 0) (s 1 + Spec.Spooky.word (v.take 16) 1)
  have c0 := a0.symm.trans (p0.symm.trans ((congrFun h 0).trans (q0.trans b0)))
  have c1 := a1.symm.trans (p1.symm.trans ((congrFun h 1).trans (q1.trans b1)))
  have c2 := p2.symm.trans ((congrFun h 2).trans q2)
  have c3 := p3.symm.trans ((congrFun h 3).trans q3)
  rw [show addAB s (u.take 16) 2 = s 2 from a2, show addAB s (v.take 16) 2 = s 2 from b2] at c2
  rw [show addAB s (u.take 16) 3 = s 3 from a3, show addAB s (v.take 16) 3 = s 3 from b3] at c3
  have e1 := word8_inj (p := u.take 16) (q := v.take 16) (by rw [List.length_take]; omega) (by rw [List.length_take]; omega) (add_left_inj' c0) (add_left_inj' c1)
  have e2 := word8_inj (p := u.drop 16) (q := v.drop 16) (by rw [List.length_drop]; omega) (by rw [List.length_drop]; omega) (add_left_inj' c2) (add_left_inj' c3)
  rw [← List.take_append_drop 16 u, e1, e2, List.take_append_drop]

/-- Four words. -/
abbrev W4 := U64 × U64 × U64 × U64

def four : St 4 ≃ W4 := ⟨fun s => (s 0, s 1, s 2, s 3), fun t => fun i => if i = 0 then t.1 else if i = 1 then t.2.1 else if i = 2 then t.2.2.1 else t.2.2.2,
  fun s => by funext i; exact fin4 (P := fun i => (if i = 0 then s 0 else if i = 1 then s 1 else if i = 2 then s 2 else s 3) = s i) rfl rfl rfl rfl i, fun _ => rfl⟩

def bytes32 : W4 ≃ Fin (256 ^ 32) :=
  let w := words 64 8 rfl
  (w.prodCongr ((w.prodCongr ((w.prodCongr w).trans finProdFinEquiv)).trans finProdFinEquiv)).trans (finProdFinEquiv.trans (finCongr (by norm_num)))

theorem window_once (seed1 seed2 : U64) (x y : List U8) (hx : x.length % 32 = 16) (v : W4) :
    ∃! u, u.length = 32 ∧ four (final (x ++ u ++ y) seed1 seed2) = v := by
  obtain ⟨S, F, hF, h⟩ := window seed1 seed2 x y hx
  obtain ⟨u, h1, h2⟩ := exactly_once 32 bytes32 (fun u => (.ok (four (final (x ++ u ++ y) seed1 seed2)) : Go W4)) (fun u _ => ⟨_, rfl⟩)
    (fun u v hu hv e => by
      have e1 := four.injective (Except.ok.inj e)
      rw [h u hu, h v hv] at e1
      exact add4_inj S u v hu hv (hF e1)) v
  exact ⟨u, ⟨h1.1, Except.ok.inj h1.2⟩, fun y hy => h2 y ⟨hy.1, by rw [← hy.2]⟩⟩

def split32 : U64 ≃ U32 × U32 := ⟨fun x => (x.setWidth 32, (x >>> 32).setWidth 32), fun p => p.2 ++ p.1, fun x => by
    apply BitVec.eq_of_getLsbD_eq
    intro i hi
    simp only [BitVec.getLsbD_append, BitVec.getLsbD_setWidth, BitVec.getLsbD_ushiftRight]
    by_cases h : i < 32
    · simp [h]
    · simp only [h, if_false, decide_false]
      rw [show 32 + (i - 32) = i by omega]
      have : i - 32 < 32 := by omega
      simp [this], fun p => by
    obtain ⟨a, b⟩ := p
    refine Prod.ext ?_ ?_
    · apply BitVec.eq_of_getLsbD_eq
      intro i hi
      simp only [BitVec.getLsbD_setWidth, BitVec.getLsbD_append]
      simp [hi]
    · apply BitVec.eq_of_getLsbD_eq
      intro i hi
      simp only [BitVec.getLsbD_setWidth, BitVec.getLsbD_ushiftRight, BitVec.getLsbD_append]
      simp [hi]⟩

/-- The four words as the results and what is dropped. -/
def both : W4 ≃ (U64 × U64) × (U64 × U64) := ⟨fun s => ((s.1, s.2.1), s.2.2), fun t => (t.1.1, t.1.2, t.2), fun _ => rfl, fun _ => rfl⟩
def second : W4 ≃ U64 × (U64 × U64 × U64) := ⟨fun s => (s.2.1, s.1, s.2.2), fun t => (t.2.1, t.1, t.2.2), fun _ => rfl, fun _ => rfl⟩
def xored : W4 ≃ U64 × (U64 × U64 × U64) := ⟨fun s => (s.1 ^^^ s.2.1, s.2), fun t => (t.1 ^^^ t.2.1, t.2), fun s => by
    obtain ⟨a, b, c⟩ := s
    simp [BitVec.xor_assoc], fun t => by
    obtain ⟨a, b, c⟩ := t
    simp [BitVec.xor_assoc]⟩
def low32 : W4 ≃ U32 × (U32 × (U64 × U64 × U64)) := (split32.prodCongr (Equiv.refl _)).trans (Equiv.prodAssoc _ _ _)

end SpookyBalanced
open SpookyBalanced

theorem spooky_short {m : List U8} (h : m.length < 192) (seed1 seed2 : U64) : spooky128 m seed1 seed2 = (final m seed1 seed2 0, final m seed1 seed2 1) := by
  unfold spooky128
  rw [if_pos h, short_final]

/-- C123. Fix everything in a key but 32 bytes that start at 16 modulo 32: each of the 2^128 results of `SpookyHashShort` (of `SpookyHash128`, if the key is shorter than 192 bytes)
is the hash of exactly 2^128 contents of those bytes, whatever the seeds. -/
theorem C123_short (x y : List U8) (hx : x.length % 32 = 16) (seed1 seed2 a b : U64) :
    {u | u.length = 32 ∧ SpookyHashShort (x ++ u ++ y) seed1 seed2 = .ok (a, b)}.ncard = 2 ^ 128 ∧
    (x.length + 32 + y.length < 192 → {u | u.length = 32 ∧ SpookyHash128 (x ++ u ++ y) seed1 seed2 = .ok (a, b)}.ncard = 2 ^ 128) := by
  have h1 := count_part 32 (fun u => four (final (x ++ u ++ y) seed1 seed2)) (window_once seed1 seed2 x y hx) both (a, b)
  rw [Nat.card_prod, card_word, ← Nat.pow_add] at h1
  constructor
  · rw [← h1]
    congr 1
    ext u
    simp only [Set.mem_ofPred_eq]
    refine and_congr_right fun hu => ?_
    rw [C41_short, short_final]
    exact ⟨fun e => Except.ok.inj e, fun e => congrArg Except.ok e⟩
  · intro hl
    rw [← h1]
    congr 1
    ext u
    simp only [Set.mem_ofPred_eq]
    refine and_congr_right fun hu => ?_
    rw [C41_spooky, spooky_short (by simp only [List.length_append, hu]; exact hl)]
    exact ⟨fun e => Except.ok.inj e, fun e => congrArg Except.ok e⟩

/-- C123. Each value of `Hash64` comes from exactly 2^192 contents, each of `Hash32` from exactly 2^224. -/
theorem C123_widths (x y : List U8) (hx : x.length % 32 = 16) (hl : x.length + 32 + y.length < 192) (seed v : U64) (seed32 v32 : U32) :
    {u | u.length = 32 ∧ Hash64 (x ++ u ++ y) seed = .ok v}.ncard = 2 ^ 192 ∧
    {u | u.length = 32 ∧ Hash32 (x ++ u ++ y) seed32 = .ok v32}.ncard = 2 ^ 224 := by
  constructor
  · have h1 := count_part 32 (fun u => four (final (x ++ u ++ y) seed seed)) (window_once seed seed x y hx) (Equiv.refl _) v
    rw [Nat.card_prod, Nat.card_prod, card_word, ← Nat.pow_add, ← Nat.pow_add] at h1
    rw [← h1]
    congr 1
    ext u
    simp only [Set.mem_ofPred_eq]
    refine and_congr_right fun hu => ?_
    rw [(C41_widths _ seed seed32).2.1, spooky_short (by simp only [List.length_append, hu]; exact hl)]
    exact ⟨fun e => Except.ok.inj e, fun e => congrArg Except.ok e⟩
  · have h1 := count_part 32 (fun u => four (final (x ++ u ++ y) (seed32.setWidth 64) (seed32.setWidth 64))) (window_once _ _ x y hx) low32 v32
    rw [Nat.card_prod, Nat.card_prod, Nat.card_prod, card_word, card_word, ← Nat.pow_add, ← Nat.pow_add, ← Nat.pow_add] at h1
    rw [← h1]
    congr 1
    ext u
    simp only [Set.mem_ofPred_eq]
    refine and_congr_right fun hu => ?_
    rw [(C41_widths _ seed seed32).2.2, spooky_short (by simp only [List.length_append, hu]; exact hl)]
    exact ⟨fun e => Except.ok.inj e, fun e => congrArg Except.ok e⟩

/-- C123. Each value of the second half, and of the exclusive or of the halves, comes from exactly 2^192 contents too. -/
theorem C123_halves (x y : List U8) (hx : x.length % 32 = 16) (hl : x.length + 32 + y.length < 192) (seed1 seed2 v : U64) :
    {u | u.length = 32 ∧ ∃ a, SpookyHash128 (x ++ u ++ y) seed1 seed2 = .ok (a, v)}.ncard = 2 ^ 192 ∧
    {u | u.length = 32 ∧ ∃ a b, SpookyHash128 (x ++ u ++ y) seed1 seed2 = .ok (a, b) ∧ a ^^^ b = v}.ncard = 2 ^ 192 := by
  constructor
  · have h1 := count_part 32 (fun u => four (final (x ++ u ++ y) seed1 seed2)) (window_once seed1 seed2 x y hx) second v
    rw [Nat.card_prod, Nat.card_prod, card_word, ← Nat.pow_add, ← Nat.pow_add] at h1
    rw [← h1]
    congr 1
    ext u
    simp only [Set.mem_ofPred_eq]
    refine and_congr_right fun hu => ?_
    rw [C41_spooky, spooky_short (by simp only [List.length_append, hu]; exact hl)]
    exact ⟨fun ⟨_, e⟩ => congrArg Prod.snd (Except.ok.inj e), fun e => ⟨_, congrArg (fun b => Except.ok (_, b)) e⟩⟩
  · have h1 := count_part 32 (fun u => four (final (x ++ u ++ y) seed1 seed2)) (window_once seed1 seed2 x y hx) xored v
    rw [Nat.card_prod, Nat.card_prod, card_word, ← Nat.pow_add, ← Nat.pow_add] at h1
    rw [← h1]
    congr 1
    ext u
    simp only [Set.mem_ofPred_eq]
    refine and_congr_right fun hu => ?_
    rw [C41_spooky, spooky_short (by simp only [List.length_append, hu]; exact hl)]
    constructor
    · rintro ⟨a, b, e, hv⟩
      have e1 := Except.ok.inj e
      rw [← hv]
      exact congrArg (fun p : U64 × U64 => p.1 ^^^ p.2) e1
    · intro e
      exact ⟨_, _, rfl, e⟩

/-- The dispatcher's names of SpookyHash. -/
def spookyNames : List String := ["spooky32", "spooky64", "spooky128h", "spooky128l", "spooky128xor"]

namespace SpookyBalanced

theorem keys (s : U64) (m n : Nat) (hm5 : m < 5) (hm : n ≤ 256 ^ (16 + 32 * m)) : ∃ ks : List (List U8), ks.Nodup ∧ ks.length = n ∧ (∀ k ∈ ks, k.length = 48 + 32 * m) ∧
    ∀ k ∈ ks, spooky128 k s s = (0#64, 0#64) := by
  have hp : ∀ i, (leBytes (16 + 32 * m) i).length = 16 + 32 * m := fun i => leBytes_length _ _
  have onto : ∀ i, ∃ u : List U8, u.length = 32 ∧ spooky128 (leBytes (16 + 32 * m) i ++ u) s s = (0#64, 0#64) := fun i => by
    obtain ⟨u, h1, h2⟩ := some_part 32 (fun u => four (final (leBytes (16 + 32 * m) i ++ u ++ []) s s)) (window_once s s _ [] (by rw [hp]; omega)) both (0#64, 0#64)
    refine ⟨u, h1, ?_⟩
    rw [spooky_short (by rw [List.length_append, hp, h1]; omega)]
    rw [List.append_nil] at h2
    exact h2
  choose g hg using onto
  refine ⟨(List.range n).map (fun i => leBytes (16 + 32 * m) i ++ g i), ?_, by simp, ?_, ?_⟩
  · apply List.Nodup.map_on _ List.nodup_range
    intro i hi j hj h
    rw [List.mem_range] at hi hj
    have h1 := List.append_inj_left h ((hp i).trans (hp j).symm)
    have h2 := congrArg leNat h1
    rw [leNat_leBytes, leNat_leBytes, Nat.mod_eq_of_lt (by omega), Nat.mod_eq_of_lt (by omega)] at h2
    exact h2
  · intro k hk
    obtain ⟨i, _, rfl⟩ := List.mem_map.1 hk
    rw [List.length_append, hp, (hg i).1]
    omega
  · intro k hk
    obtain ⟨i, _, rfl⟩ := List.mem_map.1 hk
    exact (hg i).2

end SpookyBalanced

/-- C123. Under each of these names, for any seed, up to `256^(16 + 32 m)` different keys of length `48 + 32 m` (`m < 5`) have the same hash in `Hashf`, whatever was hashed before. -/
theorem C123_collisions (e : Ext) (he : Ok e) (name : String) (hname : name ∈ spookyNames) (m n : Nat) (hm5 : m < 5) (hm : n ≤ 256 ^ (16 + 32 * m)) (seed : U64) :
    ∃ ks : List (List U8), ks.Nodup ∧ ks.length = n ∧ (∀ k ∈ ks, k.length = 48 + 32 * m) ∧
      ∃ h, ∀ k ∈ ks, ∀ hist, resultAfter e hist name k seed = .ok h := by
  have one : ∀ (i : Nat) (f : List U8 → U64 → Option U64) (h : U64), (Spec.Hashf.table e)[i]? = some (name, f) →
      (∃ ks : List (List U8), ks.Nodup ∧ ks.length = n ∧ (∀ k ∈ ks, k.length = 48 + 32 * m) ∧ ∀ k ∈ ks, f k seed = some h) →
      ∃ ks : List (List U8), ks.Nodup ∧ ks.length = n ∧ (∀ k ∈ ks, k.length = 48 + 32 * m) ∧ ∃ h, ∀ k ∈ ks, ∀ hist, resultAfter e hist name k seed = .ok h := by
    rintro i f h hi ⟨ks, h1, h2, h3, h4⟩
    exact ⟨ks, h1, h2, h3, h, fun k hk hist => value e he hist k seed i hi (h4 k hk)⟩
  simp only [spookyNames, List.mem_cons, List.not_mem_nil, or_false] at hname
  rcases hname with rfl | rfl | rfl | rfl | rfl
  · obtain ⟨ks, h1, h2, h3, h4⟩ := keys (Spec.Hashf.wide (Spec.Hashf.low seed)) m n hm5 hm
    exact one 18 _ 0#64 rfl ⟨ks, h1, h2, h3, fun k hk => by rw [h4 k hk]; rfl⟩
  · obtain ⟨ks, h1, h2, h3, h4⟩ := keys seed m n hm5 hm
    exact one 19 _ 0#64 rfl ⟨ks, h1, h2, h3, fun k hk => by rw [h4 k hk]⟩
  · obtain ⟨ks, h1, h2, h3, h4⟩ := keys seed m n hm5 hm
    exact one 20 _ 0#64 rfl ⟨ks, h1, h2, h3, fun k hk => by rw [h4 k hk]⟩
  · obtain ⟨ks, h1, h2, h3, h4⟩ := keys seed m n hm5 hm
    exact one 21 _ 0#64 rfl ⟨ks, h1, h2, h3, fun k hk => by rw [h4 k hk]⟩
  · obtain ⟨ks, h1, h2, h3, h4⟩ := keys seed m n hm5 hm
    exact one 22 _ 0#64 rfl ⟨ks, h1, h2, h3, fun k hk => by rw [h4 k hk]; rfl⟩

/-- C123. So SpookyHash too can flood a chaining table of any size, for any seed. -/
theorem C123_flood (e : Ext) (he : Ok e) (name : String) (hname : name ∈ spookyNames) (np : Int → Int) (size seed extra : Int) (pd prime : Bool)
    (ht0 : HashTable.HT (List U8)) (hnew : HashTable.newHashTable np size seed extra pd false prime = .ok ht0) (hpos : 0 < ht0.buckets.length) (m n : Nat)
    (hn : 2 ≤ n) (hm5 : m < 5) (hm : n ≤ 256 ^ (16 + 32 * m)) :
    ∃ ks : List (List U8), ks.Nodup ∧ ks.length = n ∧ (∀ k ∈ ks, k.length = 48 + 32 * m) ∧
      ∃ ht, HashTable.insertAll (HashTable.pureEnv (valueOf (resultAfter e [] name)) (fun _ => true)) () ht0 ks = .ok ((), ht) ∧
        (∃ i : Nat, ht.buckets[i]? = some ks ∧ ∀ j : Nat, j ≠ i → ∀ c, ht.buckets[j]? = some c → c = []) ∧
        2 * ht.dups = n * (n - 1) ∧ ht.heads = 1 ∧ ht.nbuckets = n - 1 ∧ ht.longestChain = n := by
  obtain ⟨ks, h1, h2, h3, h, h4⟩ := C123_collisions e he name hname m n hm5 hm ht0.seed
  exact ⟨ks, h1, h2, h3, flood_of _ np size seed extra pd prime ht0 hnew hpos n hn ks h2 h fun k hk => by simp only [valueOf, h4 k hk []]⟩

/-- C123_flood applies to the dispatcher's spooky128xor with a table of sixteen buckets and a million keys of 48 bytes. -/
example : ∃ ht0 : HashTable.HT (List U8), HashTable.newHashTable id 16 5 0 false false false = .ok ht0 ∧ 0 < ht0.buckets.length ∧ "spooky128xor" ∈ spookyNames ∧ 2 ≤ 1000000 ∧
    (0 : Nat) < 5 ∧ 1000000 ≤ 256 ^ (16 + 32 * 0) ∧ Ok exampleExt :=
  ⟨_, rfl, by decide, by decide, by decide, by decide, by norm_num, exampleExt_ok⟩

/-- The contents of bytes 16 to 47 that give a key of 50 bytes the hash 0. -/
example (x : List U8) (hx : x.length = 16) : {u | u.length = 32 ∧ Hash64 (x ++ u ++ [1#8, 2#8]) 7#64 = .ok 0#64}.ncard = 2 ^ 192 :=
  (C123_widths x [1#8, 2#8] (by rw [hx]) (by rw [hx]; decide) 7#64 0#64 0#32 0#32).1

end Verif.Props
