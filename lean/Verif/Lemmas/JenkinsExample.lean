import Verif.Spec.JenkinsExample
import Verif.Lemmas.Basic
import Verif.Lemmas.Ht
import Verif.Lemmas.Smhasher3
import Mathlib.Tactic.Ring

/-! Lemmas for C104. -/

namespace Verif.Lemmas.JenkinsExample
open Verif Verif.Model.JenkinsExample Verif.Spec.JenkinsExample
open Verif.Lemmas.Ht (set_eq)

theorem replicate_set_length (n i : Nat) (v : U8) : ((List.replicate n 0#8).set i v).length = n := by
  rw [List.length_set, List.length_replicate]

theorem keyWith_length (i : Nat) (v : U8) : (keyWith i v).length = 70 := replicate_set_length 70 i v

/-- The byte put into the key. -/
theorem trialByte_eq (j t : Nat) (hj : j < 8) : trialByte j t = (BitVec.ofNat 32 (2 * t) <<< j).setWidth 8 ^^^ (BitVec.ofNat 32 (2 * t) >>> (8 - j)).setWidth 8 := by
  unfold trialByte
  generalize 2 * t = k
  apply BitVec.eq_of_getLsbD_eq
  intro p hp
  rw [BitVec.getLsbD_xor, BitVec.getLsbD_xor, BitVec.getLsbD_setWidth, BitVec.getLsbD_setWidth, BitVec.getLsbD_shiftLeft, BitVec.getLsbD_ushiftRight,
    BitVec.getLsbD_shiftLeft, BitVec.getLsbD_rotateLeft]
  simp only [BitVec.getLsbD_ofNat, hp, decide_true, Bool.true_and, show p < 32 by omega]
  have hdiv : ∀ q, (k / 256).testBit q = k.testBit (8 + q) := by
    intro q
    rw [show (256 : Nat) = 2 ^ 8 by rfl, ← Nat.shiftRight_eq_div_pow, Nat.testBit_shiftRight]
  rw [Nat.mod_eq_of_lt hj, hdiv]
  by_cases h : p < j
  · simp [h, show 8 - j + p < 8 by omega, show 8 - j + p < 32 by omega]
  · have e : 8 + (p - j) = 8 - j + p := by omega
    simp [h, show p - j < 8 by omega, show p - j < 32 by omega, show 8 - j + p < 32 by omega, e]

/-- The other key of the pair. -/
theorem trialByte_succ (j t : Nat) (hj : j < 8) :
    (BitVec.ofNat 32 (2 * t + 1) <<< j).setWidth 8 ^^^ (BitVec.ofNat 32 (2 * t + 1) >>> (8 - j)).setWidth 8 = trialByte j t ^^^ 1#8 <<< j := by
  have h1 : BitVec.ofNat 32 (2 * t + 1) = BitVec.ofNat 32 (2 * t) ^^^ 1#32 := by
    apply BitVec.eq_of_getLsbD_eq
    intro p hp
    rw [BitVec.getLsbD_xor]
    simp only [BitVec.getLsbD_ofNat, hp, decide_true, Bool.true_and]
    cases p with
    | zero => simp
    | succ p =>
      rw [Nat.testBit_succ, Nat.testBit_succ, Nat.testBit_succ, show (2 * t + 1) / 2 = t by omega, show 2 * t / 2 = t by omega]
      simp
  rw [trialByte_eq j t hj, h1]
  have hs : ∀ j < 8, ((1#32 >>> (8 - j)).setWidth 8 : U8) = 0#8 ∧ ((1#32 <<< j).setWidth 8 : U8) = 1#8 <<< j := by decide
  rw [BitVec.shiftLeft_xor_distrib, BitVec.ushiftRight_xor_distrib, BitVec.setWidth_xor, BitVec.setWidth_xor, (hs j hj).1, (hs j hj).2, BitVec.xor_zero]
  rw [BitVec.xor_assoc, BitVec.xor_assoc, BitVec.xor_comm (1#8 <<< j)]

/-- Every value of the byte comes up in the first 256 trials. -/
theorem trialByte_onto (j : Nat) (hj : j < 8) (v : U8) : ∃ t ≤ 255, v = trialByte j t := by
  have h : ∀ j < 8, ∀ v : BitVec 8, v = trialByte j ((v.rotateRight j).toNat / 2 + 128 * ((v.rotateRight j).toNat % 2)) := by decide +kernel
  refine ⟨_, ?_, h j hj v⟩
  have := (v.rotateRight j).isLt
  omega

/-! ### The masks -/

section
variable (H : List U8 → Nat → Nat → U32) (len i j m : Nat)

/-- The masks after `n` trials. -/
def M : Nat → Masks
  | 0 => .init
  | n + 1 => (M n).step (H (keyWith i (trialByte j n)) len m) (H (keyWith i (trialByte j n ^^^ 1#8 <<< j)) len m)

theorem M_bits (n p : Nat) (hp : p < 32) :
    ((M H len i j m n).e.getLsbD p = true ↔ ∀ s < n, flips H len i j m p (trialByte j s)) ∧
    ((M H len i j m n).f.getLsbD p = true ↔ ∀ s < n, ¬ flips H len i j m p (trialByte j s)) ∧
    ((M H len i j m n).g.getLsbD p = true ↔ ∀ s < n, bit H len i m p (trialByte j s) = true) ∧
    ((M H len i j m n).h.getLsbD p = true ↔ ∀ s < n, bit H len i m p (trialByte j s) = false) ∧
    ((M H len i j m n).x.getLsbD p = true ↔ ∀ s < n, bit H len i m p (trialByte j s ^^^ 1#8 <<< j) = true) ∧
    ((M H len i j m n).y.getLsbD p = true ↔ ∀ s < n, bit H len i m p (trialByte j s ^^^ 1#8 <<< j) = false) := by
  induction n with
  | zero =>
    have : (~~~0#32 : U32).getLsbD p = true := by rw [BitVec.getLsbD_not, BitVec.getLsbD_zero]; simp [hp]
    unfold M Masks.init
    dsimp only
    rw [this]
    simp
  | succ n ih =>
    obtain ⟨h1, h2, h3, h4, h5, h6⟩ := ih
    simp only [M, Masks.step, BitVec.getLsbD_and, BitVec.getLsbD_xor, BitVec.getLsbD_not, hp, decide_true, Bool.true_and, Bool.and_eq_true, h1, h2, h3, h4, h5, h6,
      Nat.lt_succ_iff_lt_or_eq, or_imp, forall_and, forall_eq]
    refine ⟨and_congr_right fun _ => ?_, and_congr_right fun _ => ?_, and_congr_right fun _ => Iff.rfl, and_congr_right fun _ => ?_, and_congr_right fun _ => Iff.rfl,
      and_congr_right fun _ => ?_⟩
    · unfold flips bit; simp
    · unfold flips bit; simp
    · unfold bit; simp
    · unfold bit; simp

theorem finished_iff (v : Masks) : v.finished = true ↔ ∀ p < 32, v.e.getLsbD p = false ∧ v.f.getLsbD p = false ∧ v.g.getLsbD p = false ∧ v.h.getLsbD p = false ∧
    v.x.getLsbD p = false ∧ v.y.getLsbD p = false := by
  unfold Masks.finished
  rw [beq_iff_eq]
  constructor
  · intro h p hp
    have := congrArg (fun x => x.getLsbD p) h
    simpa [BitVec.getLsbD_or, and_assoc] using this
  · intro h
    apply BitVec.eq_of_getLsbD_eq
    intro p hp
    obtain ⟨h1, h2, h3, h4, h5, h6⟩ := h p hp
    simp [BitVec.getLsbD_or, h1, h2, h3, h4, h5, h6]

theorem finished_seen (t : Nat) : (M H len i j m (t + 1)).finished = true ↔ SeenBy H len i j m t := by
  rw [finished_iff]
  unfold SeenBy Covered
  refine forall_congr' fun p => forall_congr' fun hp => ?_
  obtain ⟨h1, h2, h3, h4, h5, h6⟩ := M_bits H len i j m (t + 1) p hp
  have conv : ∀ {b : Bool} {P : U8 → Prop}, (b = true ↔ ∀ s < t + 1, P (trialByte j s)) → (b = false ↔ ∃ v, (∃ s ≤ t, v = trialByte j s) ∧ ¬ P v) := by
    intro b P h
    rw [← Bool.not_eq_true, h]
    push Not
    constructor
    · rintro ⟨s, hs, hP⟩; exact ⟨_, ⟨s, by omega, rfl⟩, hP⟩
    · rintro ⟨v, ⟨s, hs, rfl⟩, hP⟩; exact ⟨s, by omega, hP⟩
  have c1 := conv (P := fun v => flips H len i j m p v) h1
  have c2 := conv (P := fun v => ¬ flips H len i j m p v) h2
  have c3 := conv (P := fun v => bit H len i m p v = true) h3
  have c4 := conv (P := fun v => bit H len i m p v = false) h4
  have c5 := conv (P := fun v => bit H len i m p (v ^^^ 1#8 <<< j) = true) h5
  have c6 := conv (P := fun v => bit H len i m p (v ^^^ 1#8 <<< j) = false) h6
  simp only [not_not, Bool.not_eq_true, Bool.not_eq_false] at c1 c2 c3 c4 c5 c6
  rw [c1, c2, c3, c4, c5, c6]
  constructor
  · rintro ⟨a, b, c, d, e, f⟩; exact ⟨b, a, d, c, f, e⟩
  · rintro ⟨a, b, c, d, e, f⟩; exact ⟨b, a, d, c, f, e⟩

theorem seen_mono {s t : Nat} (h : s ≤ t) (hs : SeenBy H len i j m s) : SeenBy H len i j m t := by
  intro p hp
  have w : ∀ {P : U8 → Prop}, (∃ v, (∃ r ≤ s, v = trialByte j r) ∧ P v) → ∃ v, (∃ r ≤ t, v = trialByte j r) ∧ P v :=
    fun ⟨v, ⟨r, hr, hv⟩, hP⟩ => ⟨v, ⟨r, by omega, hv⟩, hP⟩
  obtain ⟨a, b, c, d, e, f⟩ := hs p hp
  exact ⟨w a, w b, w c, w d, w e, w f⟩

theorem good_of_seen {t : Nat} (hs : SeenBy H len i j m t) : Good H len i j m := by
  intro p hp
  have w : ∀ {P : U8 → Prop}, (∃ v, (∃ r ≤ t, v = trialByte j r) ∧ P v) → ∃ v, True ∧ P v := fun ⟨v, _, hP⟩ => ⟨v, trivial, hP⟩
  obtain ⟨a, b, c, d, e, f⟩ := hs p hp
  exact ⟨w a, w b, w c, w d, w e, w f⟩

theorem seen_of_good (hj : j < 8) (h : Good H len i j m) : SeenBy H len i j m 255 := by
  intro p hp
  have w : ∀ {P : U8 → Prop}, (∃ v, True ∧ P v) → ∃ v, (∃ r ≤ 255, v = trialByte j r) ∧ P v := fun ⟨v, _, hP⟩ => ⟨v, trialByte_onto j hj v, hP⟩
  obtain ⟨a, b, c, d, e, f⟩ := h p hp
  exact ⟨w a, w b, w c, w d, w e, w f⟩

/-- After all trials the masks are about all values of the byte. -/
theorem M_all (hj : j < 8) (n : Nat) (hn : 256 ≤ n) (p : Nat) (hp : p < 32) :
    ((M H len i j m n).e.getLsbD p = true ↔ ∀ v, flips H len i j m p v) ∧
    ((M H len i j m n).f.getLsbD p = true ↔ ∀ v, ¬ flips H len i j m p v) ∧
    ((M H len i j m n).g.getLsbD p = true ↔ ∀ v, bit H len i m p v = true) ∧
    ((M H len i j m n).h.getLsbD p = true ↔ ∀ v, bit H len i m p v = false) ∧
    (M H len i j m n).x.getLsbD p = (M H len i j m n).g.getLsbD p ∧ (M H len i j m n).y.getLsbD p = (M H len i j m n).h.getLsbD p := by
  have w : ∀ {P : U8 → Prop}, (∀ s < n, P (trialByte j s)) ↔ ∀ v, P v := by
    intro P
    constructor
    · intro h v
      obtain ⟨t, ht, rfl⟩ := trialByte_onto j hj v
      exact h t (by omega)
    · intro h s _; exact h _
  have hx : ∀ {P : U8 → Prop}, (∀ v, P (v ^^^ 1#8 <<< j)) ↔ ∀ v, P v := by
    intro P
    constructor
    · intro h v
      have := h (v ^^^ 1#8 <<< j)
      rwa [BitVec.xor_assoc, BitVec.xor_self, BitVec.xor_zero] at this
    · intro h v; exact h _
  obtain ⟨h1, h2, h3, h4, h5, h6⟩ := M_bits H len i j m n p hp
  rw [w (P := fun v => bit H len i m p v = true)] at h3
  rw [w (P := fun v => bit H len i m p v = false)] at h4
  rw [w (P := fun v => bit H len i m p (v ^^^ 1#8 <<< j) = true), hx (P := fun v => bit H len i m p v = true)] at h5
  rw [w (P := fun v => bit H len i m p (v ^^^ 1#8 <<< j) = false), hx (P := fun v => bit H len i m p v = false)] at h6
  exact ⟨h1.trans (w (P := fun v => flips H len i j m p v)), h2.trans (w (P := fun v => ¬ flips H len i j m p v)), h3, h4, Bool.eq_iff_iff.2 (h5.trans h3.symm), Bool.eq_iff_iff.2 (h6.trans h4.symm)⟩

end

/-! ### The buffers -/

/-- Only the first `len + 1` bytes may differ from zero. -/
def Inv (len : Nat) (a : List U8) : Prop := a.length = 70 ∧ ∀ l, len < l → l < 70 → a[l]? = some 0#8

theorem inv_mono {len len' : Nat} (h : len ≤ len') {a : List U8} (ha : Inv len a) : Inv len' a := ⟨ha.1, fun l h1 h2 => ha.2 l (by omega) h2⟩

theorem inv_keyWith {len i : Nat} (h : i < len) (v : U8) : Inv len (keyWith i v) := by
  refine ⟨keyWith_length i v, fun l h1 h2 => ?_⟩
  unfold keyWith
  rw [List.getElem?_set_ne (by omega), List.getElem?_replicate, if_pos h2]

theorem zeroing {len : Nat} (hlen : len < 70) {a b : List U8} (ha : Inv len a) (hb : Inv len b) :
    Go.forRange 0 (len + 1) (fun l q => do
      let a ← Go.set q.1 l 0#8
      let b ← Go.set q.2 l 0#8
      return (a, b)) (a, b) = .ok (List.replicate 70 0#8, List.replicate 70 0#8) := by
  obtain ⟨s, h1, h2, h3⟩ := Lemmas.Smhasher.forRange_inv
    (body := fun l (q : List U8 × List U8) => (do
      let a ← Go.set q.1 l 0#8
      let b ← Go.set q.2 l 0#8
      return (a, b) : Go (List U8 × List U8)))
    (fun n q => (q.1.length = 70 ∧ ∀ l < 70, (l < n ∨ len < l) → q.1[l]? = some 0#8) ∧ (q.2.length = 70 ∧ ∀ l < 70, (l < n ∨ len < l) → q.2[l]? = some 0#8))
    0 (len + 1) (by
      rintro n ⟨a, b⟩ _ hn ⟨⟨a1, a2⟩, b1, b2⟩
      refine ⟨(a.set n 0#8, b.set n 0#8), ?_, ⟨by rw [List.length_set]; exact a1, fun l hl h => ?_⟩, by rw [List.length_set]; exact b1, fun l hl h => ?_⟩
      · dsimp only at a1 b1 ⊢
        rw [set_eq (by omega), Go.bind_ok, set_eq (by omega), Go.bind_ok]; rfl
      · dsimp only at a1 a2 ⊢
        rcases Nat.lt_trichotomy l n with h' | rfl | h'
        · rw [List.getElem?_set_ne (by omega)]; exact a2 l hl (Or.inl h')
        · rw [List.getElem?_set_self (by omega)]
        · rw [List.getElem?_set_ne (by omega)]; exact a2 l hl (Or.inr (by omega))
      · dsimp only at b1 b2 ⊢
        rcases Nat.lt_trichotomy l n with h' | rfl | h'
        · rw [List.getElem?_set_ne (by omega)]; exact b2 l hl (Or.inl h')
        · rw [List.getElem?_set_self (by omega)]
        · rw [List.getElem?_set_ne (by omega)]; exact b2 l hl (Or.inr (by omega)))
    (a, b) ⟨⟨ha.1, fun l hl h => ha.2 l (by omega) hl⟩, hb.1, fun l hl h => hb.2 l (by omega) hl⟩
  rw [h1]
  have hz : ∀ {c : List U8}, c.length = 70 → (∀ l < 70, (l < 0 + (len + 1) ∨ len < l) → c[l]? = some 0#8) → c = List.replicate 70 0#8 := by
    intro c h1 h2
    apply List.ext_getElem?
    intro l
    rw [List.getElem?_replicate]
    split
    · next h => exact h2 l h (by omega)
    · next h => exact List.getElem?_eq_none (by omega)
  obtain ⟨sa, sb⟩ := s
  dsimp only at h2 h3
  rw [hz h2.1 h2.2, hz h3.1 h3.2]

theorem xorBits_eq {i : Nat} (hi : i < 70) (k j : Nat) :
    xorBits (List.replicate 70 0#8) i k j = .ok (keyWith i ((BitVec.ofNat 32 k <<< j).setWidth 8 ^^^ (BitVec.ofNat 32 k >>> (8 - j)).setWidth 8)) := by
  unfold xorBits
  have hl : (List.replicate 70 (0#8 : U8)).length = 70 := List.length_replicate
  rw [Go.idx_eq (by omega), Go.bind_ok, List.getElem_replicate, set_eq (by omega), Go.bind_ok, Go.idx_eq (by rw [List.length_set]; omega), Go.bind_ok,
    set_eq (by rw [List.length_set]; omega), List.getElem_set_self, List.set_set, BitVec.zero_xor]
  rfl

section
variable {hash : List U8 → Int → U32 → Go U32} {H : List U8 → Nat → Nat → U32}

variable (hh : Returns hash H)
include hh

theorem trial_eq {len i j m : Nat} (hlen : len < 70) (hi : i < len) (hj : j < 8) (hm : m < 8) (t : Nat) {a b : List U8} (ha : Inv len a) (hb : Inv len b) (v : Masks) :
    trial hash len i j m (2 * t) a b v = .ok (keyWith i (trialByte j t), keyWith i (trialByte j t ^^^ 1#8 <<< j),
      v.step (H (keyWith i (trialByte j t)) len m) (H (keyWith i (trialByte j t ^^^ 1#8 <<< j)) len m)) := by
  unfold trial
  rw [zeroing hlen ha hb, Go.bind_ok]
  dsimp only
  rw [xorBits_eq (by omega), Go.bind_ok, ← trialByte_eq j t hj, hh _ _ _ (keyWith_length _ _) (by omega) hlen hm, Go.bind_ok, xorBits_eq (by omega), Go.bind_ok,
    trialByte_succ j t hj, hh _ _ _ (keyWith_length _ _) (by omega) hlen hm, Go.bind_ok]
  rfl

theorem trialLoop_eq {len i j m : Nat} (hlen : len < 70) (hi : i < len) (hj : j < 8) (hm : m < 8) (left : Nat) : ∀ (n : Nat) (a b : List U8), Inv len a → Inv len b →
    ∃ a' b' k v, trialLoop hash len i j m left (2 * n) (a, b, M H len i j m n) = .ok (k, a', b', v) ∧ Inv len a' ∧ Inv len b' ∧
      ((∃ t, n ≤ t ∧ t < n + left ∧ k = 2 * t ∧ v = M H len i j m (t + 1) ∧ SeenBy H len i j m t ∧ ∀ s, n ≤ s → s < t → ¬ SeenBy H len i j m s) ∨
       (k = 2 * (n + left) ∧ v = M H len i j m (n + left) ∧ ∀ s, n ≤ s → s < n + left → ¬ SeenBy H len i j m s)) := by
  induction left with
  | zero => intro n a b ha hb; exact ⟨a, b, _, _, rfl, ha, hb, Or.inr ⟨rfl, rfl, fun s h1 h2 => by omega⟩⟩
  | succ left ih =>
    intro n a b ha hb
    unfold trialLoop
    rw [trial_eq hh hlen hi hj hm n ha hb, Go.bind_ok]
    dsimp only
    have hM : (M H len i j m n).step (H (keyWith i (trialByte j n)) len m) (H (keyWith i (trialByte j n ^^^ 1#8 <<< j)) len m) = M H len i j m (n + 1) := rfl
    rw [hM]
    by_cases hf : (M H len i j m (n + 1)).finished = true
    · rw [if_pos hf]
      exact ⟨_, _, _, _, rfl, inv_keyWith hi _, inv_keyWith hi _, Or.inl ⟨n, Nat.le_refl _, by omega, rfl, rfl, (finished_seen ..).1 hf, fun s h1 h2 => by omega⟩⟩
    · rw [if_neg hf, show 2 * n + 2 = 2 * (n + 1) by omega]
      have hns : ¬ SeenBy H len i j m n := fun h => hf ((finished_seen ..).2 h)
      obtain ⟨a', b', k, v, h1, h2, h3, h4⟩ := ih (n + 1) _ _ (inv_keyWith hi (trialByte j n)) (inv_keyWith hi (trialByte j n ^^^ 1#8 <<< j))
      refine ⟨a', b', k, v, h1, h2, h3, ?_⟩
      have hstep : ∀ {u}, (∀ s, n + 1 ≤ s → s < u → ¬ SeenBy H len i j m s) → ∀ s, n ≤ s → s < u → ¬ SeenBy H len i j m s := by
        intro u h s hs1 hs2
        rcases Nat.eq_or_lt_of_le hs1 with rfl | h'
        · exact hns
        · exact h s (by omega) hs2
      rcases h4 with ⟨t, c1, c2, c3, c4, c5, c6⟩ | ⟨c1, c2, c3⟩
      · exact Or.inl ⟨t, by omega, by omega, c3, c4, c5, hstep c6⟩
      · rw [show n + 1 + left = n + (left + 1) by omega] at c1 c2 c3
        exact Or.inr ⟨c1, c2, hstep c3⟩

/-! ### The loops over input bits and seeds -/

/-- After the combinations `L`, all good. -/
def Going (H : List U8 → Nat → Nat → U32) (len : Nat) (ls : List Line) (L : List (Nat × Nat × Nat)) (s : D2) : Prop :=
  Inv len s.a ∧ Inv len s.b ∧ s.lines = ls ∧ ∃ T, s.z = 2 * T ∧ T ≤ 255 ∧ (∀ c ∈ L, SeenBy H len c.1 c.2.1 c.2.2 T) ∧
    (T = 0 ∨ ∃ c ∈ L, ∀ t < T, ¬ SeenBy H len c.1 c.2.1 c.2.2 t)

/-- Stopped at `c`, all of `L` before it good. -/
def Stopped (H : List U8 → Nat → Nat → U32) (len : Nat) (ls : List Line) (L : List (Nat × Nat × Nat)) (c : Nat × Nat × Nat) (s : D2) : Prop :=
  Inv len s.a ∧ Inv len s.b ∧ s.z = MAXPAIR ∧ (∀ c ∈ L, Good H len c.1 c.2.1 c.2.2) ∧ ¬ Good H len c.1 c.2.1 c.2.2 ∧
    s.lines = ls ++ [.fail (M H len c.1 c.2.1 c.2.2 3011) c.1 c.2.1 c.2.2 len]

omit hh in
theorem going_good {H : List U8 → Nat → Nat → U32} {len : Nat} {ls : List Line} {L : List (Nat × Nat × Nat)} {s : D2} (h : Going H len ls L s) :
    ∀ c ∈ L, Good H len c.1 c.2.1 c.2.2 := by
  obtain ⟨_, _, _, T, _, _, h, _⟩ := h
  exact fun c hc => good_of_seen _ _ _ _ _ (h c hc)

theorem mBody_eq {len i j m : Nat} (hlen : len < 70) (hi : i < len) (hj : j < 8) (hm : m < 8) {ls : List Line} {L : List (Nat × Nat × Nat)} {s : D2}
    (hs : Going H len ls L s) : ∃ s', s'.m = m ∧ ((mBody hash len i j m s = .ok (s', false) ∧ Going H len ls (L ++ [(i, j, m)]) s') ∨
      (mBody hash len i j m s = .ok (s', true) ∧ Stopped H len ls L (i, j, m) s')) := by
  obtain ⟨ha, hb, hl, T, hz, hT, hseen, hleast⟩ := hs
  obtain ⟨a', b', k, v, h1, h2, h3, h4⟩ := trialLoop_eq hh hlen hi hj hm 3011 0 s.a s.b ha hb
  have h1' : trialLoop hash len i j m (MAXPAIR / 2) 0 (s.a, s.b, .init) = .ok (k, a', b', v) := h1
  unfold mBody
  rw [h1', Go.bind_ok]
  dsimp only
  rcases h4 with ⟨t, _, _, c3, c4, c5, c6⟩ | ⟨c1, c2, c3⟩
  · have ht : t ≤ 255 := by
      by_contra h
      exact c6 255 (by omega) (by omega) (seen_of_good _ _ _ _ _ hj (good_of_seen _ _ _ _ _ c5))
    have hk : k ≠ MAXPAIR := by unfold MAXPAIR; omega
    rw [if_neg hk]
    have hz' : (if k > s.z then k else s.z) ≠ MAXPAIR := by unfold MAXPAIR; split <;> omega
    refine ⟨⟨a', b', if k > s.z then k else s.z, m, s.lines⟩, rfl, Or.inl ⟨?_, h2, h3, hl, ?_⟩⟩
    · have : (decide ((if k > s.z then k else s.z) = MAXPAIR)) = false := decide_eq_false hz'
      rw [this]; rfl
    · by_cases hkz : k > s.z
      · refine ⟨t, by rw [if_pos hkz, c3], ht, ?_, Or.inr ⟨(i, j, m), by simp, fun r hr => c6 r (by omega) hr⟩⟩
        intro c hc
        rcases List.mem_append.1 hc with hc | hc
        · exact seen_mono _ _ _ _ _ (by omega) (hseen c hc)
        · rw [List.mem_singleton.1 hc]; exact c5
      · refine ⟨T, by rw [if_neg hkz, hz], hT, ?_, ?_⟩
        · intro c hc
          rcases List.mem_append.1 hc with hc | hc
          · exact hseen c hc
          · rw [List.mem_singleton.1 hc]; exact seen_mono _ _ _ _ _ (by omega) c5
        · rcases hleast with h | ⟨c, hc, h⟩
          · exact Or.inl h
          · exact Or.inr ⟨c, List.mem_append_left _ hc, h⟩
  · have hk : k = MAXPAIR := by unfold MAXPAIR; omega
    have hkz : k > s.z := by unfold MAXPAIR at hk; omega
    rw [if_pos hk, if_pos hkz]
    refine ⟨⟨a', b', k, m, s.lines ++ [.fail v i j m len]⟩, rfl, Or.inr ⟨?_, h2, h3, hk, fun c hc => good_of_seen _ _ _ _ _ (hseen c hc), ?_, ?_⟩⟩
    · have : (decide (k = MAXPAIR)) = true := decide_eq_true hk
      rw [this]; rfl
    · intro hg
      exact c3 255 (by omega) (by omega) (seen_of_good _ _ _ _ _ hj hg)
    · rw [hl, c2]

/-- The combinations of one input bit. -/
def overM (i j : Nat) (m left : Nat) : List (Nat × Nat × Nat) := (List.range' m left).map fun m => (i, j, m)

theorem mLoop_eq {len i j : Nat} (hlen : len < 70) (hi : i < len) (hj : j < 8) {ls : List Line} (left : Nat) : ∀ {m : Nat} {L : List (Nat × Nat × Nat)} {s : D2},
    m + left ≤ 8 → Going H len ls L s → ∃ s', (mLoop hash len i j left m s = .ok (s', false) ∧ s'.m = m + left ∧ Going H len ls (L ++ overM i j m left) s') ∨
      (mLoop hash len i j left m s = .ok (s', true) ∧ ∃ pre c post, overM i j m left = pre ++ c :: post ∧ Stopped H len ls (L ++ pre) c s') := by
  induction left with
  | zero =>
    intro m L s _ hs
    refine ⟨{ s with m := m }, Or.inl ⟨rfl, rfl, ?_⟩⟩
    rw [show overM i j m 0 = [] from rfl, List.append_nil]
    exact hs
  | succ left ih =>
    intro m L s hm hs
    have hc : overM i j m (left + 1) = (i, j, m) :: overM i j (m + 1) left := by unfold overM; rw [List.range'_succ, List.map_cons]
    obtain ⟨s1, h1, ⟨h2, h3⟩ | ⟨h2, h3⟩⟩ := mBody_eq hh hlen hi hj (show m < 8 by omega) hs
    · unfold mLoop
      rw [h2, Go.bind_ok]
      dsimp only
      obtain ⟨s2, ⟨h4, h5, h6⟩ | ⟨h4, pre, c, post, h5, h6⟩⟩ := ih (m := m + 1) (by omega) h3
      · refine ⟨s2, Or.inl ⟨?_, by omega, ?_⟩⟩
        · rw [if_neg (by decide)]; exact h4
        · rw [hc, List.append_cons]; exact h6
      · refine ⟨s2, Or.inr ⟨?_, (i, j, m) :: pre, c, post, by rw [hc, h5]; rfl, ?_⟩⟩
        · rw [if_neg (by decide)]; exact h4
        · rw [List.append_cons]; exact h6
    · unfold mLoop
      rw [h2, Go.bind_ok]
      exact ⟨s1, Or.inr ⟨rfl, [], (i, j, m), _, hc, by rw [List.append_nil]; exact h3⟩⟩

/-- The combinations of one input byte. -/
def overJ (i : Nat) (j left : Nat) : List (Nat × Nat × Nat) := (List.range' j left).flatMap fun j => overM i j 1 7

theorem jLoop_eq {len i : Nat} (hlen : len < 70) (hi : i < len) {ls : List Line} (left : Nat) : ∀ {j : Nat} {L : List (Nat × Nat × Nat)} {s : D2},
    j + left ≤ 8 → Going H len ls L s → ∃ s', (jLoop hash len i left j s = .ok (s', false) ∧ (0 < left → s'.m = 8) ∧ Going H len ls (L ++ overJ i j left) s') ∨
      (jLoop hash len i left j s = .ok (s', true) ∧ ∃ pre c post, overJ i j left = pre ++ c :: post ∧ Stopped H len ls (L ++ pre) c s') := by
  induction left with
  | zero =>
    intro j L s _ hs
    refine ⟨s, Or.inl ⟨rfl, fun h => absurd h (by omega), ?_⟩⟩
    rw [show overJ i j 0 = [] from rfl, List.append_nil]
    exact hs
  | succ left ih =>
    intro j L s hj hs
    have hc : overJ i j (left + 1) = overM i j 1 7 ++ overJ i (j + 1) left := by unfold overJ; rw [List.range'_succ, List.flatMap_cons]
    obtain ⟨s1, ⟨h1, h2, h3⟩ | ⟨h1, pre, c, post, h2, h3⟩⟩ := mLoop_eq hh hlen hi (show j < 8 by omega) 7 (m := 1) (by omega) hs
    · unfold jLoop
      rw [h1, Go.bind_ok]
      dsimp only
      rw [if_neg (by decide)]
      obtain ⟨s2, ⟨h4, h5, h6⟩ | ⟨h4, pre, c, post, h5, h6⟩⟩ := ih (j := j + 1) (by omega) h3
      · refine ⟨s2, Or.inl ⟨h4, fun _ => ?_, ?_⟩⟩
        · cases left with
          | zero =>
            have : jLoop hash len i 0 (j + 1) s1 = .ok (s1, false) := rfl
            rw [this] at h4
            have h4 := Except.ok.inj h4
            have h4 : s1 = s2 := congrArg Prod.fst h4
            rw [← h4]
            exact h2
          | succ left => exact h5 (by omega)
        · rw [hc, ← List.append_assoc]; exact h6
      · refine ⟨s2, Or.inr ⟨h4, overM i j 1 7 ++ pre, c, post, by rw [hc, h5, List.append_assoc], ?_⟩⟩
        rw [← List.append_assoc]; exact h6
    · unfold jLoop
      rw [h1, Go.bind_ok]
      exact ⟨s1, Or.inr ⟨rfl, pre, c, post ++ overJ i (j + 1) left, by rw [hc, h2, List.append_assoc]; rfl, h3⟩⟩

/-- The combinations of the input bytes from `i` on. -/
def overI (i left : Nat) : List (Nat × Nat × Nat) := (List.range' i left).flatMap fun i => overJ i 0 8

theorem iLoop_eq {len : Nat} (hlen : len < 70) {ls : List Line} (left : Nat) : ∀ {i : Nat} {L : List (Nat × Nat × Nat)} {s : D2},
    i + left ≤ len → Going H len ls L s → (∃ s', iLoop hash len left i s = .ok (s', i + left) ∧ (if 0 < left then s'.m = 8 else s'.m = s.m) ∧ Going H len ls (L ++ overI i left) s') ∨
      ∃ s' i', iLoop hash len left i s = .ok (s', i') ∧ ∃ pre c post, overI i left = pre ++ c :: post ∧ Stopped H len ls (L ++ pre) c s' := by
  induction left with
  | zero =>
    intro i L s _ hs
    refine Or.inl ⟨s, rfl, by rw [if_neg (by omega)], ?_⟩
    rw [show overI i 0 = [] from rfl, List.append_nil]
    exact hs
  | succ left ih =>
    intro i L s hi hs
    have hc : overI i (left + 1) = overJ i 0 8 ++ overI (i + 1) left := by unfold overI; rw [List.range'_succ, List.flatMap_cons]
    obtain ⟨s1, ⟨h1, h2, h3⟩ | ⟨h1, pre, c, post, h2, h3⟩⟩ := jLoop_eq hh hlen (show i < len by omega) 8 (j := 0) (by omega) hs
    · unfold iLoop
      rw [h1, Go.bind_ok]
      dsimp only
      rw [if_neg (by decide)]
      rcases ih (i := i + 1) (by omega) h3 with ⟨s2, h4, h5, h6⟩ | ⟨s2, i', h4, pre, c, post, h5, h6⟩
      · refine Or.inl ⟨s2, by rw [h4, show i + 1 + left = i + (left + 1) by omega], ?_, ?_⟩
        · rw [if_pos (by omega)]
          split at h5
          · exact h5
          · rw [h5]; exact h2 (by omega)
        · rw [hc, ← List.append_assoc]; exact h6
      · refine Or.inr ⟨s2, i', h4, overJ i 0 8 ++ pre, c, post, by rw [hc, h5, List.append_assoc], ?_⟩
        rw [← List.append_assoc]; exact h6
    · unfold iLoop
      rw [h1, Go.bind_ok]
      exact Or.inr ⟨s1, i, rfl, pre, c, post ++ overI (i + 1) left, by rw [hc, h2, List.append_assoc]; rfl, h3⟩

end

/-! ### Order -/

theorem mem_overI (len : Nat) (c : Nat × Nat × Nat) : c ∈ overI 0 len ↔ Tested len c := by
  obtain ⟨i, j, m⟩ := c
  simp only [overI, overJ, overM, List.mem_flatMap, List.mem_map, List.mem_range'_1, Tested, Prod.mk.injEq]
  constructor
  · rintro ⟨i', hi, j', hj, m', hm, rfl, rfl, rfl⟩
    exact ⟨by omega, by omega, by omega, by omega⟩
  · rintro ⟨h1, h2, h3, h4⟩
    exact ⟨i, by omega, j, by omega, m, by omega, rfl, rfl, rfl⟩

theorem pairwise_flatMap_range' {f : Nat → List (Nat × Nat × Nat)} {R : Nat × Nat × Nat → Nat × Nat × Nat → Prop} (h1 : ∀ i, (f i).Pairwise R)
    (h2 : ∀ i i', i < i' → ∀ a ∈ f i, ∀ b ∈ f i', R a b) (lo n : Nat) : ((List.range' lo n).flatMap f).Pairwise R := by
  induction n generalizing lo with
  | zero => exact List.Pairwise.nil
  | succ n ih =>
    rw [List.range'_succ, List.flatMap_cons, List.pairwise_append]
    refine ⟨h1 lo, ih (lo + 1), fun a ha b hb => ?_⟩
    obtain ⟨i', hi', hb⟩ := List.mem_flatMap.1 hb
    rw [List.mem_range'_1] at hi'
    exact h2 lo i' (by omega) a ha b hb

theorem overI_ordered (len : Nat) : (overI 0 len).Pairwise before := by
  refine pairwise_flatMap_range' (fun i => pairwise_flatMap_range' (fun j => ?_) ?_ 0 8) ?_ 0 len
  · unfold overM
    rw [List.pairwise_map]
    refine List.Pairwise.imp ?_ (List.pairwise_lt_range' (s := 1) (n := 7) (step := 1))
    intro a b h
    exact Or.inr ⟨rfl, Or.inr ⟨rfl, h⟩⟩
  · intro j j' h a ha b hb
    obtain ⟨m, _, rfl⟩ := List.mem_map.1 ha
    obtain ⟨m', _, rfl⟩ := List.mem_map.1 hb
    exact Or.inr ⟨rfl, Or.inl h⟩
  · intro i i' h a ha b hb
    obtain ⟨j, _, ha⟩ := List.mem_flatMap.1 ha
    obtain ⟨m, _, rfl⟩ := List.mem_map.1 ha
    obtain ⟨j', _, hb⟩ := List.mem_flatMap.1 hb
    obtain ⟨m', _, rfl⟩ := List.mem_map.1 hb
    exact Or.inl h

theorem before_asymm {a b : Nat × Nat × Nat} (h : before a b) (h' : before b a ∨ a = b) : False := by
  unfold before at h h'
  rcases h' with h' | rfl <;> omega

theorem mem_pre {len : Nat} {pre post : List (Nat × Nat × Nat)} {c c' : Nat × Nat × Nat} (h : overI 0 len = pre ++ c :: post) (ht : Tested len c') (hb : before c' c) : c' ∈ pre := by
  have hm := (mem_overI len c').2 ht
  have ho := overI_ordered len
  rw [h] at hm ho
  rw [List.pairwise_append, List.pairwise_cons] at ho
  rcases List.mem_append.1 hm with hm | hm
  · exact hm
  · exfalso
    rcases List.mem_cons.1 hm with rfl | hm
    · exact before_asymm hb (Or.inr rfl)
    · exact before_asymm hb (Or.inl (ho.2.1.1 c' hm))

end Verif.Lemmas.JenkinsExample
