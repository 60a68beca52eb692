import Verif.Model.KeccakCAny
import Verif.Lemmas.KeccakCBuild3
import Verif.Lemmas.KeccakCHash

/-!
# The C sponge in any build behaves like the one of /repo: a simulation
-/

namespace Verif.Lemmas.KeccakCAny
open Verif Verif.Model.KeccakC Verif.Lemmas.KeccakC
open Verif.Spec.Keccak (State keccakf xorInto bytes)

/-- Two computations with the same outcome, up to `R` on the values. -/
def Both {α β : Type} (R : α → β → Prop) : Go α → Go β → Prop
  | .ok a, .ok b => R a b
  | .error e, .error f => e = f
  | _, _ => False

theorem Both.bind {α β γ δ : Type} {R : α → β → Prop} {S : γ → δ → Prop} {x : Go α} {y : Go β} {f : α → Go γ} {g : β → Go δ} (h : Both R x y) (hf : ∀ a b, R a b → Both S (f a) (g b)) :
    Both S (x >>= f) (y >>= g) := by
  cases x with
  | ok a => cases y with
    | ok b => exact hf a b h
    | error e => exact h.elim
  | error e => cases y with
    | ok b => exact h.elim
    | error e => exact h

theorem Both.refl {α : Type} (x : Go α) : Both Eq x x := by cases x <;> rfl

theorem Both.eq {α : Type} {x y : Go α} (h : Both Eq x y) : x = y := by
  cases x <;> cases y <;> first | exact h.elim | exact congrArg _ h

theorem Both.forRange {σ τ : Type} {R : σ → τ → Prop} {f : Nat → σ → Go σ} {g : Nat → τ → Go τ} (h : ∀ i a b, R a b → Both R (f i a) (g i b)) (n : Nat) :
    ∀ lo a b, R a b → Both R (Go.forRange lo n f a) (Go.forRange lo n g b) := by
  induction n with
  | zero => intro lo a b r; exact r
  | succ n ih => intro lo a b r; exact Both.bind (h lo a b r) (ih (lo + 1))

theorem Both.while {σ τ : Type} {R : σ → τ → Prop} {c : σ → Bool} {d : τ → Bool} {f : σ → Go σ} {g : τ → Go τ} (hc : ∀ a b, R a b → c a = d b) (h : ∀ a b, R a b → Both R (f a) (g b)) (n : Nat) :
    ∀ a b, R a b → Both R (Go.while_ n c f a) (Go.while_ n d g b) := by
  induction n with
  | zero =>
    intro a b r
    unfold Go.while_
    rw [hc a b r]
    split
    · rfl
    · exact r
  | succ n ih =>
    intro a b r
    unfold Go.while_
    rw [hc a b r]
    split
    · exact Both.bind (h a b r) ih
    · exact r

/-- A conditional before a common continuation. -/
theorem Both.branch {α β γ δ : Type} {R : α → β → Prop} {S : γ → δ → Prop} {c : Prop} [Decidable c] {x x' : Go α} {y y' : Go β} {f : α → Go γ} {g : β → Go δ}
    (h1 : c → Both R x y) (h2 : ¬ c → Both R x' y') (hf : ∀ a b, R a b → Both S (f a) (g b)) : Both S (if c then x >>= f else x' >>= f) (if c then y >>= g else y' >>= g) := by
  by_cases h : c
  · rw [if_pos h, if_pos h]; exact Both.bind (h1 h) hf
  · rw [if_neg h, if_neg h]; exact Both.bind (h2 h) hf

variable {X : Compiled}

/-- The memory `st` of a build with (`c`) or without complemented lanes and the memory `st'` of /repo's build stand for the same state. -/
def Same (c : Bool) (st st' : List U64) : Prop := st.length = 25 ∧ st'.length = 25 ∧ lanesV c st = lanesC st'

/-- An initialised object and its counterpart. -/
def Rel (X : Compiled) (s t : Sponge) : Prop :=
  ∃ st, t = { s with state := st } ∧ Same X.build.complement s.state st ∧ ∃ n, s.rate.toNat = 64 * n ∧ 0 < n ∧ n ≤ 24

theorem forRange_fail {σ : Type} {f : Nat → σ → Go σ} {e : Fault} (hf : ∀ i a, (∃ b, f i a = .ok b) ∨ f i a = .error e) (n : Nat) :
    ∀ lo a, (∃ i, lo ≤ i ∧ i < lo + n ∧ ∀ a, f i a = .error e) → Go.forRange lo n f a = .error e := by
  induction n with
  | zero => rintro lo a ⟨i, h1, h2, -⟩; omega
  | succ n ih =>
    rintro lo a ⟨i, h1, h2, h3⟩
    unfold Go.forRange
    rcases hf lo a with ⟨b, hb⟩ | hb
    · rw [hb]
      by_cases hi : i = lo
      · rw [← hi, h3] at hb; exact nomatch hb
      · exact ih (lo + 1) b ⟨i, by omega, by omega, h3⟩
    · rw [hb]; rfl

theorem load_none {d : List U8} {i : Nat} (h : d.length ≤ i) : load d i = .error .unsafeOOB := by
  unfold load
  rw [List.getElem?_eq_none h]

theorem fromBytes_short {d : List U8} (h : ¬ 8 ≤ d.length) : fromBytesToWord d = .error .unsafeOOB := by
  unfold fromBytesToWord
  refine forRange_fail (e := .unsafeOOB) (fun i a => ?_) 8 0 _ ⟨7, by omega, by omega, fun a => ?_⟩
  · by_cases hi : d.length ≤ i
    · rw [load_none hi]; exact Or.inr rfl
    · unfold load
      rw [List.getElem?_eq_getElem (by omega)]
      exact Or.inl ⟨_, rfl⟩
  · rw [load_none (by omega)]; rfl

theorem input_short (b : Build) (data : List U8) (n : Nat) (h : ¬ 8 * n ≤ data.length) : b.input data n = .error .unsafeOOB := by
  unfold Build.input
  split
  · refine forRange_fail (e := .unsafeOOB) (fun i a => ?_) n 0 _ ⟨n - 1, by omega, by omega, fun a => ?_⟩
    · by_cases hi : 8 ≤ (data.drop (i * 8)).length
      · rw [fromBytes_eq hi]; exact Or.inl ⟨_, rfl⟩
      · rw [fromBytes_short hi]; exact Or.inr rfl
    · rw [fromBytes_short (by rw [List.length_drop]; omega)]; rfl
  · unfold inputWords
    rw [if_neg (by omega)]

theorem lanes_div {rate : U32} {n : Nat} (hr : rate.toNat = 64 * n) : (rate / 64#32).toNat = n := by
  rw [BitVec.toNat_udiv, hr]
  show 64 * n / 64 = n
  omega

theorem reference_short {n : Nat} {rate : U32} (hr : rate.toNat = 64 * n) (st : List U64) (data : List U8) (off : Nat) (h : ¬ off + 8 * n ≤ data.length) :
    absorbBlock rate st data off = .error .unsafeOOB := by
  have hi : inputWords data off n = .error .unsafeOOB := by unfold inputWords; rw [if_neg h]
  unfold absorbBlock
  have e9 := ofNat_rate (k := 9) hr (by decide)
  have e13 := ofNat_rate (k := 13) hr (by decide)
  have e16 := ofNat_rate (k := 16) hr (by decide)
  have e17 := ofNat_rate (k := 17) hr (by decide)
  have e18 := ofNat_rate (k := 18) hr (by decide)
  have e21 := ofNat_rate (k := 21) hr (by decide)
  simp only [Nat.reduceMul] at e9 e13 e16 e17 e18 e21
  simp only [e9, e13, e16, e17, e18, e21, lanes_div hr]
  by_cases h9 : n = 9
  · subst h9; rw [if_pos rfl, KeccakAbsorb576bits, hi]; rfl
  rw [if_neg h9]
  by_cases h13 : n = 13
  · subst h13; rw [if_pos rfl, KeccakAbsorb832bits, hi]; rfl
  rw [if_neg h13]
  by_cases h16 : n = 16
  · subst h16; rw [if_pos rfl, KeccakAbsorb1024bits, hi]; rfl
  rw [if_neg h16]
  by_cases h17 : n = 17
  · subst h17; rw [if_pos rfl, KeccakAbsorb1088bits, hi]; rfl
  rw [if_neg h17]
  by_cases h18 : n = 18
  · subst h18; rw [if_pos rfl, KeccakAbsorb1152bits, hi]; rfl
  rw [if_neg h18]
  by_cases h21 : n = 21
  · subst h21; rw [if_pos rfl, KeccakAbsorb1344bits, hi]; rfl
  rw [if_neg h21, KeccakAbsorb, hi]; rfl

theorem fast_same {n : Nat} (h0 : 0 < n) (hn : n ∈ Spec.KeccakBuild.fastSizes) (st : List U64) (data : List U8) (off : Nat) :
    (off + 8 * n ≤ data.length → ∃ st2, X.fast st data off n = .ok st2 ∧ st2.length = 25 ∧
      lanesV X.build.complement st2 = keccakf 24 (xorInto (lanesV X.build.complement st) ((data.drop off).take (8 * n)))) ∧
    (¬ off + 8 * n ≤ data.length → X.fast st data off n = .error .unsafeOOB) := by
  unfold Compiled.fast Build.fast
  refine ⟨fun h => ?_, fun h => ?_⟩
  · have hl : 8 * n ≤ (data.drop off).length := by rw [List.length_drop]; omega
    obtain ⟨w, hw, hi⟩ := input_ok X.build _ n hl
    have hp := permuteXor_okV X.build X.unrolling (X.junk st) n hn st w (d := (data.drop off).take (8 * n)) (by rw [List.length_take]; omega) hi
    exact ⟨_, by rw [hw, Go.bind_ok, Go.pure_ok], hp.1, hp.2⟩
  · rw [input_short X.build _ n (by rw [List.length_drop]; omega)]; rfl

theorem slow_same {n : Nat} (h0 : 0 < n) (hn : n ≤ 25) (st : List U64) (hs : st.length = 25) (data : List U8) (off : Nat) :
    (off + 8 * n ≤ data.length → ∃ st2, X.build.absorb X.unrolling (X.junk st) st (data.drop off) n = .ok st2 ∧ st2.length = 25 ∧
      lanesV X.build.complement st2 = keccakf 24 (xorInto (lanesV X.build.complement st) ((data.drop off).take (8 * n)))) ∧
    (¬ off + 8 * n ≤ data.length → X.build.absorb X.unrolling (X.junk st) st (data.drop off) n = .error .unsafeOOB) := by
  unfold Build.absorb
  refine ⟨fun h => ?_, fun h => ?_⟩
  · have hl : 8 * n ≤ (data.drop off).length := by rw [List.length_drop]; omega
    obtain ⟨w, hw, hi⟩ := input_ok X.build _ n hl
    obtain ⟨-, h3⟩ := xor_fold w n st hs hn
    have hp := permute_okV X.build X.unrolling (X.junk st) ((List.range n).foldl (fun s k => s.set k (word s k ^^^ word w k)) st)
    refine ⟨_, by rw [hw, Go.bind_ok, Go.pure_ok], hp.1, ?_⟩
    rw [hp.2, xor_blockV (n := n) (b := (data.drop off).take (8 * n)) (by rw [List.length_take]; omega) hi h3]
  · rw [input_short X.build _ n (by rw [List.length_drop]; omega)]; rfl

theorem any_block {n : Nat} {rate : U32} (hr : rate.toNat = 64 * n) (h0 : 0 < n) (hn : n ≤ 25) (st : List U64) (hs : st.length = 25) (data : List U8) (off : Nat) :
    (off + 8 * n ≤ data.length → ∃ st2, X.absorbBlock rate st data off = .ok st2 ∧ st2.length = 25 ∧
      lanesV X.build.complement st2 = keccakf 24 (xorInto (lanesV X.build.complement st) ((data.drop off).take (8 * n)))) ∧
    (¬ off + 8 * n ≤ data.length → X.absorbBlock rate st data off = .error .unsafeOOB) := by
  unfold Compiled.absorbBlock
  have e9 := ofNat_rate (k := 9) hr (by decide)
  have e13 := ofNat_rate (k := 13) hr (by decide)
  have e16 := ofNat_rate (k := 16) hr (by decide)
  have e17 := ofNat_rate (k := 17) hr (by decide)
  have e18 := ofNat_rate (k := 18) hr (by decide)
  have e21 := ofNat_rate (k := 21) hr (by decide)
  simp only [Nat.reduceMul] at e9 e13 e16 e17 e18 e21
  simp only [e9, e13, e16, e17, e18, e21, lanes_div hr]
  by_cases h9 : X.provideFast 576 = true ∧ n = 9
  · rw [if_pos h9]; obtain ⟨-, rfl⟩ := h9; exact fast_same (by decide) (by decide) st data off
  rw [if_neg h9]
  by_cases h13 : X.provideFast 832 = true ∧ n = 13
  · rw [if_pos h13]; obtain ⟨-, rfl⟩ := h13; exact fast_same (by decide) (by decide) st data off
  rw [if_neg h13]
  by_cases h16 : X.provideFast 1024 = true ∧ n = 16
  · rw [if_pos h16]; obtain ⟨-, rfl⟩ := h16; exact fast_same (by decide) (by decide) st data off
  rw [if_neg h16]
  by_cases h17 : X.provideFast 1088 = true ∧ n = 17
  · rw [if_pos h17]; obtain ⟨-, rfl⟩ := h17; exact fast_same (by decide) (by decide) st data off
  rw [if_neg h17]
  by_cases h18 : X.provideFast 1152 = true ∧ n = 18
  · rw [if_pos h18]; obtain ⟨-, rfl⟩ := h18; exact fast_same (by decide) (by decide) st data off
  rw [if_neg h18]
  by_cases h21 : X.provideFast 1344 = true ∧ n = 21
  · rw [if_pos h21]; obtain ⟨-, rfl⟩ := h21; exact fast_same (by decide) (by decide) st data off
  rw [if_neg h21]
  exact slow_same h0 hn st hs data off

theorem absorbBlock_same {n : Nat} {rate : U32} (hr : rate.toNat = 64 * n) (h0 : 0 < n) (hn : n ≤ 24) (st st' : List U64) (h : Same X.build.complement st st') (data : List U8) (off : Nat) :
    Both (Same X.build.complement) (X.absorbBlock rate st data off) (absorbBlock rate st' data off) := by
  obtain ⟨h1, h2, h3⟩ := h
  obtain ⟨a1, a2⟩ := any_block (X := X) hr h0 (by omega) st h1 data off
  by_cases hl : off + 8 * n ≤ data.length
  · obtain ⟨x, ex, lx, vx⟩ := a1 hl
    obtain ⟨y, ey, ly, vy⟩ := absorbBlock_ok hr (by omega) st' h2 data off hl
    rw [ex, ey]
    exact ⟨lx, ly, by rw [vx, vy, h3]⟩
  · rw [a2 hl, reference_short hr st' data off hl]; rfl

theorem permutation_same {st st' : List U64} (h : Same X.build.complement st st') : Same X.build.complement (X.permutation st) (KeccakPermutation st') := by
  obtain ⟨h1, h2, h3⟩ := h
  have hp := permute_okV X.build X.unrolling (X.junk st) st
  exact ⟨hp.1, permutation_length _, by unfold Compiled.permutation; rw [hp.2, permutation_ok, h3]⟩

theorem init_same : Same X.build.complement X.build.init KeccakInitializeState :=
  ⟨(init_okV X.build).1, rfl, by rw [(init_okV X.build).2, initial_lanes]⟩

theorem extract_same {s t : Sponge} (h : Rel X s t) : Both (Rel X) (X.extract s) (extract t) := by
  obtain ⟨st, rfl, ⟨h1, h2, h3⟩, n, hr, h0, hn⟩ := h
  unfold Compiled.extract extract
  dsimp only
  have e16 := ofNat_rate (k := 16) hr (by decide)
  simp only [Nat.reduceMul] at e16
  rw [extract_okV X.build _ (by rw [lanes_div hr]; omega), extract_generic _ (by rw [lanes_div hr]; omega), extract1024_ok, extract_1024, h3]
  simp only [e16, lanes_div hr]
  by_cases h16 : n = 16
  · rw [if_pos h16]
    subst h16
    have er := e16.2 rfl
    by_cases hp : X.provideFast 1024 = true
    · rw [if_pos ⟨hp, rfl⟩]
      refine Both.bind (Both.refl _) ?_
      rintro q _ rfl
      exact ⟨st, rfl, ⟨h1, h2, h3⟩, 16, hr, h0, hn⟩
    · rw [if_neg (fun h => hp h.1)]
      refine Both.bind (Both.refl _) ?_
      rintro q _ rfl
      exact ⟨st, by rw [er], ⟨h1, h2, h3⟩, 16, hr, h0, hn⟩
  · rw [if_neg h16, if_neg (fun h => h16 h.2)]
    refine Both.bind (Both.refl _) ?_
    rintro q _ rfl
    exact ⟨st, rfl, ⟨h1, h2, h3⟩, n, hr, h0, hn⟩

theorem absorbQueue_same {s t : Sponge} (h : Rel X s t) : Both (Rel X) (X.AbsorbQueue s) (AbsorbQueue t) := by
  obtain ⟨st, rfl, hs, n, hr, h0, hn⟩ := h
  unfold Compiled.AbsorbQueue AbsorbQueue
  refine Both.bind (absorbBlock_same hr h0 hn _ _ hs _ _) ?_
  intro a b hab
  exact ⟨b, rfl, hab, n, hr, h0, hn⟩

theorem absorbBody_same (data : List U8) (dl : U64) (p q : Sponge × U64) (h : Rel X p.1 q.1 ∧ p.2 = q.2) :
    Both (fun p q => Rel X p.1 q.1 ∧ p.2 = q.2) (X.absorbBody data dl p) (absorbBody data dl q) := by
  obtain ⟨s, i⟩ := p
  obtain ⟨t, i'⟩ := q
  obtain ⟨hR, hi⟩ := h
  dsimp only at hR hi
  subst hi
  obtain ⟨st, rfl, hs, n, hr, h0, hn⟩ := hR
  unfold Compiled.absorbBody absorbBody
  dsimp only
  by_cases hc : s.bitsInQueue = 0#32 ∧ dl ≥ u64 s.rate ∧ i ≤ dl - u64 s.rate
  · rw [if_pos hc, if_pos hc]
    refine Both.bind (R := Same X.build.complement) ?_ ?_
    · apply Both.forRange
      · intro j a b hab
        exact absorbBlock_same hr h0 hn a b hab _ _
      · exact hs
    intro a b hab
    exact ⟨⟨b, rfl, hab, n, hr, h0, hn⟩, rfl⟩
  · rw [if_neg hc, if_neg hc]
    generalize (if BitVec.setWidth 32 (dl - i) + s.bitsInQueue > s.rate then s.rate - s.bitsInQueue else BitVec.setWidth 32 (dl - i)) = pb
    refine Both.bind (Both.refl _) ?_
    rintro d _ rfl
    refine Both.branch (R := Rel X) ?_ ?_ ?_
    · exact fun _ => absorbQueue_same ⟨st, rfl, hs, n, hr, h0, hn⟩
    · exact fun _ => ⟨st, rfl, hs, n, hr, h0, hn⟩
    · rintro s' t' ⟨st', rfl, hs', n', hr', h0', hn'⟩
      split
      · refine Both.bind (Both.refl _) ?_
        rintro d _ rfl
        refine Both.bind (Both.refl _) ?_
        rintro _ _ _
        exact ⟨⟨st', rfl, hs', n', hr', h0', hn'⟩, rfl⟩
      · exact ⟨⟨st', rfl, hs', n', hr', h0', hn'⟩, rfl⟩

theorem absorb_same {s t : Sponge} (h : Rel X s t) (data : List U8) (dl : U64) :
    Both (fun p q => Rel X p.1 q.1 ∧ p.2 = q.2) (X.Absorb s data dl) (Absorb t data dl) := by
  have h' := h
  obtain ⟨st, rfl, -⟩ := h
  unfold Compiled.Absorb Absorb absorbLoop
  dsimp only
  split
  · exact ⟨h', rfl⟩
  split
  · exact ⟨h', rfl⟩
  refine Both.bind (Both.while (R := fun p q => Rel X p.1 q.1 ∧ p.2 = q.2) (fun a b r => by rw [r.2]) (absorbBody_same data dl) _ _ _ ⟨h', rfl⟩) ?_
  rintro ⟨a, i⟩ ⟨b, i'⟩ r
  exact ⟨r.1, rfl⟩

theorem pad_same {s t : Sponge} (h : Rel X s t) : Both (Rel X) (X.PadAndSwitchToSqueezingPhase s) (PadAndSwitchToSqueezingPhase t) := by
  obtain ⟨st, rfl, hs, n, hr, h0, hn⟩ := h
  unfold Compiled.PadAndSwitchToSqueezingPhase PadAndSwitchToSqueezingPhase
  extract_lets f g
  have hf : ∀ a b, Rel X a b → Both (Rel X) (f a) (g b) := by
    rintro s' t' ⟨st', rfl, hs', n', hr', h0', hn'⟩
    refine Both.bind (Both.refl _) ?_
    rintro q _ rfl
    refine Both.bind (absorbQueue_same ⟨st', rfl, hs', n', hr', h0', hn'⟩) ?_
    intro s2 t2 h2
    refine Both.bind (extract_same h2) ?_
    rintro s3 t3 ⟨st3, rfl, hs3, n3, hr3, h03, hn3⟩
    exact ⟨st3, rfl, hs3, n3, hr3, h03, hn3⟩
  clear_value f g
  dsimp only
  split
  · refine Both.bind (Both.refl _) ?_
    rintro q _ rfl
    refine Both.bind (absorbQueue_same ⟨st, rfl, hs, n, hr, h0, hn⟩) ?_
    rintro s' t' ⟨st', rfl, hs', n', hr', h0', hn'⟩
    refine Both.bind (Both.refl _) ?_
    rintro q _ rfl
    exact hf _ _ ⟨st', rfl, hs', n', hr', h0', hn'⟩
  · refine Both.bind (Both.refl _) ?_
    rintro q _ rfl
    refine Both.bind (Both.refl _) ?_
    rintro q _ rfl
    exact hf _ _ ⟨st, rfl, hs, n, hr, h0, hn⟩

theorem squeezeBody_same (ol : U64) (p q : Sponge × List U8 × U64) (h : Rel X p.1 q.1 ∧ p.2 = q.2) :
    Both (fun p q => Rel X p.1 q.1 ∧ p.2 = q.2) (X.squeezeBody ol p) (squeezeBody ol q) := by
  obtain ⟨s, o, i⟩ := p
  obtain ⟨t, o', i'⟩ := q
  obtain ⟨hR, hi⟩ := h
  dsimp only at hR hi
  cases hi
  unfold Compiled.squeezeBody squeezeBody
  dsimp only
  have h' := hR
  obtain ⟨st, rfl, hs, n, hr, h0, hn⟩ := hR
  refine Both.branch (R := Rel X) ?_ ?_ ?_
  · exact fun _ => extract_same ⟨_, rfl, permutation_same hs, n, hr, h0, hn⟩
  · exact fun _ => h'
  · rintro s' t' ⟨st', rfl, hs', n', hr', h0', hn'⟩
    refine Both.bind (Both.refl _) ?_
    rintro q _ rfl
    exact ⟨⟨st', rfl, hs', n', hr', h0', hn'⟩, rfl⟩

theorem squeeze_same {s t : Sponge} (h : Rel X s t) (output : List U8) (ol : U64) :
    Both (fun p q => Rel X p.1 q.1 ∧ p.2 = q.2) (X.Squeeze s output ol) (Squeeze t output ol) := by
  unfold Compiled.Squeeze Squeeze
  have h' := h
  obtain ⟨st, rfl, -⟩ := h
  dsimp only
  refine Both.branch (R := Rel X) ?_ ?_ ?_
  · exact fun _ => h'
  · exact fun _ => pad_same h'
  · intro s t h
    split
    · exact ⟨h, rfl⟩
    refine Both.bind (Both.while (R := fun p q => Rel X p.1 q.1 ∧ p.2 = q.2) (fun a b r => by rw [r.2]) (squeezeBody_same ol) _ _ _ ⟨h, rfl⟩) ?_
    rintro ⟨a, o, i⟩ ⟨b, o', i'⟩ ⟨r1, r2⟩
    cases r2
    exact ⟨r1, rfl⟩

theorem update_same {s t : Sponge} (h : Rel X s t) (data : List U8) (dl : U64) :
    Both (fun p q => Rel X p.1 q.1 ∧ p.2 = q.2) (X.Update s data dl) (Update t data dl) := by
  unfold Compiled.Update Update
  split
  · exact absorb_same h data dl
  refine Both.bind (absorb_same h data _) ?_
  rintro ⟨s, r⟩ ⟨t, r'⟩ ⟨h, e⟩
  dsimp only at h e
  subst e
  dsimp only
  split
  · refine Both.bind (Both.refl _) ?_
    rintro b _ rfl
    exact absorb_same h _ _
  · exact ⟨h, rfl⟩

theorem final_same {s t : Sponge} (h : Rel X s t) (output : List U8) :
    Both (fun p q => Rel X p.1 q.1 ∧ p.2 = q.2) (X.Final s output) (Final t output) := by
  unfold Compiled.Final Final
  have h' := h
  obtain ⟨st, rfl, -⟩ := h
  exact squeeze_same h' _ _

theorem valid_rate {rate : U32} (h : ¬ (rate ≤ 0#32 ∨ rate ≥ 1600#32 ∨ rate % 64#32 ≠ 0#32)) : ∃ n, rate.toNat = 64 * n ∧ 0 < n ∧ n ≤ 24 := by
  have h1 : ¬ rate.toNat ≤ 0 := fun e => h (Or.inl (BitVec.le_def.2 e))
  have h2 : ¬ 1600 ≤ rate.toNat := fun e => h (Or.inr (Or.inl (BitVec.le_def.2 e)))
  have h3 : rate.toNat % 64 = 0 := by
    have : rate % 64#32 = 0#32 := by
      by_cases e : rate % 64#32 = 0#32
      · exact e
      · exact absurd (Or.inr (Or.inr e)) h
    have := congrArg BitVec.toNat this
    rw [BitVec.toNat_umod] at this
    exact this
  exact ⟨rate.toNat / 64, by omega, by omega, by omega⟩

theorem initSponge_same {s t : Sponge} (rate capacity : U32) :
    (X.InitSponge s rate capacity).2 = (InitSponge t rate capacity).2 ∧
    ((InitSponge t rate capacity).2 = 0 ∨ Rel X s t → Rel X (X.InitSponge s rate capacity).1 (InitSponge t rate capacity).1) := by
  unfold Compiled.InitSponge InitSponge
  split
  · exact ⟨rfl, fun h => h.resolve_left Nat.one_ne_zero⟩
  split
  · exact ⟨rfl, fun h => h.resolve_left Nat.one_ne_zero⟩
  · rename_i h
    exact ⟨rfl, fun _ => ⟨_, rfl, init_same, valid_rate h⟩⟩

theorem rel_fixed {s t : Sponge} (h : Rel X s t) (f : U32) : Rel X { s with fixedOutputLength := f } { t with fixedOutputLength := f } := by
  obtain ⟨st, rfl, hs, n, hr, h0, hn⟩ := h
  exact ⟨st, rfl, hs, n, hr, h0, hn⟩

theorem init_same' {s t : Sponge} (h : U32) :
    (X.Init s h).2 = (Init t h).2 ∧ ((Init t h).2 = 0 ∨ Rel X s t → Rel X (X.Init s h).1 (Init t h).1) := by
  unfold Compiled.Init Init
  split
  · exact ⟨rfl, fun _ => rel_fixed ((initSponge_same _ _).2 (Or.inl rfl)) _⟩
  split
  · exact ⟨rfl, fun _ => rel_fixed ((initSponge_same _ _).2 (Or.inl rfl)) _⟩
  split
  · exact ⟨rfl, fun _ => rel_fixed ((initSponge_same _ _).2 (Or.inl rfl)) _⟩
  split
  · exact ⟨rfl, fun _ => rel_fixed ((initSponge_same _ _).2 (Or.inl rfl)) _⟩
  split
  · exact ⟨rfl, fun _ => rel_fixed ((initSponge_same _ _).2 (Or.inl rfl)) _⟩
  · exact ⟨rfl, fun h => h.resolve_left (Nat.succ_ne_zero 1)⟩

theorem cstep_same {s t : Sponge} (h : Rel X s t) (op : COp) : Both (fun p q => Rel X p.1 q.1 ∧ p.2 = q.2) (X.cstep s op) (cstep t op) := by
  cases op with
  | initSponge r c => exact ⟨(initSponge_same r c).2 (Or.inr h), by dsimp only; rw [(initSponge_same (X := X) (s := s) (t := t) r c).1]⟩
  | init l => exact ⟨(init_same' l).2 (Or.inr h), by dsimp only; rw [(init_same' (X := X) (s := s) (t := t) l).1]⟩
  | absorb d n => exact Both.bind (absorb_same h d n) fun a b r => ⟨r.1, by rw [r.2]⟩
  | update d n => exact Both.bind (update_same h d n) fun a b r => ⟨r.1, by rw [r.2]⟩
  | squeeze o n => exact Both.bind (squeeze_same h o n) fun a b r => ⟨r.1, by rw [r.2]⟩
  | final o => exact Both.bind (final_same h o) fun a b r => ⟨r.1, by rw [r.2]⟩

theorem crun_same (ops : List COp) : ∀ {s t : Sponge}, Rel X s t → X.crun s ops = crun t ops := by
  induction ops with
  | nil => intro s t _; rfl
  | cons op ops ih =>
    intro s t h
    refine Both.eq (Both.bind (cstep_same h op) ?_)
    intro a b r
    rw [ih r.1, r.2]
    exact Both.refl _

/-- Two hash objects whose C states correspond. -/
def KRel (X : Compiled) (k l : Keccak) : Prop := Rel X k.hashState l.hashState ∧ k.bitlen = l.bitlen

theorem reset_same {k l : Keccak} (h : KRel X k l) : KRel X (X.Reset k) l.Reset := by
  obtain ⟨s, b⟩ := k
  obtain ⟨t, b'⟩ := l
  obtain ⟨h1, h2⟩ := h
  dsimp only at h1 h2
  subst h2
  exact ⟨(init_same' b).2 (Or.inr h1), rfl⟩

theorem write_same {k l : Keccak} (h : KRel X k l) (b : List U8) : Both (fun p q => KRel X p.1 q.1 ∧ p.2 = q.2) (X.Write k b) (l.Write b) := by
  unfold Compiled.Write Keccak.Write
  dsimp only
  split
  · exact ⟨h, rfl⟩
  refine Both.bind (update_same h.1 b _) ?_
  rintro ⟨s, r⟩ ⟨t, r'⟩ ⟨h1, e⟩
  dsimp only at h1 e
  subst e
  dsimp only
  split
  · exact ⟨⟨h1, h.2⟩, rfl⟩
  · exact ⟨⟨h1, h.2⟩, rfl⟩

theorem sum_same {k l : Keccak} (h : KRel X k l) (b : List U8) : Both (fun p q => KRel X p.1 q.1 ∧ p.2 = q.2) (X.Sum k b) (l.Sum b) := by
  unfold Compiled.Sum Keccak.Sum Keccak.Size
  rw [h.2]
  refine Both.bind (final_same h.1 _) ?_
  rintro ⟨s, r⟩ ⟨t, r'⟩ ⟨h1, e⟩
  dsimp only at h1 e
  subst e
  dsimp only
  split
  · rfl
  · exact ⟨h, rfl⟩

theorem run_same (ops : List HOp) : ∀ {k l : Keccak}, KRel X k l → X.hasher.run k ops = hasher.run l ops := by
  induction ops with
  | nil => intro k l _; rfl
  | cons op ops ih =>
    intro k l h
    cases op with
    | write p =>
      refine Both.eq (Both.bind (R := fun p q => KRel X p.1 q.1 ∧ p.2 = q.2) (Both.bind (write_same h p) ?_) ?_)
      · rintro ⟨a, n, e⟩ ⟨b, n', e'⟩ ⟨r1, r2⟩
        cases r2
        exact ⟨r1, rfl⟩
      · rintro ⟨a, n⟩ ⟨b, n'⟩ ⟨r1, r2⟩
        cases r2
        dsimp only
        rw [ih r1]
        exact Both.refl _
    | reset =>
      refine Both.eq (Both.bind (R := KRel X) (x := .ok (X.Reset k)) (y := .ok l.Reset) (reset_same h) ?_)
      intro a b r
      rw [ih r]
      exact Both.refl _
    | sum b =>
      refine Both.eq (Both.bind (sum_same h b) ?_)
      rintro ⟨a, n⟩ ⟨b, n'⟩ ⟨r1, r2⟩
      cases r2
      dsimp only
      rw [ih r1]
      exact Both.refl _
    | value =>
      refine Both.eq (Both.bind (R := fun p q => KRel X p.1 q.1 ∧ p.2 = q.2) (x := .ok (k, [])) (y := .ok (l, [])) ⟨h, rfl⟩ ?_)
      rintro ⟨a, n⟩ ⟨b, n'⟩ ⟨r1, r2⟩
      cases r2
      dsimp only
      rw [ih r1]
      exact Both.refl _

end Verif.Lemmas.KeccakCAny
