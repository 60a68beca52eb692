import Verif.Lemmas.JenkinsTail
import Mathlib.Data.Finite.Prod

namespace Verif.Lemmas.Jenkins
open Verif Verif.Model.Jenkins
open Verif.Spec.Jenkins (word T step2 step2alt mixStep finalStep R L heads lastOf addBlock)

/-! ### Mixers against their specification -/

def toT (s : S3 w) : T w := (s.a, s.b, s.c)
def toT1 (s : S3 w) : T w := (s.b, s.c, s.a)
def toT2 (s : S3 w) : T w := (s.c, s.a, s.b)

theorem step2_a (s : S3 w) (n : Nat) : step2 (toT s) (R n) = toT1 (aR n s) := rfl
theorem step2_b (s : S3 w) (n : Nat) : step2 (toT1 s) (L n) = toT2 (bL n s) := rfl
theorem step2_c (s : S3 w) (n : Nat) : step2 (toT2 s) (R n) = toT (cR n s) := rfl
theorem step2alt_a (s : S3 w) (n : Nat) : step2alt (toT s) (R n) = toT1 (aA n s) := rfl
theorem step2alt_b (s : S3 w) (n : Nat) : step2alt (toT1 s) (L n) = toT2 (bA n s) := rfl
theorem step2alt_c (s : S3 w) (n : Nat) : step2alt (toT2 s) (R n) = toT (cA n s) := rfl

theorem mix32_spec (s : S3 32) : Spec.Jenkins.mix32 (toT s) = toT (mix32 s) := by
  simp only [Spec.Jenkins.mix32, List.foldl_cons, List.foldl_nil, step2_a, step2_b, step2_c, mix32]

theorem mix64_spec (s : S3 64) : Spec.Jenkins.mix64 (toT s) = toT (mix64 s) := by
  simp only [Spec.Jenkins.mix64, List.foldl_cons, List.foldl_nil, step2_a, step2_b, step2_c, mix64]

theorem mix64alt_spec (s : S3 64) : Spec.Jenkins.mix64alt (toT s) = toT (mix64alt s) := by
  simp only [Spec.Jenkins.mix64alt, List.foldl_cons, List.foldl_nil, step2alt_a, step2alt_b, step2alt_c, mix64alt]

theorem rot_eq (x : U32) {n : Nat} (h : n < 32) : x.rotateLeft n = rot x n := (rotl_eq x h).symm

theorem mixStep_a (s : S3 32) (n : Nat) (h : n < 32) : mixStep (toT s) n = toT1 (ma n s) := by
  rw [mixStep, toT, rot_eq _ h]; rfl
theorem mixStep_b (s : S3 32) (n : Nat) (h : n < 32) : mixStep (toT1 s) n = toT2 (mb n s) := by
  rw [mixStep, toT1, rot_eq _ h]; rfl
theorem mixStep_c (s : S3 32) (n : Nat) (h : n < 32) : mixStep (toT2 s) n = toT (mc n s) := by
  rw [mixStep, toT2, rot_eq _ h]; rfl
theorem finalStep_a (s : S3 32) (n : Nat) (h : n < 32) : finalStep (toT s) n = toT1 (fa n s) := by
  rw [finalStep, toT, rot_eq _ h]; rfl
theorem finalStep_b (s : S3 32) (n : Nat) (h : n < 32) : finalStep (toT1 s) n = toT2 (fb n s) := by
  rw [finalStep, toT1, rot_eq _ h]; rfl
theorem finalStep_c (s : S3 32) (n : Nat) (h : n < 32) : finalStep (toT2 s) n = toT (fc n s) := by
  rw [finalStep, toT2, rot_eq _ h]; rfl

theorem mix_spec (s : S3 32) : Spec.Jenkins.mix (toT s) = toT (mix2 (mix1 s)) := by
  simp only [Spec.Jenkins.mix, List.foldl_cons, List.foldl_nil, mixStep_a, mixStep_b, mixStep_c, mix1, mix2, Nat.reduceLT]

theorem final_spec (s : S3 32) : Spec.Jenkins.final (toT s) = toT (final2 (final1 s)) := by
  have e : Spec.Jenkins.final (toT s) = [14, 11, 25, 16, 4, 14, 24].foldl finalStep (toT2 s) := rfl
  rw [e]
  simp only [List.foldl_cons, List.foldl_nil, finalStep_a, finalStep_b, finalStep_c, final1, final2, Nat.reduceLT]

/-! ### Injectivity -/

theorem sub_left_inj'' {w : Nat} {x y : BitVec w} (c : BitVec w) (e : x - c = y - c) : x = y := by
  have := congrArg (· + c) e
  simpa [BitVec.sub_add_cancel] using this

open Function

theorem aR_inj (n : Nat) : Injective (aR (w := w) n) := by
  rintro ⟨a, b, c⟩ ⟨a', b', c'⟩ e
  simp only [aR, S3.mk.injEq] at e ⊢
  obtain ⟨e, rfl, rfl⟩ := e
  exact ⟨sub_left_inj'' _ (sub_left_inj'' _ (xor_right_inj' _ e)), rfl, rfl⟩
theorem bL_inj (n : Nat) : Injective (bL (w := w) n) := by
  rintro ⟨a, b, c⟩ ⟨a', b', c'⟩ e
  simp only [bL, S3.mk.injEq] at e ⊢
  obtain ⟨rfl, e, rfl⟩ := e
  exact ⟨rfl, sub_left_inj'' _ (sub_left_inj'' _ (xor_right_inj' _ e)), rfl⟩
theorem cR_inj (n : Nat) : Injective (cR (w := w) n) := by
  rintro ⟨a, b, c⟩ ⟨a', b', c'⟩ e
  simp only [cR, S3.mk.injEq] at e ⊢
  obtain ⟨rfl, rfl, e⟩ := e
  exact ⟨rfl, rfl, sub_left_inj'' _ (sub_left_inj'' _ (xor_right_inj' _ e))⟩
theorem aA_inj (n : Nat) : Injective (aA (w := w) n) := by
  rintro ⟨a, b, c⟩ ⟨a', b', c'⟩ e
  simp only [aA, S3.mk.injEq] at e ⊢
  obtain ⟨e, rfl, rfl⟩ := e
  exact ⟨sub_left_inj'' _ e, rfl, rfl⟩
theorem bA_inj (n : Nat) : Injective (bA (w := w) n) := by
  rintro ⟨a, b, c⟩ ⟨a', b', c'⟩ e
  simp only [bA, S3.mk.injEq] at e ⊢
  obtain ⟨rfl, e, rfl⟩ := e
  exact ⟨rfl, sub_left_inj'' _ e, rfl⟩
theorem cA_inj (n : Nat) : Injective (cA (w := w) n) := by
  rintro ⟨a, b, c⟩ ⟨a', b', c'⟩ e
  simp only [cA, S3.mk.injEq] at e ⊢
  obtain ⟨rfl, rfl, e⟩ := e
  exact ⟨rfl, rfl, sub_left_inj'' _ e⟩
theorem ma_inj (n : Nat) : Injective (ma n) := by
  rintro ⟨a, b, c⟩ ⟨a', b', c'⟩ e
  simp only [ma, S3.mk.injEq] at e ⊢
  obtain ⟨e, rfl, e2⟩ := e
  obtain rfl := add_right_inj' _ e2
  exact ⟨sub_left_inj'' _ (xor_right_inj' _ e), rfl, rfl⟩
theorem mb_inj (n : Nat) : Injective (mb n) := by
  rintro ⟨a, b, c⟩ ⟨a', b', c'⟩ e
  simp only [mb, S3.mk.injEq] at e ⊢
  obtain ⟨e2, e, rfl⟩ := e
  obtain rfl := add_right_inj' _ e2
  exact ⟨rfl, sub_left_inj'' _ (xor_right_inj' _ e), rfl⟩
theorem mc_inj (n : Nat) : Injective (mc n) := by
  rintro ⟨a, b, c⟩ ⟨a', b', c'⟩ e
  simp only [mc, S3.mk.injEq] at e ⊢
  obtain ⟨rfl, e2, e⟩ := e
  obtain rfl := add_right_inj' _ e2
  exact ⟨rfl, rfl, sub_left_inj'' _ (xor_right_inj' _ e)⟩
theorem fa_inj (n : Nat) : Injective (fa n) := by
  rintro ⟨a, b, c⟩ ⟨a', b', c'⟩ e
  simp only [fa, S3.mk.injEq] at e ⊢
  obtain ⟨e, rfl, rfl⟩ := e
  exact ⟨xor_right_inj' _ (sub_left_inj'' _ e), rfl, rfl⟩
theorem fb_inj (n : Nat) : Injective (fb n) := by
  rintro ⟨a, b, c⟩ ⟨a', b', c'⟩ e
  simp only [fb, S3.mk.injEq] at e ⊢
  obtain ⟨rfl, e, rfl⟩ := e
  exact ⟨rfl, xor_right_inj' _ (sub_left_inj'' _ e), rfl⟩
theorem fc_inj (n : Nat) : Injective (fc n) := by
  rintro ⟨a, b, c⟩ ⟨a', b', c'⟩ e
  simp only [fc, S3.mk.injEq] at e ⊢
  obtain ⟨rfl, rfl, e⟩ := e
  exact ⟨rfl, rfl, xor_right_inj' _ (sub_left_inj'' _ e)⟩

instance : Finite (S3 w) :=
  Finite.of_injective (fun s : S3 w => (s.a, s.b, s.c)) (by
    rintro ⟨a, b, c⟩ ⟨a', b', c'⟩ e
    simpa using e)

theorem inj_comp {α : Type} {f g : α → α} (hf : Injective f) (hg : Injective g) : Injective (fun x => f (g x)) :=
  hf.comp hg

theorem mix32_inj : Injective mix32 := fun _ _ e =>
  aR_inj _ (bL_inj _ (cR_inj _ (aR_inj _ (bL_inj _ (cR_inj _ (aR_inj _ (bL_inj _ (cR_inj _ e))))))))
theorem mix64_inj : Injective mix64 := fun _ _ e =>
  aR_inj _ (bL_inj _ (cR_inj _ (aR_inj _ (bL_inj _ (cR_inj _ (aR_inj _ (bL_inj _ (cR_inj _
    (aR_inj _ (bL_inj _ (cR_inj _ e)))))))))))
theorem mix64alt_inj : Injective mix64alt := fun _ _ e =>
  aA_inj _ (bA_inj _ (cA_inj _ (aA_inj _ (bA_inj _ (cA_inj _ (aA_inj _ (bA_inj _ (cA_inj _
    (aA_inj _ (bA_inj _ (cA_inj _ e)))))))))))
theorem mix1_inj : Injective mix1 := fun _ _ e => ma_inj _ (mb_inj _ (mc_inj _ e))
theorem mix2_inj : Injective mix2 := fun _ _ e => ma_inj _ (mb_inj _ (mc_inj _ e))
theorem final1_inj : Injective final1 := fun _ _ e => fc_inj _ (fa_inj _ (fb_inj _ (fc_inj _ e)))
theorem final2_inj : Injective final2 := fun _ _ e => fa_inj _ (fb_inj _ (fc_inj _ e))

/-! ### A loop that consumes blocks of a prefix -/

theorem while_take {n : Nat} (hn : 0 < n) {cond : σ × List α × Nat × τ → Bool}
    {body : σ × List α × Nat × τ → Go (σ × List α × Nat × τ)} {f : σ → List α → σ} {g : τ → τ}
    (I : List α → Nat → τ → Prop)
    (hc : ∀ s k l x, cond (s, k, l, x) = decide (n ≤ l))
    (hb : ∀ s k l x, I k l x → n ≤ l → l ≤ k.length → body (s, k, l, x) = .ok (f s (k.take n), k.drop n, l - n, g x))
    (hI : ∀ k l x, I k l x → n ≤ l → l ≤ k.length → I (k.drop n) (l - n) (g x))
    (fuel : Nat) (s : σ) (k : List α) (l : Nat) (x : τ) (hx : I k l x) (hl : l ≤ k.length) (hf : l / n ≤ fuel) :
    ∃ x', Go.while_ fuel cond body (s, k, l, x) =
      .ok ((blocks n (k.take l)).foldl f s, k.drop (l / n * n), l % n, x') ∧ I (k.drop (l / n * n)) (l % n) x' := by
  induction fuel generalizing s k l x with
  | zero =>
    have h : l < n := by
      rcases Nat.lt_or_ge l n with h | h
      · exact h
      · have := Nat.div_pos h hn; omega
    refine ⟨x, ?_, ?_⟩
    · rw [Go.while_, hc, decide_eq_false (by omega), blocks_of_lt (by simp; omega), Nat.div_eq_of_lt h,
        Nat.mod_eq_of_lt h]; simp
    · rw [Nat.div_eq_of_lt h, Nat.mod_eq_of_lt h]; simpa using hx
  | succ m ih =>
    by_cases h : n ≤ l
    · have e : l / n = (l - n) / n + 1 := by
        rw [← Nat.sub_add_cancel h, Nat.add_div_right _ hn]; simp
      obtain ⟨x', e1, i1⟩ := ih (f s (k.take n)) (k.drop n) (l - n) (g x) (hI k l x hx h hl) (by simp; omega) (by omega)
      have e3 : l % n = (l - n) % n := (Nat.mod_eq_sub_mod h)
      have e4 : (k.drop n).drop ((l - n) / n * n) = k.drop (l / n * n) := by
        rw [List.drop_drop, e, Nat.add_mul, Nat.one_mul, Nat.add_comm]
      rw [e4, ← e3] at e1 i1
      refine ⟨x', ?_, i1⟩
      rw [Go.while_, hc, decide_eq_true h, hb s k l x hx h hl]
      show Go.while_ m cond body _ = _
      rw [e1, blocks_of_le hn (by simp; omega : n ≤ (k.take l).length), List.foldl_cons, List.take_take,
        Nat.min_eq_left h, List.drop_take]
    · have h : l < n := by omega
      refine ⟨x, ?_, ?_⟩
      · rw [Go.while_, hc, decide_eq_false (by omega), blocks_of_lt (by simp; omega), Nat.div_eq_of_lt h,
          Nat.mod_eq_of_lt h]; simp
      · rw [Nat.div_eq_of_lt h, Nat.mod_eq_of_lt h]; simpa using hx

theorem tailOf_take {k : List α} {l n : Nat} (hl : l ≤ k.length) :
    tailOf n (k.take l) = (k.drop (l / n * n)).take (l % n) := by
  rw [tailOf, List.length_take, Nat.min_eq_left hl, List.drop_take]
  congr 1
  have := Nat.div_add_mod l n
  rw [Nat.mul_comm] at this
  omega

theorem tdt {t : List α} {l d m : Nat} (h : d + m ≤ l) : ((t.take l).drop d).take m = (t.drop d).take m := by
  rw [List.drop_take, List.take_take, Nat.min_eq_left (by omega)]

theorem idx_take {t : List α} {l i : Nat} (h : i < l) : Go.idx (t.take l) i = Go.idx t i := by
  rw [Go.idx, Go.idx, List.getElem?_take_of_lt h]

/-- A step of the `Hash232` specification in terms of the model's state. -/
def f232 (s : S3 32) (p : List U8) : S3 32 :=
  mix32 ⟨s.a + word 32 (p.take 4), s.b + word 32 ((p.drop 4).take 4), s.c + word 32 ((p.drop 8).take 4)⟩

def f264 (s : S3 64) (p : List U8) : S3 64 :=
  mix64alt ⟨s.a + word 64 (p.take 8), s.b + word 64 ((p.drop 8).take 8), s.c + word 64 ((p.drop 16).take 8)⟩

theorem toT_foldl {w : Nat} {f : S3 w → List U8 → S3 w} {g : T w → List U8 → T w}
    (h : ∀ s p, toT (f s p) = g (toT s) p) (l : List (List U8)) (s : S3 w) :
    toT (l.foldl f s) = l.foldl g (toT s) := by
  induction l generalizing s with
  | nil => rfl
  | cons p l ih => rw [List.foldl_cons, List.foldl_cons, ih, h]

end Verif.Lemmas.Jenkins
