import Verif.Lemmas.ArxReorder
import Verif.Spec.Threefish

/-! The round-based definition of Threefish as straight-line code on a fixed set of registers: instead of permuting words,
the code permutes the names of the registers. -/

namespace Verif.Lemmas.Threefish
open Verif Verif.Arx
open Verif.Spec.Threefish (Params subkey rotOf mixAll permOf)

variable {n : Nat}

/-- Steps that each work on registers of their own. -/
theorem foldl_local {α : Type} [DecidableEq α] (f : Regs n → α → Regs n) (owner : Fin n → α)
    (h1 : ∀ s a r, owner r ≠ a → f s a r = s r)
    (h2 : ∀ s s' a r, (∀ r', owner r' = a → s r' = s' r') → owner r = a → f s a r = f s' a r)
    (l : List α) : ∀ (s : Regs n), l.Nodup → ∀ r, l.foldl f s r = if owner r ∈ l then f s (owner r) r else s r := by
  induction l with
  | nil => intro s _ r; simp
  | cons a l ih =>
    intro s hn r
    rw [List.nodup_cons] at hn
    rw [List.foldl_cons, ih (f s a) hn.2 r]
    by_cases ha : owner r = a
    · have : owner r ∉ l := by rw [ha]; exact hn.1
      rw [if_neg this, if_pos (by rw [ha]; exact List.mem_cons_self), ha]
    · rw [h1 s a r ha]
      by_cases hl : owner r ∈ l
      · rw [if_pos hl, if_pos (List.mem_cons_of_mem _ hl)]
        apply h2 _ _ _ _ _ rfl
        intro r' hr'
        apply h1
        rw [hr']
        exact ha
      · rw [if_neg hl, if_neg (by simp [ha, hl])]

/-- Parameters of the code: key words, then the three tweak words. -/
def parOf (n : Nat) (k t : Nat → U64) (i : Nat) : U64 := if i ≤ n then k i else t (i - (n + 1))

def keyOps (n s i : Nat) : List (Operand n) :=
  .par ((s + i) % (n + 1)) ::
    (if i = n - 3 then [.par (n + 1 + s % 3)] else if i = n - 2 then [.par (n + 1 + (s + 1) % 3)] else if i = n - 1 ∧ s ≠ 0 then [.lit s] else [])

/-- Add subkey `s`, when word `i` lives in register `σ i`. -/
def keyProg (s : Nat) (σ : Fin n → Fin n) : List (Instr n) := (List.finRange n).map fun i => .add (σ i) (keyOps n s i.val)

theorem total_keyOps (k t : Nat → U64) (s : Nat) (i : Fin n) (r : Regs n) : total (parOf n k t) r (keyOps n s i.val) = subkey n k t s i := by
  have hk : parOf n k t ((s + i.val) % (n + 1)) = k ((s + i.val) % (n + 1)) := by
    unfold parOf
    rw [if_pos (by have := Nat.mod_lt (s + i.val) (show 0 < n + 1 by omega); omega)]
  have ht : ∀ x, parOf n k t (n + 1 + x) = t x := by
    intro x
    unfold parOf
    rw [if_neg (by omega), show n + 1 + x - (n + 1) = x by omega]
  unfold keyOps subkey
  split
  · simp only [total, List.foldr_cons, List.foldr_nil, Operand.val, hk, ht, BitVec.add_zero]
  · split
    · simp only [total, List.foldr_cons, List.foldr_nil, Operand.val, hk, ht, BitVec.add_zero]
    · split
      · rename_i h
        rw [if_pos h.1]
        simp only [total, List.foldr_cons, List.foldr_nil, Operand.val, hk, BitVec.add_zero]
      · rename_i h
        simp only [total, List.foldr_cons, List.foldr_nil, Operand.val, hk]
        split
        · have : s = 0 := by
            rename_i h'
            by_cases h0 : s = 0
            · exact h0
            · exact absurd ⟨h', h0⟩ h
          rw [this]
        · rfl

theorem keyProg_run (k t : Nat → U64) (s : Nat) (σ : Fin n → Fin n) (hσ : Function.Injective σ) (r : Regs n) :
    run (parOf n k t) r (keyProg s σ) ∘ σ = fun i => r (σ i) + subkey n k t s i := by
  funext i
  have e : ∀ r : Regs n, run (parOf n k t) r (keyProg s σ) = (List.finRange n).foldl (fun r j => Function.update r (σ j) (r (σ j) + subkey n k t s j)) r := by
    intro r
    unfold run keyProg
    rw [List.foldl_map]
    congr 1
    funext r j
    simp only [Instr.eval, total_keyOps]
  have key : ∀ (l : List (Fin n)) (r : Regs n), l.Nodup →
      l.foldl (fun r j => Function.update r (σ j) (r (σ j) + subkey n k t s j)) r (σ i) = if i ∈ l then r (σ i) + subkey n k t s i else r (σ i) := by
    intro l
    induction l with
    | nil => intro r _; simp
    | cons a l ih =>
      intro r hn
      rw [List.nodup_cons] at hn
      rw [List.foldl_cons, ih _ hn.2]
      by_cases ha : i = a
      · subst ha
        rw [if_neg hn.1, if_pos List.mem_cons_self, Function.update_self]
      · have : σ i ≠ σ a := fun e => ha (hσ e)
        rw [Function.update_of_ne this]
        by_cases hl : i ∈ l
        · rw [if_pos hl, if_pos (List.mem_cons_of_mem _ hl)]
        · rw [if_neg hl, if_neg (by simp [ha, hl])]
  show run (parOf n k t) r (keyProg s σ) (σ i) = _
  rw [e, key _ _ (List.nodup_finRange n), if_pos (List.mem_finRange i)]

variable [NeZero n]

/-- MIX on the pair `j`. -/
def mixProg (P : Params n) (d : Nat) (σ : Fin n → Fin n) (j : Nat) : List (Instr n) :=
  [.add (σ (Fin.ofNat n (2 * j))) [.reg (σ (Fin.ofNat n (2 * j + 1)))], .rotl (σ (Fin.ofNat n (2 * j + 1))) (rotOf P d j),
    .xor (σ (Fin.ofNat n (2 * j + 1))) (σ (Fin.ofNat n (2 * j)))]

theorem mixProg_run (P : Params n) (par : Nat → U64) (d : Nat) (σ : Fin n → Fin n) (hσ : Function.Injective σ) (j : Nat) (hj : 2 * j + 1 < n) (hr : rotOf P d j < 64) (r : Regs n) (i : Fin n) :
    run par r (mixProg P d σ j) (σ i) =
      if i.val / 2 = j then
        (if i.val % 2 = 0 then r (σ (Fin.ofNat n (2 * j))) + r (σ (Fin.ofNat n (2 * j + 1)))
          else (r (σ (Fin.ofNat n (2 * j + 1)))).rotateLeft (rotOf P d j) ^^^ (r (σ (Fin.ofNat n (2 * j))) + r (σ (Fin.ofNat n (2 * j + 1)))))
      else r (σ i) := by
  have va : (Fin.ofNat n (2 * j)).val = 2 * j := by rw [Fin.val_ofNat]; exact Nat.mod_eq_of_lt (by omega)
  have vb : (Fin.ofNat n (2 * j + 1)).val = 2 * j + 1 := by rw [Fin.val_ofNat]; exact Nat.mod_eq_of_lt hj
  unfold mixProg
  generalize Fin.ofNat n (2 * j) = a at *
  generalize Fin.ofNat n (2 * j + 1) = b at *
  have hab : σ a ≠ σ b := by intro e; have := congrArg Fin.val (hσ e); omega
  show (Instr.eval par (Instr.eval par (Instr.eval par r (.add (σ a) [.reg (σ b)])) (.rotl (σ b) (rotOf P d j))) (.xor (σ b) (σ a))) (σ i) = _
  simp only [Instr.eval, total, List.foldr_cons, List.foldr_nil, Operand.val, BitVec.add_zero, rotl_eq _ hr]
  by_cases hb : i = b
  · subst hb
    rw [if_pos (by omega), if_neg (by omega), Function.update_self, Function.update_self, Function.update_of_ne hab, Function.update_of_ne (Ne.symm hab), Function.update_self]
  · have hib : σ i ≠ σ b := fun e => hb (hσ e)
    rw [Function.update_of_ne hib, Function.update_of_ne hib]
    by_cases ha : i = a
    · subst ha
      rw [if_pos (by omega), if_pos (by omega), Function.update_self]
    · have hia : σ i ≠ σ a := fun e => ha (hσ e)
      rw [Function.update_of_ne hia, if_neg]
      intro e
      rcases Nat.mod_two_eq_zero_or_one i.val with h | h
      · exact ha (Fin.ext (by omega))
      · exact hb (Fin.ext (by omega))

def mixAllProg (P : Params n) (d : Nat) (σ : Fin n → Fin n) : List (Instr n) := (List.range (n / 2)).flatMap (mixProg P d σ)

theorem mixAll_run (P : Params n) (par : Nat → U64) (d : Nat) (σ : Fin n → Fin n) (hσ : Function.Injective σ) (hn : n % 2 = 0) (hr : ∀ j, rotOf P d j < 64) (r : Regs n) :
    run par r (mixAllProg P d σ) ∘ σ = mixAll P d (r ∘ σ) := by
  funext i
  show run par r (mixAllProg P d σ) (σ i) = _
  unfold mixAllProg
  rw [run_flatMap]
  have key : ∀ (l : List Nat) (r : Regs n), l.Nodup → (∀ j ∈ l, 2 * j + 1 < n) →
      l.foldl (fun r j => run par r (mixProg P d σ j)) r (σ i) = if i.val / 2 ∈ l then mixAll P d (r ∘ σ) i else r (σ i) := by
    intro l
    induction l with
    | nil => intro r _ _; simp
    | cons a l ih =>
      intro r hnd hl
      rw [List.nodup_cons] at hnd
      have hm := mixProg_run P par d σ hσ a (hl a List.mem_cons_self) (hr a)
      rw [List.foldl_cons, ih _ hnd.2 (fun j hj => hl j (List.mem_cons_of_mem _ hj))]
      by_cases ha : i.val / 2 = a
      · have : i.val / 2 ∉ l := by rw [ha]; exact hnd.1
        rw [if_neg this, if_pos (by rw [ha]; exact List.mem_cons_self), hm, if_pos ha]
        unfold mixAll
        simp only [ha, Function.comp]
      · by_cases hi : i.val / 2 ∈ l
        · rw [if_pos hi, if_pos (List.mem_cons_of_mem _ hi)]
          unfold mixAll
          have hlt := hl _ (List.mem_cons_of_mem _ hi)
          have v1 : (Fin.ofNat n (2 * (i.val / 2))).val = 2 * (i.val / 2) := by rw [Fin.val_ofNat]; exact Nat.mod_eq_of_lt (by omega)
          have v2 : (Fin.ofNat n (2 * (i.val / 2) + 1)).val = 2 * (i.val / 2) + 1 := by rw [Fin.val_ofNat]; exact Nat.mod_eq_of_lt hlt
          have w1 : run par r (mixProg P d σ a) (σ (Fin.ofNat n (2 * (i.val / 2)))) = r (σ (Fin.ofNat n (2 * (i.val / 2)))) := by
            rw [hm, if_neg (by rw [v1]; omega)]
          have w2 : run par r (mixProg P d σ a) (σ (Fin.ofNat n (2 * (i.val / 2) + 1))) = r (σ (Fin.ofNat n (2 * (i.val / 2) + 1))) := by
            rw [hm, if_neg (by rw [v2]; omega)]
          simp only [Function.comp, w1, w2]
        · rw [if_neg hi, if_neg (by simp [ha, hi]), hm, if_neg ha]
  have hi := i.isLt
  rw [key _ _ List.nodup_range (by intro j hj; rw [List.mem_range] at hj; omega), if_pos (by rw [List.mem_range]; omega)]

/-- Round `d`. -/
def roundProg (P : Params n) (d : Nat) (σ : Fin n → Fin n) : List (Instr n) :=
  (if d % 4 = 0 then keyProg (d / 4) σ else []) ++ mixAllProg P d σ

theorem roundProg_run (P : Params n) (k t : Nat → U64) (d : Nat) (σ : Fin n → Fin n) (hσ : Function.Injective σ) (hn : n % 2 = 0) (hr : ∀ j, rotOf P d j < 64) (r : Regs n) :
    run (parOf n k t) r (roundProg P d σ) ∘ (σ ∘ permOf P) = Spec.Threefish.round P k t (r ∘ σ) d := by
  rw [← Function.comp_assoc]
  unfold roundProg Spec.Threefish.round
  rw [run_append]
  split
  · rw [mixAll_run P _ d σ hσ hn hr, keyProg_run k t _ σ hσ]
    rfl
  · rw [mixAll_run P _ d σ hσ hn hr]
    rfl

/-- All of Threefish. -/
def prog (P : Params n) : List (Instr n) := (List.range P.rounds).flatMap (fun d => roundProg P d (permOf P)^[d]) ++ keyProg (P.rounds / 4) id

theorem prog_run (P : Params n) (hp : Function.Injective (permOf P)) (hn : n % 2 = 0) (hr : ∀ d j, rotOf P d j < 64) (hid : (permOf P)^[P.rounds] = id) (k t : Nat → U64) (v : Regs n) :
    run (parOf n k t) v (prog P) = Spec.Threefish.encrypt P k t v := by
  have key : ∀ m, run (parOf n k t) v ((List.range m).flatMap (fun d => roundProg P d (permOf P)^[d])) ∘ (permOf P)^[m] = (List.range m).foldl (Spec.Threefish.round P k t) v := by
    intro m
    induction m with
    | zero => rfl
    | succ m ih =>
      rw [List.range_succ, List.flatMap_append, run_append, List.foldl_append, ← ih, Function.iterate_succ, List.flatMap_cons, List.flatMap_nil, List.append_nil]
      exact roundProg_run P k t m _ (hp.iterate m) hn (hr m) _
  have h := key P.rounds
  rw [hid, Function.comp_id] at h
  unfold prog Spec.Threefish.encrypt
  rw [run_append, h]
  exact keyProg_run k t _ id Function.injective_id _

end Verif.Lemmas.Threefish
