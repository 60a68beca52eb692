import Mathlib.Logic.Function.Basic
import Mathlib.Data.Fintype.EquivFin
import Mathlib.Data.Fintype.Pi
import Verif.Lemmas.Bits

/-!
# Straight-line add/xor/rotate code

SpookyHash's mixers and the unrolled Threefish ciphers of /repo are long lists of assignments to a fixed set
of `uint64` locals. They are modelled as lists of instructions with the obvious meaning, one instruction per
assignment. Nothing in this file models a particular file of /repo.
-/

namespace Verif.Arx

/-- A right-hand-side operand: a local, a read-only parameter word (message word, key word, tweak word) or a
literal. -/
inductive Operand (n : Nat) where
  | reg (i : Fin n)
  | par (i : Nat)
  | lit (v : Nat)
  deriving DecidableEq, Repr

/-- One assignment.
* `add d xs` is `d += x1 + x2 + ...`, `sub d xs` is `d -= x1 + x2 + ...`
* `xor d s` is `d ^= s`
* `rotl d k` is `d = (d << k) | (d >> (64 - k))`, `rotr d k` is `d = (d >> k) | (d << (64 - k))`. -/
inductive Instr (n : Nat) where
  | add (d : Fin n) (xs : List (Operand n))
  | sub (d : Fin n) (xs : List (Operand n))
  | xor (d s : Fin n)
  | rotl (d : Fin n) (k : Nat)
  | rotr (d : Fin n) (k : Nat)
  deriving DecidableEq, Repr

/-- The `n` locals. -/
abbrev Regs (n : Nat) := Fin n → U64

def Operand.val (par : Nat → U64) (s : Regs n) : Operand n → U64
  | .reg i => s i
  | .par i => par i
  | .lit v => BitVec.ofNat 64 v

def total (par : Nat → U64) (s : Regs n) (xs : List (Operand n)) : U64 :=
  xs.foldr (fun x acc => x.val par s + acc) 0#64

def Instr.eval (par : Nat → U64) (s : Regs n) : Instr n → Regs n
  | .add d xs => Function.update s d (s d + total par s xs)
  | .sub d xs => Function.update s d (s d - total par s xs)
  | .xor d r => Function.update s d (s d ^^^ s r)
  | .rotl d k => Function.update s d (s d <<< k ||| s d >>> (64 - k))
  | .rotr d k => Function.update s d (s d >>> k ||| s d <<< (64 - k))

/-- Execute the assignments in order. -/
def run (par : Nat → U64) (s : Regs n) (p : List (Instr n)) : Regs n := p.foldl (Instr.eval par) s

/-! ## Reversing straight-line code -/

def Operand.avoids (d : Fin n) : Operand n → Bool
  | .reg i => i != d
  | _ => true

/-- The assigned variable does not occur on the right, and rotation amounts are below 64. -/
def Instr.wf : Instr n → Bool
  | .add d xs => xs.all (Operand.avoids d)
  | .sub d xs => xs.all (Operand.avoids d)
  | .xor d r => d != r
  | .rotl _ k => decide (k < 64)
  | .rotr _ k => decide (k < 64)

def Instr.inv : Instr n → Instr n
  | .add d xs => .sub d xs
  | .sub d xs => .add d xs
  | .xor d r => .xor d r
  | .rotl d k => .rotr d k
  | .rotr d k => .rotl d k

def inverse (p : List (Instr n)) : List (Instr n) := (p.map Instr.inv).reverse

theorem total_update (par : Nat → U64) (s : Regs n) (d : Fin n) (v : U64) (xs : List (Operand n)) (h : xs.all (Operand.avoids d)) :
    total par (Function.update s d v) xs = total par s xs := by
  induction xs with
  | nil => rfl
  | cons x xs ih =>
    simp only [List.all_cons, Bool.and_eq_true] at h
    have e : x.val par (Function.update s d v) = x.val par s := by
      cases x with
      | reg i =>
        have hi : i ≠ d := by simpa [Operand.avoids] using h.1
        simp only [Operand.val, Function.update_of_ne hi]
      | par i => rfl
      | lit v => rfl
    have ih' := ih h.2
    simp only [total, List.foldr_cons, e] at ih' ⊢
    rw [ih']

theorem Instr.inv_wf (i : Instr n) (h : i.wf) : i.inv.wf := by
  cases i <;> simpa [Instr.wf, Instr.inv] using h

theorem Instr.inv_inv (i : Instr n) : i.inv.inv = i := by cases i <;> rfl

theorem Instr.eval_inv (par : Nat → U64) (i : Instr n) (h : i.wf) (s : Regs n) : i.inv.eval par (i.eval par s) = s := by
  cases i with
  | add d xs =>
    simp only [Instr.eval, Instr.inv, total_update par s d _ xs h, Function.update_self, Function.update_idem, BitVec.add_sub_cancel,
      Function.update_eq_self]
  | sub d xs =>
    simp only [Instr.eval, Instr.inv, total_update par s d _ xs h, Function.update_self, Function.update_idem, BitVec.sub_add_cancel,
      Function.update_eq_self]
  | xor d r =>
    have hr : d ≠ r := by simpa [Instr.wf] using h
    simp only [Instr.eval, Instr.inv, Function.update_self, Function.update_of_ne (Ne.symm hr), Function.update_idem, BitVec.xor_assoc, BitVec.xor_self,
      BitVec.xor_zero, Function.update_eq_self]
  | rotl d k =>
    have hk : k < 64 := by simpa [Instr.wf] using h
    simp only [Instr.eval, Instr.inv, Function.update_self, Function.update_idem]
    rw [rotl_eq _ hk, rotr_eq _ hk, rotateRight_rotateLeft _ hk, Function.update_eq_self]
  | rotr d k =>
    have hk : k < 64 := by simpa [Instr.wf] using h
    simp only [Instr.eval, Instr.inv, Function.update_self, Function.update_idem]
    rw [rotr_eq _ hk, rotl_eq _ hk, rotateLeft_rotateRight _ hk, Function.update_eq_self]

theorem run_append (par : Nat → U64) (s : Regs n) (p q : List (Instr n)) : run par s (p ++ q) = run par (run par s p) q := by
  simp only [run, List.foldl_append]

theorem inverse_inverse (p : List (Instr n)) : inverse (inverse p) = p := by
  have : (Instr.inv ∘ Instr.inv : Instr n → Instr n) = id := by funext i; exact i.inv_inv
  simp [inverse, this]

/-- Code whose assignments are all reversible is undone by the reversed code. -/
theorem run_inverse (par : Nat → U64) (p : List (Instr n)) (h : ∀ i ∈ p, i.wf) (s : Regs n) :
    run par (run par s p) (inverse p) = s := by
  induction p generalizing s with
  | nil => rfl
  | cons i p ih =>
    have e : inverse (i :: p) = inverse p ++ [i.inv] := by simp [inverse]
    rw [e, run_append]
    show i.inv.eval par (run par (run par (i.eval par s) p) (inverse p)) = s
    rw [ih (fun j hj => h j (List.mem_cons_of_mem _ hj)), i.eval_inv par (h i List.mem_cons_self)]

theorem inverse_wf (p : List (Instr n)) (h : ∀ i ∈ p, i.wf) : ∀ i ∈ inverse p, i.wf := by
  intro i hi
  simp only [inverse, List.mem_reverse, List.mem_map] at hi
  obtain ⟨j, hj, rfl⟩ := hi
  exact j.inv_wf (h j hj)

theorem run_inverse' (par : Nat → U64) (p : List (Instr n)) (h : ∀ i ∈ p, i.wf) (s : Regs n) :
    run par (run par s (inverse p)) p = s := by
  have := run_inverse par (inverse p) (inverse_wf p h) s
  rwa [inverse_inverse] at this

theorem run_bijective (par : Nat → U64) (p : List (Instr n)) (h : ∀ i ∈ p, i.wf) :
    Function.Bijective fun s => run par s p :=
  Function.bijective_iff_has_inverse.2 ⟨fun s => run par s (inverse p), run_inverse par p h, run_inverse' par p h⟩

theorem run_flatMap (par : Nat → U64) (s : Regs n) (g : α → List (Instr n)) (l : List α) :
    run par s (l.flatMap g) = l.foldl (fun s a => run par s (g a)) s := by
  induction l generalizing s with
  | nil => rfl
  | cons a l ih => rw [List.flatMap_cons, run_append, ih]; rfl

end Verif.Arx
