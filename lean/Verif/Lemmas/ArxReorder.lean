import Verif.Arx

/-! Straight-line code that differs only in the order of independent assignments and in how sums are grouped. -/

namespace Verif.Arx

/-- Does the operand read register `d`? -/
def Operand.reads (d : Fin n) : Operand n → Bool
  | .reg i => i == d
  | _ => false

def Instr.dest : Instr n → Fin n
  | .add d _ => d
  | .sub d _ => d
  | .xor d _ => d
  | .rotl d _ => d
  | .rotr d _ => d

/-- Does the right-hand side mention register `r` (other than the old value of the destination)? -/
def Instr.reads (r : Fin n) : Instr n → Bool
  | .add _ xs => xs.any (Operand.reads r)
  | .sub _ xs => xs.any (Operand.reads r)
  | .xor _ s => s == r
  | .rotl _ _ => false
  | .rotr _ _ => false

def Instr.isAdd : Instr n → Bool
  | .add d xs => !xs.any (Operand.reads d)
  | _ => false

def Instr.isSub : Instr n → Bool
  | .sub d xs => !xs.any (Operand.reads d)
  | _ => false

/-- The two assignments can be exchanged. -/
def indep (i j : Instr n) : Bool :=
  if i.dest = j.dest then i.isAdd && j.isAdd || i.isSub && j.isSub else !i.reads j.dest && !j.reads i.dest

theorem total_congr {par : Nat → U64} {s s' : Regs n} {xs : List (Operand n)} (h : ∀ r, xs.any (Operand.reads r) = true → s r = s' r) : total par s xs = total par s' xs := by
  induction xs with
  | nil => rfl
  | cons x xs ih =>
    have e : x.val par s = x.val par s' := by
      cases x with
      | reg i => exact h i (by simp [Operand.reads])
      | par i => rfl
      | lit v => rfl
    have ih' := ih (fun r hr => h r (by simp [hr]))
    simp only [total, List.foldr_cons, e] at ih' ⊢
    rw [ih']

theorem total_update' (par : Nat → U64) (s : Regs n) (d : Fin n) (v : U64) (xs : List (Operand n)) (h : xs.any (Operand.reads d) = false) :
    total par (Function.update s d v) xs = total par s xs := by
  apply total_congr
  intro r hr
  have : r ≠ d := by intro e; subst e; rw [h] at hr; exact nomatch hr
  rw [Function.update_of_ne this]

/-- The value an assignment stores depends only on the destination and on the registers it reads. -/
theorem Instr.eval_update (par : Nat → U64) (i : Instr n) (s : Regs n) (d : Fin n) (v : U64) (hd : i.dest ≠ d) (h : i.reads d = false) :
    i.eval par (Function.update s d v) = Function.update (i.eval par s) d v := by
  cases i with
  | add e xs =>
    simp only [Instr.eval, Instr.dest, Instr.reads] at *
    rw [total_update' par s d v xs h, Function.update_of_ne hd, Function.update_comm hd]
  | sub e xs =>
    simp only [Instr.eval, Instr.dest, Instr.reads] at *
    rw [total_update' par s d v xs h, Function.update_of_ne hd, Function.update_comm hd]
  | xor e r =>
    simp only [Instr.eval, Instr.dest, Instr.reads] at *
    have : r ≠ d := by intro e; subst e; simp at h
    rw [Function.update_of_ne hd, Function.update_of_ne this, Function.update_comm hd]
  | rotl e k =>
    simp only [Instr.eval, Instr.dest] at *
    rw [Function.update_of_ne hd, Function.update_comm hd]
  | rotr e k =>
    simp only [Instr.eval, Instr.dest] at *
    rw [Function.update_of_ne hd, Function.update_comm hd]

theorem Instr.eval_eq_update (par : Nat → U64) (i : Instr n) (s : Regs n) : i.eval par s = Function.update s i.dest (i.eval par s i.dest) := by
  cases i <;> simp [Instr.eval, Instr.dest]

theorem indep_comm (par : Nat → U64) {i j : Instr n} (h : indep i j = true) (s : Regs n) : j.eval par (i.eval par s) = i.eval par (j.eval par s) := by
  unfold indep at h
  split at h
  · rename_i hd
    rw [Bool.or_eq_true, Bool.and_eq_true, Bool.and_eq_true] at h
    rcases h with ⟨h1, h2⟩ | ⟨h1, h2⟩
    · cases i with
      | add d xs =>
        cases j with
        | add d' ys =>
          simp only [Instr.dest] at hd
          subst hd
          simp only [Instr.isAdd, Bool.not_eq_true'] at h1 h2
          simp only [Instr.eval]
          rw [total_update' par s d _ ys h2, total_update' par s d _ xs h1, Function.update_self, Function.update_self, Function.update_idem, Function.update_idem,
            BitVec.add_assoc, BitVec.add_comm (total par s xs), ← BitVec.add_assoc]
        | _ => exact nomatch h2
      | _ => exact nomatch h1
    · cases i with
      | sub d xs =>
        cases j with
        | sub d' ys =>
          simp only [Instr.dest] at hd
          subst hd
          simp only [Instr.isSub, Bool.not_eq_true'] at h1 h2
          simp only [Instr.eval]
          rw [total_update' par s d _ ys h2, total_update' par s d _ xs h1, Function.update_self, Function.update_self, Function.update_idem, Function.update_idem]
          congr 1
          simp only [BitVec.sub_eq_add_neg]
          rw [BitVec.add_assoc, BitVec.add_comm (-total par s xs), ← BitVec.add_assoc]
        | _ => exact nomatch h2
      | _ => exact nomatch h1
  · rename_i hd
    rw [Bool.and_eq_true, Bool.not_eq_true', Bool.not_eq_true'] at h
    rw [i.eval_eq_update par s, j.eval_update par s _ _ (Ne.symm hd) h.2, j.eval_eq_update par s]
    rw [i.eval_update par s _ _ hd h.1, i.eval_eq_update par s]
    simp only [Function.update_self]
    rw [Function.update_comm (Ne.symm hd)]

/-- Remove the first occurrence of `i`, if everything before it can be exchanged with it. -/
def pull (i : Instr n) : List (Instr n) → Option (List (Instr n))
  | [] => none
  | j :: q => if i = j then some q else if indep j i then (pull i q).map (j :: ·) else none

/-- `q` is `p` up to exchanging independent neighbours. -/
def reorder : List (Instr n) → List (Instr n) → Bool
  | [], [] => true
  | [], _ :: _ => false
  | i :: p, q =>
    match pull i q with
    | some q' => reorder p q'
    | none => false

theorem pull_run (par : Nat → U64) (i : Instr n) (q : List (Instr n)) : ∀ (q' : List (Instr n)) (s : Regs n), pull i q = some q' → run par s q = run par (i.eval par s) q' := by
  induction q with
  | nil => intro q' s h; exact nomatch h
  | cons j q ih =>
    intro q' s h
    unfold pull at h
    split at h
    · rename_i e
      subst e
      injection h with h
      subst h
      rfl
    · split at h
      · rename_i hi
        cases hp : pull i q with
        | none => rw [hp] at h; exact nomatch h
        | some q1 =>
          rw [hp] at h
          simp only [Option.map_some, Option.some.injEq] at h
          subst h
          show run par (j.eval par s) q = run par (j.eval par (i.eval par s)) q1
          rw [ih q1 _ hp, indep_comm par hi]
      · exact nomatch h

theorem reorder_run (par : Nat → U64) (p : List (Instr n)) : ∀ (q : List (Instr n)) (s : Regs n), reorder p q = true → run par s p = run par s q := by
  induction p with
  | nil =>
    intro q s h
    cases q with
    | nil => rfl
    | cons j q => exact nomatch h
  | cons i p ih =>
    intro q s h
    unfold reorder at h
    cases hp : pull i q with
    | none => rw [hp] at h; exact nomatch h
    | some q' =>
      rw [hp] at h
      rw [pull_run par i q q' s hp]
      exact ih q' _ h

/-- One assignment per summand. -/
def Instr.split : Instr n → List (Instr n)
  | .add d xs => xs.map fun x => .add d [x]
  | .sub d xs => xs.map fun x => .sub d [x]
  | i => [i]

def split (p : List (Instr n)) : List (Instr n) := p.flatMap Instr.split

theorem reads_avoids (d : Fin n) (x : Operand n) : x.avoids d = !x.reads d := by
  cases x <;> simp [Operand.avoids, Operand.reads, bne]

theorem split_run_add (par : Nat → U64) (d : Fin n) (xs : List (Operand n)) : ∀ (s : Regs n), xs.all (Operand.avoids d) = true →
    run par s (xs.map fun x => Instr.add d [x]) = Function.update s d (s d + total par s xs) := by
  induction xs with
  | nil => intro s _; simp [run, total]
  | cons x xs ih =>
    intro s h
    rw [List.all_cons, Bool.and_eq_true] at h
    show run par (Instr.eval par s (.add d [x])) _ = _
    rw [ih _ h.2]
    simp only [Instr.eval]
    rw [total_update par s d _ xs h.2, Function.update_self, Function.update_idem]
    congr 1
    simp only [total, List.foldr_cons, List.foldr_nil, BitVec.add_zero]
    rw [BitVec.add_assoc]

theorem split_run_sub (par : Nat → U64) (d : Fin n) (xs : List (Operand n)) : ∀ (s : Regs n), xs.all (Operand.avoids d) = true →
    run par s (xs.map fun x => Instr.sub d [x]) = Function.update s d (s d - total par s xs) := by
  induction xs with
  | nil => intro s _; simp [run, total]
  | cons x xs ih =>
    intro s h
    rw [List.all_cons, Bool.and_eq_true] at h
    show run par (Instr.eval par s (.sub d [x])) _ = _
    rw [ih _ h.2]
    simp only [Instr.eval]
    rw [total_update par s d _ xs h.2, Function.update_self, Function.update_idem]
    congr 1
    simp only [total, List.foldr_cons, List.foldr_nil, BitVec.add_zero]
    rw [BitVec.sub_sub]

theorem split_run (par : Nat → U64) (p : List (Instr n)) (s : Regs n) (h : ∀ i ∈ p, i.wf = true) : run par s (split p) = run par s p := by
  induction p generalizing s with
  | nil => rfl
  | cons i p ih =>
    have hi := h i List.mem_cons_self
    show run par s (i.split ++ split p) = run par (i.eval par s) p
    rw [run_append]
    have e : run par s i.split = i.eval par s := by
      cases i with
      | add d xs => exact split_run_add par d xs s hi
      | sub d xs => exact split_run_sub par d xs s hi
      | xor d r => rfl
      | rotl d k => rfl
      | rotr d k => rfl
    rw [e, ih _ (fun j hj => h j (List.mem_cons_of_mem _ hj))]

/-- Well-formedness of a whole program, as one test. -/
def wfAll (p : List (Instr n)) : Bool := p.all Instr.wf

theorem wfAll_mem {p : List (Instr n)} (h : wfAll p = true) : ∀ i ∈ p, i.wf = true := List.all_eq_true.1 h

/-- Two programs that agree up to order and grouping of sums compute the same. -/
theorem run_eq_of_reorder (par : Nat → U64) {p q : List (Instr n)} (hp : wfAll p = true) (hq : wfAll q = true) (h : reorder (split p) (split q) = true) (s : Regs n) :
    run par s p = run par s q := by
  rw [← split_run par p s (wfAll_mem hp), ← split_run par q s (wfAll_mem hq)]
  exact reorder_run par _ _ s h

end Verif.Arx
