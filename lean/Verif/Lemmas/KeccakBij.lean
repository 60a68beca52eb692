import Verif.Lemmas.Keccak
import Mathlib.Data.Fin.Basic
import Mathlib.Algebra.Group.Fin.Basic
import Mathlib.Tactic.Abel
import Mathlib.Data.Fintype.Pi
import Mathlib.Data.Finite.Prod
import Mathlib.Data.Fintype.BigOperators

/-! Keccak-f is a permutation. The hard step is theta: on column parities it is multiplication by
`1 + s + s⁻¹ z` over GF(2); its 64th power no longer involves `z`, and the cube of that is the identity. -/

namespace Verif.Lemmas.Keccak
open Verif
open Verif.Spec.Keccak (State parity theta rho pi chi iota keccakf offset RC)

abbrev Plane := Fin 5 → Fin 64 → Bool

def mulBy (s : Fin 5) (t : Fin 64) (p : Plane) : Plane := fun x z => p x z ^^ (p (x - s) z ^^ p (x + s) (z - t))

theorem mulBy_sq (s : Fin 5) (t : Fin 64) (p : Plane) : mulBy s t (mulBy s t p) = mulBy (s + s) (t + t) p := by
  funext x z
  unfold mulBy
  rw [show x - s + s = x by abel, show x + s - s = x by abel, show x - s - s = x - (s + s) by abel, show x + s + s = x + (s + s) by abel,
    show z - t - t = z - (t + t) by abel]
  cases p x z <;> cases p (x - s) z <;> cases p (x + s) (z - t) <;> cases p (x - (s + s)) z <;> cases p x (z - t) <;> cases p (x + (s + s)) (z - (t + t)) <;> rfl

theorem mulBy_cube (p : Plane) : mulBy 4 0 (mulBy 4 0 (mulBy 4 0 p)) = p := by
  funext x z
  unfold mulBy
  simp only [sub_zero]
  have h : ∀ x : Fin 5, x - 4 = x + 1 ∧ x + 1 + 1 = x + 2 ∧ x + 4 + 1 = x ∧ x + 1 + 4 = x ∧ x + 4 + 4 = x + 3 ∧ x + 2 + 1 = x + 3 ∧ x + 2 + 4 = x + 1 ∧ x + 3 + 4 = x + 2 ∧ x + 3 + 1 = x + 4 := by decide
  simp only [(h _).1, (h _).2.1, (h _).2.2.1, (h _).2.2.2.1, (h _).2.2.2.2.1, (h _).2.2.2.2.2.1, (h _).2.2.2.2.2.2.1, (h _).2.2.2.2.2.2.2.1, (h _).2.2.2.2.2.2.2.2]
  cases p x z <;> cases p (x + 1) z <;> cases p (x + 2) z <;> cases p (x + 3) z <;> cases p (x + 4) z <;> rfl

theorem mulBy_inj {p q : Plane} (e : mulBy 1 1 p = mulBy 1 1 q) : p = q := by
  have up : ∀ s t, mulBy s t p = mulBy s t q → mulBy (s + s) (t + t) p = mulBy (s + s) (t + t) q := by
    intro s t h
    rw [← mulBy_sq, ← mulBy_sq, h]
  have e6 : mulBy 4 0 p = mulBy 4 0 q := up 2 32 (up 1 16 (up 3 8 (up 4 4 (up 2 2 (up 1 1 e)))))
  rw [← mulBy_cube p, e6, mulBy_cube q]

/-- The bits of the column parities. -/
def planeOf (P : Fin 5 → U64) : Plane := fun x z => (P x).getLsbD z.val

theorem planeOf_inj {P Q : Fin 5 → U64} (e : planeOf P = planeOf Q) : P = Q := by
  funext x
  apply BitVec.eq_of_getLsbD_eq
  intro i hi
  exact congrFun (congrFun e x) ⟨i, hi⟩

theorem rot1_bit (a : U64) (z : Fin 64) : (a.rotateLeft 1).getLsbD z.val = a.getLsbD (z - 1 : Fin 64).val := by
  have hz := z.isLt
  rw [BitVec.getLsbD_rotateLeft]
  have hv : (z - 1 : Fin 64).val = (63 + z.val) % 64 := by
    rw [Fin.sub_def]; rfl
  rw [hv]
  by_cases h : z.val = 0
  · rw [h]; rfl
  · rw [show (63 + z.val) % 64 = z.val - 1 by omega]
    have h1 : ¬ z.val < 1 := by omega
    simp [h1, hz]

theorem parity_theta (A : State) (x : Fin 5) : parity (theta A) x = parity A x ^^^ (parity A (x - 1) ^^^ (parity A (x + 1)).rotateLeft 1) := by
  show (A x 0 ^^^ _) ^^^ (A x 1 ^^^ _) ^^^ (A x 2 ^^^ _) ^^^ (A x 3 ^^^ _) ^^^ (A x 4 ^^^ _) = (A x 0 ^^^ A x 1 ^^^ A x 2 ^^^ A x 3 ^^^ A x 4) ^^^ _
  generalize parity A (x - 1) ^^^ (parity A (x + 1)).rotateLeft 1 = d
  apply BitVec.eq_of_getLsbD_eq
  intro i _
  simp only [BitVec.getLsbD_xor]
  cases (A x 0).getLsbD i <;> cases (A x 1).getLsbD i <;> cases (A x 2).getLsbD i <;> cases (A x 3).getLsbD i <;> cases (A x 4).getLsbD i <;> cases d.getLsbD i <;> rfl

theorem theta_inj {A B : State} (e : theta A = theta B) : A = B := by
  have hp : parity A = parity B := by
    apply planeOf_inj
    apply mulBy_inj
    have key : ∀ A : State, mulBy 1 1 (planeOf (parity A)) = planeOf (parity (theta A)) := by
      intro A
      funext x z
      unfold mulBy planeOf
      rw [parity_theta, BitVec.getLsbD_xor, BitVec.getLsbD_xor, rot1_bit]
    rw [key, key, e]
  funext x y
  have := congrFun (congrFun e x) y
  unfold theta at this
  rw [hp] at this
  exact xor_right_inj' _ this

theorem rho_inj {A B : State} (e : rho A = rho B) : A = B := by
  funext x y
  exact rotateLeft_inj (offset_lt x y) (congrFun (congrFun e x) y)

theorem pi_inj {A B : State} (e : pi A = pi B) : A = B := by
  funext x y
  have h : ∀ x y : Fin 5, ∃ u v : Fin 5, u + 3 * v = x ∧ u = y := by decide
  obtain ⟨u, v, h1, h2⟩ := h x y
  have := congrFun (congrFun e u) v
  unfold pi at this
  rw [h1, h2] at this
  exact this

theorem chi_row : ∀ a b c d e a' b' c' d' e' : Bool,
    (a ^^ (!b && c)) = (a' ^^ (!b' && c')) → (b ^^ (!c && d)) = (b' ^^ (!c' && d')) → (c ^^ (!d && e)) = (c' ^^ (!d' && e')) →
    (d ^^ (!e && a)) = (d' ^^ (!e' && a')) → (e ^^ (!a && b)) = (e' ^^ (!a' && b')) → a = a' ∧ b = b' ∧ c = c' ∧ d = d' ∧ e = e' := by decide

theorem chi_inj {A B : State} (e : chi A = chi B) : A = B := by
  funext x y
  apply BitVec.eq_of_getLsbD_eq
  intro i hi
  have hb : ∀ x : Fin 5, ((A x y).getLsbD i ^^ (!(A (x + 1) y).getLsbD i && (A (x + 2) y).getLsbD i)) =
      ((B x y).getLsbD i ^^ (!(B (x + 1) y).getLsbD i && (B (x + 2) y).getLsbD i)) := by
    intro x
    have := congrArg (fun v => v.getLsbD i) (congrFun (congrFun e x) y)
    simpa only [chi, BitVec.getLsbD_xor, BitVec.getLsbD_and, BitVec.getLsbD_not, hi, decide_true, Bool.true_and] using this
  have h := chi_row _ _ _ _ _ _ _ _ _ _ (hb 0) (hb 1) (hb 2) (hb 3) (hb 4)
  fin_cases x
  · exact h.1
  · exact h.2.1
  · exact h.2.2.1
  · exact h.2.2.2.1
  · exact h.2.2.2.2

theorem iota_inj {r : Nat} {A B : State} (e : iota r A = iota r B) : A = B := by
  funext x y
  have := congrFun (congrFun e x) y
  unfold iota at this
  split at this
  · exact xor_right_inj' _ this
  · exact this

theorem round_inj {r : Nat} {A B : State} (e : Spec.Keccak.round A r = Spec.Keccak.round B r) : A = B :=
  theta_inj (rho_inj (pi_inj (chi_inj (iota_inj e))))

theorem keccakf_inj (n : Nat) {A B : State} (e : keccakf n A = keccakf n B) : A = B := by
  unfold keccakf at e
  induction n generalizing A B with
  | zero => exact e
  | succ n ih =>
    rw [List.range_succ, List.foldl_append, List.foldl_append] at e
    exact ih (round_inj e)

instance : Finite State := by
  haveI : Finite (BitVec 64) := inferInstance
  exact inferInstanceAs (Finite (Fin 5 → Fin 5 → BitVec 64))

theorem keccakf_bij (n : Nat) : Function.Bijective (keccakf n) := bijective_of_injective (fun _ _ e => keccakf_inj n e)

theorem lanes_inj {S T : List U64} (hS : S.length = 25) (hT : T.length = 25) (e : lanes S = lanes T) : S = T := by
  apply List.ext_getElem (by omega)
  intro i h1 h2
  have h := congrFun (congrFun e (Fin.ofNat 5 i)) (Fin.ofNat 5 (i / 5))
  unfold lanes at h
  simp only [Fin.val_ofNat] at h
  rw [show i % 5 + 5 * (i / 5 % 5) = i by omega, List.getD_eq_getElem?_getD, List.getElem?_eq_getElem h1, Option.getD_some,
    List.getD_eq_getElem?_getD, List.getElem?_eq_getElem h2, Option.getD_some] at h
  exact h

theorem lanes_surj (A : State) : ∃ S : List U64, S.length = 25 ∧ lanes S = A := by
  refine ⟨(List.range 25).map (fun i => A (Fin.ofNat 5 i) (Fin.ofNat 5 (i / 5))), by simp, ?_⟩
  funext x y
  have hx := x.isLt
  have hy := y.isLt
  unfold lanes
  rw [List.getD_eq_getElem?_getD, List.getElem?_map, List.getElem?_range (by omega), Option.map_some, Option.getD_some]
  congr 1 <;> apply Fin.ext <;> simp only [Fin.val_ofNat] <;> omega

end Verif.Lemmas.Keccak
