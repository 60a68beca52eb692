import Verif.Model.Keccak
import Verif.Spec.Keccak
import Verif.Lemmas.Basic
import Verif.Lemmas.Bits
import Mathlib.Tactic.FinCases

/-! Written by tools/gen_keccak.py. -/

namespace Verif.Lemmas.Keccak
open Verif Verif.Model.Keccak
open Verif.Spec.Keccak (State parity offset RC walk xpow)

/-- Lanes of a list of 25 words. -/
def lanes (S : List U64) : State := fun x y => S.getD (x.val + 5 * y.val) 0#64

theorem rotl_ok (x : U64) {n : Nat} (h : n < 64) : rotl64 x n = x.rotateLeft n := rotl_eq x h
theorem rotl64_zero (x : U64) : rotl64 x 0 = x := by
  rw [rotl_ok x (by decide)]; simp [BitVec.rotateLeft_def, BitVec.ushiftRight_eq_zero]
theorem offset_lt : ∀ x y : Fin 5, offset x y < 64 := by decide

theorem exists25 {S : List U64} (h : S.length = 25) : ∃ a0 a1 a2 a3 a4 a5 a6 a7 a8 a9 a10 a11 a12 a13 a14 a15 a16 a17 a18 a19 a20 a21 a22 a23 a24 : U64, S = [a0, a1, a2, a3, a4, a5, a6, a7, a8, a9, a10, a11, a12, a13, a14, a15, a16, a17, a18, a19, a20, a21, a22, a23, a24] := by
  match S, h with
  | [a0, a1, a2, a3, a4, a5, a6, a7, a8, a9, a10, a11, a12, a13, a14, a15, a16, a17, a18, a19, a20, a21, a22, a23, a24], _ => exact ⟨a0, a1, a2, a3, a4, a5, a6, a7, a8, a9, a10, a11, a12, a13, a14, a15, a16, a17, a18, a19, a20, a21, a22, a23, a24, rfl⟩

attribute [local irreducible] rotl64

theorem theta_list (a0 a1 a2 a3 a4 a5 a6 a7 a8 a9 a10 a11 a12 a13 a14 a15 a16 a17 a18 a19 a20 a21 a22 a23 a24 : U64) : theta [a0, a1, a2, a3, a4, a5, a6, a7, a8, a9, a10, a11, a12, a13, a14, a15, a16, a17, a18, a19, a20, a21, a22, a23, a24] = [
    a0 ^^^ ((a4 ^^^ a9 ^^^ a14 ^^^ a19 ^^^ a24) ^^^ rotl64 (a1 ^^^ a6 ^^^ a11 ^^^ a16 ^^^ a21) 1),
    a1 ^^^ ((a0 ^^^ a5 ^^^ a10 ^^^ a15 ^^^ a20) ^^^ rotl64 (a2 ^^^ a7 ^^^ a12 ^^^ a17 ^^^ a22) 1),
    a2 ^^^ ((a1 ^^^ a6 ^^^ a11 ^^^ a16 ^^^ a21) ^^^ rotl64 (a3 ^^^ a8 ^^^ a13 ^^^ a18 ^^^ a23) 1),
    a3 ^^^ ((a2 ^^^ a7 ^^^ a12 ^^^ a17 ^^^ a22) ^^^ rotl64 (a4 ^^^ a9 ^^^ a14 ^^^ a19 ^^^ a24) 1),
    a4 ^^^ ((a3 ^^^ a8 ^^^ a13 ^^^ a18 ^^^ a23) ^^^ rotl64 (a0 ^^^ a5 ^^^ a10 ^^^ a15 ^^^ a20) 1),
    a5 ^^^ ((a4 ^^^ a9 ^^^ a14 ^^^ a19 ^^^ a24) ^^^ rotl64 (a1 ^^^ a6 ^^^ a11 ^^^ a16 ^^^ a21) 1),
    a6 ^^^ ((a0 ^^^ a5 ^^^ a10 ^^^ a15 ^^^ a20) ^^^ rotl64 (a2 ^^^ a7 ^^^ a12 ^^^ a17 ^^^ a22) 1),
    a7 ^^^ ((a1 ^^^ a6 ^^^ a11 ^^^ a16 ^^^ a21) ^^^ rotl64 (a3 ^^^ a8 ^^^ a13 ^^^ a18 ^^^ a23) 1),
    a8 ^^^ ((a2 ^^^ a7 ^^^ a12 ^^^ a17 ^^^ a22) ^^^ rotl64 (a4 ^^^ a9 ^^^ a14 ^^^ a19 ^^^ a24) 1),
    a9 ^^^ ((a3 ^^^ a8 ^^^ a13 ^^^ a18 ^^^ a23) ^^^ rotl64 (a0 ^^^ a5 ^^^ a10 ^^^ a15 ^^^ a20) 1),
    a10 ^^^ ((a4 ^^^ a9 ^^^ a14 ^^^ a19 ^^^ a24) ^^^ rotl64 (a1 ^^^ a6 ^^^ a11 ^^^ a16 ^^^ a21) 1),
    a11 ^^^ ((a0 ^^^ a5 ^^^ a10 ^^^ a15 ^^^ a20) ^^^ rotl64 (a2 ^^^ a7 ^^^ a12 ^^^ a17 ^^^ a22) 1),
    a12 ^^^ ((a1 ^^^ a6 ^^^ a11 ^^^ a16 ^^^ a21) ^^^ rotl64 (a3 ^^^ a8 ^^^ a13 ^^^ a18 ^^^ a23) 1),
    a13 ^^^ ((a2 ^^^ a7 ^^^ a12 ^^^ a17 ^^^ a22) ^^^ rotl64 (a4 ^^^ a9 ^^^ a14 ^^^ a19 ^^^ a24) 1),
    a14 ^^^ ((a3 ^^^ a8 ^^^ a13 ^^^ a18 ^^^ a23) ^^^ rotl64 (a0 ^^^ a5 ^^^ a10 ^^^ a15 ^^^ a20) 1),
    a15 ^^^ ((a4 ^^^ a9 ^^^ a14 ^^^ a19 ^^^ a24) ^^^ rotl64 (a1 ^^^ a6 ^^^ a11 ^^^ a16 ^^^ a21) 1),
    a16 ^^^ ((a0 ^^^ a5 ^^^ a10 ^^^ a15 ^^^ a20) ^^^ rotl64 (a2 ^^^ a7 ^^^ a12 ^^^ a17 ^^^ a22) 1),
    a17 ^^^ ((a1 ^^^ a6 ^^^ a11 ^^^ a16 ^^^ a21) ^^^ rotl64 (a3 ^^^ a8 ^^^ a13 ^^^ a18 ^^^ a23) 1),
    a18 ^^^ ((a2 ^^^ a7 ^^^ a12 ^^^ a17 ^^^ a22) ^^^ rotl64 (a4 ^^^ a9 ^^^ a14 ^^^ a19 ^^^ a24) 1),
    a19 ^^^ ((a3 ^^^ a8 ^^^ a13 ^^^ a18 ^^^ a23) ^^^ rotl64 (a0 ^^^ a5 ^^^ a10 ^^^ a15 ^^^ a20) 1),
    a20 ^^^ ((a4 ^^^ a9 ^^^ a14 ^^^ a19 ^^^ a24) ^^^ rotl64 (a1 ^^^ a6 ^^^ a11 ^^^ a16 ^^^ a21) 1),
    a21 ^^^ ((a0 ^^^ a5 ^^^ a10 ^^^ a15 ^^^ a20) ^^^ rotl64 (a2 ^^^ a7 ^^^ a12 ^^^ a17 ^^^ a22) 1),
    a22 ^^^ ((a1 ^^^ a6 ^^^ a11 ^^^ a16 ^^^ a21) ^^^ rotl64 (a3 ^^^ a8 ^^^ a13 ^^^ a18 ^^^ a23) 1),
    a23 ^^^ ((a2 ^^^ a7 ^^^ a12 ^^^ a17 ^^^ a22) ^^^ rotl64 (a4 ^^^ a9 ^^^ a14 ^^^ a19 ^^^ a24) 1),
    a24 ^^^ ((a3 ^^^ a8 ^^^ a13 ^^^ a18 ^^^ a23) ^^^ rotl64 (a0 ^^^ a5 ^^^ a10 ^^^ a15 ^^^ a20) 1)] := by
  have r : List.range 5 = [0, 1, 2, 3, 4] := rfl
  simp only [theta, r, List.foldl_cons, List.foldl_nil, List.map_cons, List.map_nil, at_, List.getD_cons_zero, List.getD_cons_succ, List.set_cons_zero, List.set_cons_succ, Nat.reduceAdd, Nat.reduceMod, Nat.zero_add, Nat.add_zero, parities]

theorem rhoPi_list (a0 a1 a2 a3 a4 a5 a6 a7 a8 a9 a10 a11 a12 a13 a14 a15 a16 a17 a18 a19 a20 a21 a22 a23 a24 : U64) : rhoPi [a0, a1, a2, a3, a4, a5, a6, a7, a8, a9, a10, a11, a12, a13, a14, a15, a16, a17, a18, a19, a20, a21, a22, a23, a24] = [
    a0,
    rotl64 a6 44,
    rotl64 a12 43,
    rotl64 a18 21,
    rotl64 a24 14,
    rotl64 a3 28,
    rotl64 a9 20,
    rotl64 a10 3,
    rotl64 a16 45,
    rotl64 a22 61,
    rotl64 a1 1,
    rotl64 a7 6,
    rotl64 a13 25,
    rotl64 a19 8,
    rotl64 a20 18,
    rotl64 a4 27,
    rotl64 a5 36,
    rotl64 a11 10,
    rotl64 a17 15,
    rotl64 a23 56,
    rotl64 a2 62,
    rotl64 a8 55,
    rotl64 a14 39,
    rotl64 a15 41,
    rotl64 a21 2] := by
  have r : List.range 24 = [0, 1, 2, 3, 4, 5, 6, 7, 8, 9, 10, 11, 12, 13, 14, 15, 16, 17, 18, 19, 20, 21, 22, 23] := rfl
  simp only [rhoPi, r, List.foldl_cons, List.foldl_nil, List.map_cons, List.map_nil, at_, List.getD_cons_zero, List.getD_cons_succ, List.set_cons_zero, List.set_cons_succ, Nat.reduceAdd, Nat.reduceMod, Nat.zero_add, Nat.add_zero, rhoPiStep, piLane, rotationConstants]

theorem chi_list (a0 a1 a2 a3 a4 a5 a6 a7 a8 a9 a10 a11 a12 a13 a14 a15 a16 a17 a18 a19 a20 a21 a22 a23 a24 : U64) : chi [a0, a1, a2, a3, a4, a5, a6, a7, a8, a9, a10, a11, a12, a13, a14, a15, a16, a17, a18, a19, a20, a21, a22, a23, a24] = [
    a0 ^^^ (~~~ a1 &&& a2),
    a1 ^^^ (~~~ a2 &&& a3),
    a2 ^^^ (~~~ a3 &&& a4),
    a3 ^^^ (~~~ a4 &&& a0),
    a4 ^^^ (~~~ a0 &&& a1),
    a5 ^^^ (~~~ a6 &&& a7),
    a6 ^^^ (~~~ a7 &&& a8),
    a7 ^^^ (~~~ a8 &&& a9),
    a8 ^^^ (~~~ a9 &&& a5),
    a9 ^^^ (~~~ a5 &&& a6),
    a10 ^^^ (~~~ a11 &&& a12),
    a11 ^^^ (~~~ a12 &&& a13),
    a12 ^^^ (~~~ a13 &&& a14),
    a13 ^^^ (~~~ a14 &&& a10),
    a14 ^^^ (~~~ a10 &&& a11),
    a15 ^^^ (~~~ a16 &&& a17),
    a16 ^^^ (~~~ a17 &&& a18),
    a17 ^^^ (~~~ a18 &&& a19),
    a18 ^^^ (~~~ a19 &&& a15),
    a19 ^^^ (~~~ a15 &&& a16),
    a20 ^^^ (~~~ a21 &&& a22),
    a21 ^^^ (~~~ a22 &&& a23),
    a22 ^^^ (~~~ a23 &&& a24),
    a23 ^^^ (~~~ a24 &&& a20),
    a24 ^^^ (~~~ a20 &&& a21)] := by
  have r : List.range 5 = [0, 1, 2, 3, 4] := rfl
  simp only [chi, r, List.foldl_cons, List.foldl_nil, List.map_cons, List.map_nil, at_, List.getD_cons_zero, List.getD_cons_succ, List.set_cons_zero, List.set_cons_succ, Nat.reduceAdd, Nat.reduceMod, Nat.zero_add, Nat.add_zero]

theorem theta_eq {S : List U64} (h : S.length = 25) : lanes (theta S) = Spec.Keccak.theta (lanes S) ∧ (theta S).length = 25 := by
  obtain ⟨a0, a1, a2, a3, a4, a5, a6, a7, a8, a9, a10, a11, a12, a13, a14, a15, a16, a17, a18, a19, a20, a21, a22, a23, a24, rfl⟩ := exists25 h
  rw [theta_list]
  refine ⟨?_, rfl⟩
  funext x y
  unfold Spec.Keccak.theta
  rw [← rotl_ok _ (by decide)]
  fin_cases x <;> fin_cases y <;> rfl

theorem chi_eq {S : List U64} (h : S.length = 25) : lanes (chi S) = Spec.Keccak.chi (lanes S) ∧ (chi S).length = 25 := by
  obtain ⟨a0, a1, a2, a3, a4, a5, a6, a7, a8, a9, a10, a11, a12, a13, a14, a15, a16, a17, a18, a19, a20, a21, a22, a23, a24, rfl⟩ := exists25 h
  rw [chi_list]
  refine ⟨?_, rfl⟩
  funext x y
  unfold Spec.Keccak.chi
  fin_cases x <;> fin_cases y <;> rfl

theorem rhoPi_eq {S : List U64} (h : S.length = 25) : lanes (rhoPi S) = Spec.Keccak.pi (Spec.Keccak.rho (lanes S)) ∧ (rhoPi S).length = 25 := by
  obtain ⟨a0, a1, a2, a3, a4, a5, a6, a7, a8, a9, a10, a11, a12, a13, a14, a15, a16, a17, a18, a19, a20, a21, a22, a23, a24, rfl⟩ := exists25 h
  rw [rhoPi_list]
  refine ⟨?_, rfl⟩
  funext x y
  unfold Spec.Keccak.pi Spec.Keccak.rho
  rw [← rotl_ok _ (offset_lt _ _)]
  fin_cases x <;> fin_cases y <;> first | exact (rotl64_zero _).symm | rfl

end Verif.Lemmas.Keccak
