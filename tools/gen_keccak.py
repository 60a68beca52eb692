#!/usr/bin/env python3
"""Writes lean/Verif/Lemmas/KeccakRound.lean: the round steps of the model on 25 named lanes, against the lane formulas."""
rot=[1,3,6,10,15,21,28,36,45,55,2,14,27,41,56,8,25,43,62,18,39,61,20,44]
pil=[10,7,11,17,18,3,5,16,8,21,24,4,15,23,19,13,12,2,20,14,22,9,6,1]
V=" ".join("a%d"%i for i in range(25)); L="["+", ".join("a%d"%i for i in range(25))+"]"
print('''import Verif.Model.Keccak
import Verif.Spec.Keccak
import Verif.Lemmas.Basic
import Verif.Lemmas.Bits
import Mathlib.Tactic.FinCases

/-! Written by tools/gen_keccak.py. -/

namespace Verif.Lemmas.Keccak
open Verif Verif.Model.Keccak
open Verif.Spec.Keccak (State parity offset RC walk xpow)

/-- Lanes of a list of 25 words. -/
def lanes (S : List U64) : State := fun x y => S.getD (x.val + 5 * y.val) 0#64

theorem rotl_ok (x : U64) {n : Nat} (h : n < 64) : rotl64 x n = x.rotateLeft n := rotl_eq x h
theorem rotl64_zero (x : U64) : rotl64 x 0 = x := by
  rw [rotl_ok x (by decide)]; simp [BitVec.rotateLeft_def, BitVec.ushiftRight_eq_zero]
theorem offset_lt : ∀ x y : Fin 5, offset x y < 64 := by decide

theorem exists25 {S : List U64} (h : S.length = 25) : ∃ %s : U64, S = %s := by
  match S, h with
  | %s, _ => exact ⟨%s, rfl⟩

attribute [local irreducible] rotl64
'''%(V,L,L,", ".join(V.split())))
def xs(l): return " ^^^ ".join(l)
par=["(%s)"%xs("a%d"%(i+5*j) for j in range(5)) for i in range(5)]
th=["a%d ^^^ (%s ^^^ rotl64 %s 1)"%(k,par[(k+4)%5],par[(k+1)%5]) for k in range(25)]
B=["a%d"%i for i in range(25)]
t=B[1]
for i in range(24):
    j=pil[i]; t2=B[j]; B[j]="rotl64 %s %d"%(t,rot[i]); t=t2
ch=["a%d ^^^ (~~~ a%d &&& a%d)"%(k,k//5*5+(k+1)%5,k//5*5+(k+2)%5) for k in range(25)]
SIMP="List.foldl_cons, List.foldl_nil, List.map_cons, List.map_nil, at_, List.getD_cons_zero, List.getD_cons_succ, List.set_cons_zero, List.set_cons_succ, Nat.reduceAdd, Nat.reduceMod, Nat.zero_add, Nat.add_zero"
def thm(n,R,extra):
    print("theorem %s_list (%s : U64) : %s %s = [\n    %s] := by"%(n,V,n,L,",\n    ".join(R)))
    print("  have r : List.range 5 = [0, 1, 2, 3, 4] := rfl" if n!="rhoPi" else "  have r : List.range 24 = [%s] := rfl"%", ".join(map(str,range(24))))
    print("  simp only [%s, r, %s%s]\n"%(n,SIMP,extra))
thm("theta",th,", parities"); thm("rhoPi",B,", rhoPiStep, piLane, rotationConstants"); thm("chi",ch,"")
for n,spec,pre in [("theta","Spec.Keccak.theta (lanes S)","  unfold Spec.Keccak.theta\n  rw [← rotl_ok _ (by decide)]\n"),("chi","Spec.Keccak.chi (lanes S)","  unfold Spec.Keccak.chi\n"),("rhoPi","Spec.Keccak.pi (Spec.Keccak.rho (lanes S))","  unfold Spec.Keccak.pi Spec.Keccak.rho\n  rw [← rotl_ok _ (offset_lt _ _)]\n")]:
    fin = "first | exact (rotl64_zero _).symm | rfl" if n=="rhoPi" else "rfl"
    print('''theorem %s_eq {S : List U64} (h : S.length = 25) : lanes (%s S) = %s ∧ (%s S).length = 25 := by
  obtain ⟨%s, rfl⟩ := exists25 h
  rw [%s_list]
  refine ⟨?_, rfl⟩
  funext x y
%s  fin_cases x <;> fin_cases y <;> %s
'''%(n,n,spec,n,", ".join(V.split()),n,pre,fin))
print("end Verif.Lemmas.Keccak")
