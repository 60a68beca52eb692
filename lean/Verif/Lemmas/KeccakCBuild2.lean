import Verif.Lemmas.KeccakCBuild

namespace Verif.Lemmas.KeccakC
open Verif Verif.Model.KeccakC
open Verif.Spec.Keccak (State keccakf xorInto bytes)
open Verif.Lemmas.Keccak (lanes)
open Verif.Model.Keccak (rotl64)

theorem rol64_eq (x : U64) (n : Nat) : rol64 x n = rotl64 x n := by
  rfl

theorem bebi_round (rc : U64) (A : Lanes) (C : Cols) : (roundBebi rc A C).2 = thetaRhoPiChiIotaPrepareTheta rc A C := rfl
theorem bebi_last (rc : U64) (A : Lanes) (C : Cols) : (lastBebi rc A C).2.1 = thetaRhoPiChiIota rc A C := rfl

set_option linter.unusedSimpArgs false in
theorem plain_last (rc : U64) (A : Lanes) : copyToState (lastPlain rc A (prepareTheta A)).2.1 = listRound (copyToState A) rc := by
  obtain ⟨a0, a1, a2, a3, a4, a5, a6, a7, a8, a9, a10, a11, a12, a13, a14, a15, a16, a17, a18, a19, a20, a21, a22, a23, a24⟩ := A
  unfold copyToState listRound
  simp only [Lemmas.Keccak.theta_list, Lemmas.Keccak.rhoPi_list, Lemmas.Keccak.chi_list, Model.Keccak.at_, List.getD_cons_zero, List.set_cons_zero]
  unfold lastPlain prepareTheta
  simp only [ROL64_eq _ (show 1 < 64 by decide), ROL64_eq _ (show 44 < 64 by decide), ROL64_eq _ (show 43 < 64 by decide), ROL64_eq _ (show 21 < 64 by decide),
    ROL64_eq _ (show 14 < 64 by decide), ROL64_eq _ (show 28 < 64 by decide), ROL64_eq _ (show 20 < 64 by decide), ROL64_eq _ (show 3 < 64 by decide),
    ROL64_eq _ (show 45 < 64 by decide), ROL64_eq _ (show 61 < 64 by decide), ROL64_eq _ (show 6 < 64 by decide), ROL64_eq _ (show 25 < 64 by decide),
    ROL64_eq _ (show 8 < 64 by decide), ROL64_eq _ (show 18 < 64 by decide), ROL64_eq _ (show 27 < 64 by decide), ROL64_eq _ (show 36 < 64 by decide),
    ROL64_eq _ (show 10 < 64 by decide), ROL64_eq _ (show 15 < 64 by decide), ROL64_eq _ (show 56 < 64 by decide), ROL64_eq _ (show 62 < 64 by decide),
    ROL64_eq _ (show 55 < 64 by decide), ROL64_eq _ (show 39 < 64 by decide), ROL64_eq _ (show 41 < 64 by decide), ROL64_eq _ (show 2 < 64 by decide)]

theorem plain_round (rc : U64) (A : Lanes) (C : Cols) : (roundPlain rc A C).2.1 = (lastPlain rc A C).2.1 := rfl
theorem plain_sums (rc : U64) (A : Lanes) (C : Cols) : (roundPlain rc A C).2.2 = prepareTheta (roundPlain rc A C).2.1 := rfl

def goodPlain : Good (wordMacros false) where
  view := copyToState
  sums A C := C = prepareTheta A
  view_length _ := rfl
  constants := rfl
  round rc A C h := by subst h; exact ⟨plain_last rc A, plain_sums rc A _⟩
  last rc A C h := by subst h; exact plain_last rc A
  copy _ _ := rfl

def goodBebi : Good (wordMacros true) where
  view := plain
  sums A C := C = prepareTheta A
  view_length _ := rfl
  constants := rfl
  round rc A C h := by subst h; exact ⟨round_last rc A, rfl⟩
  last rc A C h := by subst h; exact round_last rc A
  copy _ _ := rfl

theorem last_64 (rc : U64) (A : Lanes) : copyToState_64 (last64 rc A (prepareTheta64 A)).2.1 = listRound (copyToState_64 A) rc := by
  obtain ⟨a0, a1, a2, a3, a4, a5, a6, a7, a8, a9, a10, a11, a12, a13, a14, a15, a16, a17, a18, a19, a20, a21, a22, a23, a24⟩ := A
  unfold copyToState_64 listRound
  simp only [Lemmas.Keccak.theta_list, Lemmas.Keccak.rhoPi_list, Lemmas.Keccak.chi_list, Model.Keccak.at_, List.getD_cons_zero, List.set_cons_zero]
  unfold last64 prepareTheta64
  simp only [rol64_eq, BitVec.xor_assoc]

theorem round_64 (rc : U64) (A : Lanes) (C : Cols) : (round64 rc A C).2.1 = (last64 rc A C).2.1 := rfl
theorem cols_ext {x y : Cols} (h1 : x.a = y.a) (h2 : x.e = y.e) (h3 : x.i = y.i) (h4 : x.o = y.o) (h5 : x.u = y.u) : x = y := by
  cases x; cases y; cases h1; cases h2; cases h3; cases h4; cases h5; rfl
theorem xor_left5 (a b c d e : U64) : (((a ^^^ b) ^^^ c) ^^^ d) ^^^ e = a ^^^ (b ^^^ (c ^^^ (d ^^^ e))) := by simp only [BitVec.xor_assoc]

theorem sums_64 (rc : U64) (A : Lanes) (C : Cols) : (round64 rc A C).2.2 = prepareTheta64 (round64 rc A C).2.1 :=
  cols_ext (xor_left5 _ _ _ _ _) (xor_left5 _ _ _ _ _) (xor_left5 _ _ _ _ _) (xor_left5 _ _ _ _ _) (xor_left5 _ _ _ _ _)

def good64 : Good macros64 where
  view := copyToState_64
  sums A C := C = prepareTheta64 A
  view_length _ := rfl
  constants := by decide
  round rc A C h := by subst h; exact ⟨last_64 rc A, sums_64 rc A _⟩
  last rc A C h := by subst h; exact last_64 rc A
  copy _ _ := rfl

/-- The column sums the 128-bit build keeps: `a`, `e`; `i`, `o`; `u` in the lower half. -/
structure Sums128 (A : Lanes128) (C : Cols128) : Prop where
  a : C.ae.lo = A.bage.lo ^^^ (A.ga.lo ^^^ (A.kame.lo ^^^ (A.ma.lo ^^^ A.sa.lo)))
  e : C.ae.hi = A.begi.lo ^^^ (A.bage.hi ^^^ (A.kemi.lo ^^^ (A.kame.hi ^^^ A.se.lo)))
  i : C.io.lo = A.bi.lo ^^^ (A.begi.hi ^^^ (A.ki.lo ^^^ (A.kemi.hi ^^^ A.si.lo)))
  o : C.io.hi = A.bo.lo ^^^ (A.go.lo ^^^ (A.ko.lo ^^^ (A.mo.lo ^^^ A.so.lo)))
  u : C.u.lo = A.bu.lo ^^^ (A.gu.lo ^^^ (A.ku.lo ^^^ (A.mu.lo ^^^ A.su.lo)))

theorem view_128 (rc : U64) (A : Lanes128) (C : Cols128) (h : Sums128 A C) : copyToState_128 (round128 rc A C).2.1 = listRound (copyToState_128 A) rc := by
  obtain ⟨h1, h2, h3, h4, h5⟩ := h
  unfold copyToState_128 listRound
  simp only [Lemmas.Keccak.theta_list, Lemmas.Keccak.rhoPi_list, Lemmas.Keccak.chi_list, Model.Keccak.at_, List.getD_cons_zero, List.set_cons_zero]
  unfold round128
  simp only [xor128, andnot128, rol128, load64, getLo, getHi, hiToLo, rol64_eq, h1, h2, h3, h4, h5, BitVec.xor_assoc, BitVec.xor_zero]

theorem sums_128 (rc : U64) (A : Lanes128) (C : Cols128) : Sums128 (round128 rc A C).2.1 (round128 rc A C).2.2 := by
  refine ⟨?_, ?_, ?_, ?_, ?_⟩
  · refine Eq.trans (show _ = ((((round128 rc A C).2.1.bage.lo ^^^ (round128 rc A C).2.1.kame.lo) ^^^ (round128 rc A C).2.1.sa.lo) ^^^ ((round128 rc A C).2.1.ga.lo ^^^ (round128 rc A C).2.1.ma.lo)) ^^^ 0#64 from rfl) ?_
    generalize (round128 rc A C).2.1 = E
    rw [BitVec.xor_zero]; ac_rfl
  · refine Eq.trans (show _ = ((((round128 rc A C).2.1.bage.hi ^^^ (round128 rc A C).2.1.kame.hi) ^^^ (round128 rc A C).2.1.se.lo) ^^^ 0#64) ^^^ ((round128 rc A C).2.1.begi.lo ^^^ (round128 rc A C).2.1.kemi.lo) from rfl) ?_
    generalize (round128 rc A C).2.1 = E
    rw [BitVec.xor_zero]; ac_rfl
  · refine Eq.trans (show _ = ((((round128 rc A C).2.1.bi.lo ^^^ (round128 rc A C).2.1.ki.lo) ^^^ (round128 rc A C).2.1.si.lo) ^^^ ((round128 rc A C).2.1.begi.hi ^^^ (round128 rc A C).2.1.kemi.hi)) ^^^ 0#64 from rfl) ?_
    generalize (round128 rc A C).2.1 = E
    rw [BitVec.xor_zero]; ac_rfl
  · refine Eq.trans (show _ = ((((round128 rc A C).2.1.go.lo ^^^ (round128 rc A C).2.1.mo.lo) ^^^ (round128 rc A C).2.1.so.lo) ^^^ 0#64) ^^^ ((round128 rc A C).2.1.bo.lo ^^^ (round128 rc A C).2.1.ko.lo) from rfl) ?_
    generalize (round128 rc A C).2.1 = E
    rw [BitVec.xor_zero]; ac_rfl
  · refine Eq.trans (show _ = (round128 rc A C).2.1.su.lo ^^^ (((round128 rc A C).2.1.bu.lo ^^^ (round128 rc A C).2.1.ku.lo) ^^^ ((round128 rc A C).2.1.gu.lo ^^^ (round128 rc A C).2.1.mu.lo)) from rfl) ?_
    generalize (round128 rc A C).2.1 = E
    ac_rfl

def good128 : Good macros128 where
  view := copyToState_128
  sums := Sums128
  view_length _ := rfl
  constants := by decide
  round rc A C h := ⟨view_128 rc A C h, sums_128 rc A C⟩
  last rc A C h := view_128 rc A C h
  copy _ _ := rfl

end Verif.Lemmas.KeccakC
