import Verif.Model.KeccakCPerm
import Verif.Lemmas.Keccak

/-! The C rounds work on a state in which six lanes are stored complemented. -/

namespace Verif.Lemmas.KeccakC
open Verif Verif.Model.KeccakC
open Verif.Model.Keccak (rotl64)
open Verif.Spec.Keccak (State keccakf RC)
open Verif.Lemmas.Keccak (lanes)

/-- The lanes a C state stands for: be, bi, go, ki, mi, sa are stored complemented. -/
def plain (A : Lanes) : List U64 :=
  [A.ba, ~~~ A.be, ~~~ A.bi, A.bo, A.bu, A.ga, A.ge, A.gi, ~~~ A.go, A.gu, A.ka, A.ke, ~~~ A.ki, A.ko, A.ku, A.ma, A.me, ~~~ A.mi, A.mo, A.mu,
    ~~~ A.sa, A.se, A.si, A.so, A.su]

theorem plain_length (A : Lanes) : (plain A).length = 25 := rfl

theorem ROL64_eq (x : U64) {n : Nat} (h : n < 64) : ROL64 x n = rotl64 x n := by
  have h1 := Lemmas.Keccak.rotl_ok x h
  unfold ROL64
  rw [h1]
  ext i hi
  rw [BitVec.getElem_rotateLeft]
  simp only [Nat.mod_eq_of_lt h]
  rw [BitVec.getElem_xor, BitVec.getElem_shiftLeft, BitVec.getElem_ushiftRight]
  split
  · rename_i hlt
    simp only [hlt, decide_true, Bool.not_true, Bool.false_and, Bool.false_bne]
    rw [BitVec.getLsbD_eq_getElem (by omega)]
  · rename_i hge
    have : x.getLsbD (64 - n + i) = false := BitVec.getLsbD_of_ge _ _ (by omega)
    simp only [this, hge, decide_false, Bool.not_false, Bool.true_and, Bool.bne_false]

theorem rotl_not (x : U64) {n : Nat} (h : n < 64) : rotl64 (~~~ x) n = ~~~ rotl64 x n := by
  rw [Lemmas.Keccak.rotl_ok _ h, Lemmas.Keccak.rotl_ok _ h]
  ext i hi
  rw [BitVec.getElem_rotateLeft, BitVec.getElem_not, BitVec.getElem_rotateLeft]
  split <;> rw [BitVec.getElem_not]

theorem or_dm (x y : U64) : x ||| y = ~~~ (~~~ x &&& ~~~ y) := by
  ext i hi
  simp

theorem not_xor_l (x y : U64) : ~~~ x ^^^ y = ~~~ (x ^^^ y) := by ext i hi; simp
theorem not_xor_r (x y : U64) : x ^^^ ~~~ y = ~~~ (x ^^^ y) := by ext i hi; simp
theorem notnot (x : U64) : ~~~ ~~~ x = x := BitVec.not_not

set_option linter.unusedSimpArgs false in
theorem round_last (rc : U64) (A : Lanes) : plain (thetaRhoPiChiIota rc A (prepareTheta A)) =
    (Model.Keccak.chi (Model.Keccak.rhoPi (Model.Keccak.theta (plain A)))).set 0 (Model.Keccak.at_ (Model.Keccak.chi (Model.Keccak.rhoPi (Model.Keccak.theta (plain A)))) 0 ^^^ rc) := by
  obtain ⟨a0, a1, a2, a3, a4, a5, a6, a7, a8, a9, a10, a11, a12, a13, a14, a15, a16, a17, a18, a19, a20, a21, a22, a23, a24⟩ := A
  unfold plain
  simp only [Lemmas.Keccak.theta_list, Lemmas.Keccak.rhoPi_list, Lemmas.Keccak.chi_list, Model.Keccak.at_, List.getD_cons_zero, List.set_cons_zero]
  unfold thetaRhoPiChiIota prepareTheta
  simp only [ROL64_eq _ (show 1 < 64 by decide), ROL64_eq _ (show 44 < 64 by decide), ROL64_eq _ (show 43 < 64 by decide), ROL64_eq _ (show 21 < 64 by decide),
    ROL64_eq _ (show 14 < 64 by decide), ROL64_eq _ (show 28 < 64 by decide), ROL64_eq _ (show 20 < 64 by decide), ROL64_eq _ (show 3 < 64 by decide),
    ROL64_eq _ (show 45 < 64 by decide), ROL64_eq _ (show 61 < 64 by decide), ROL64_eq _ (show 6 < 64 by decide), ROL64_eq _ (show 25 < 64 by decide),
    ROL64_eq _ (show 8 < 64 by decide), ROL64_eq _ (show 18 < 64 by decide), ROL64_eq _ (show 27 < 64 by decide), ROL64_eq _ (show 36 < 64 by decide),
    ROL64_eq _ (show 10 < 64 by decide), ROL64_eq _ (show 15 < 64 by decide), ROL64_eq _ (show 56 < 64 by decide), ROL64_eq _ (show 62 < 64 by decide),
    ROL64_eq _ (show 55 < 64 by decide), ROL64_eq _ (show 39 < 64 by decide), ROL64_eq _ (show 41 < 64 by decide), ROL64_eq _ (show 2 < 64 by decide),
    rotl_not _ (show 1 < 64 by decide), rotl_not _ (show 44 < 64 by decide), rotl_not _ (show 43 < 64 by decide), rotl_not _ (show 21 < 64 by decide),
    rotl_not _ (show 14 < 64 by decide), rotl_not _ (show 28 < 64 by decide), rotl_not _ (show 20 < 64 by decide), rotl_not _ (show 3 < 64 by decide),
    rotl_not _ (show 45 < 64 by decide), rotl_not _ (show 61 < 64 by decide), rotl_not _ (show 6 < 64 by decide), rotl_not _ (show 25 < 64 by decide),
    rotl_not _ (show 8 < 64 by decide), rotl_not _ (show 18 < 64 by decide), rotl_not _ (show 27 < 64 by decide), rotl_not _ (show 36 < 64 by decide),
    rotl_not _ (show 10 < 64 by decide), rotl_not _ (show 15 < 64 by decide), rotl_not _ (show 56 < 64 by decide), rotl_not _ (show 62 < 64 by decide),
    rotl_not _ (show 55 < 64 by decide), rotl_not _ (show 39 < 64 by decide), rotl_not _ (show 41 < 64 by decide), rotl_not _ (show 2 < 64 by decide),
    or_dm, not_xor_l, not_xor_r, notnot]

theorem round_both (rc : U64) (A : Lanes) (C : Cols) : thetaRhoPiChiIotaPrepareTheta rc A C = (thetaRhoPiChiIota rc A C, prepareTheta (thetaRhoPiChiIota rc A C)) := rfl

attribute [local irreducible] thetaRhoPiChiIota thetaRhoPiChiIotaPrepareTheta prepareTheta

/-- A round of the C code, seen as a function of the lanes. -/
def cround (A : Lanes) (r : Nat) : Lanes := thetaRhoPiChiIota (roundConstants.getD r 0#64) A (prepareTheta A)

theorem fold_pair (l : List Nat) (A : Lanes) :
    l.foldl (fun (q : Lanes × Cols) i => thetaRhoPiChiIotaPrepareTheta (roundConstants.getD i 0#64) q.1 q.2) (A, prepareTheta A) =
      (l.foldl cround A, prepareTheta (l.foldl cround A)) := by
  induction l generalizing A with
  | nil => rfl
  | cons i l ih =>
    rw [List.foldl_cons, List.foldl_cons, round_both]
    exact ih (cround A i)

theorem rounds_eq (A : Lanes) : rounds A = (List.range 24).foldl cround A := by
  unfold rounds
  rw [fold_pair, List.range_succ (n := 23), List.foldl_append]
  generalize (List.range 23).foldl cround A = X
  simp only [List.foldl_cons, List.foldl_nil, cround]

theorem cround_spec (A : Lanes) {r : Nat} (hr : r < 24) : lanes (plain (cround A r)) = Spec.Keccak.round (lanes (plain A)) r := by
  obtain ⟨S', h1, h2, -⟩ := Lemmas.Keccak.round_eq (plain_length A) hr
  rw [← h2]
  unfold Model.Keccak.round at h1
  have hrc : roundConstants.getD r 0#64 = RC r := by
    have h := Lemmas.Keccak.RC_eq r hr
    have he : roundConstants = Model.Keccak.roundConstants := by decide
    rw [he, List.getD_eq_getElem?_getD, h, Option.getD_some]
  rw [Go.idx, Lemmas.Keccak.RC_eq r hr] at h1
  dsimp only at h1
  rw [Go.bind_ok, Go.pure_ok] at h1
  have h1 := Except.ok.inj h1
  rw [← h1, cround, hrc, round_last]

theorem foldl_spec (l : List Nat) (hl : ∀ r ∈ l, r < 24) (A : Lanes) : lanes (plain (l.foldl cround A)) = l.foldl Spec.Keccak.round (lanes (plain A)) := by
  induction l generalizing A with
  | nil => rfl
  | cons r l ih =>
    rw [List.foldl_cons, List.foldl_cons, ih (fun x hx => hl x (List.mem_cons_of_mem _ hx)), cround_spec A (hl r List.mem_cons_self)]

/-- The 24 rounds of the C code are Keccak-f[1600] on the lanes the state stands for. -/
theorem rounds_spec (A : Lanes) : lanes (plain (rounds A)) = keccakf 24 (lanes (plain A)) := by
  rw [rounds_eq, foldl_spec _ (fun r hr => List.mem_range.1 hr)]
  rfl

end Verif.Lemmas.KeccakC
