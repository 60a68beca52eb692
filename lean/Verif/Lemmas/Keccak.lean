import Verif.Lemmas.KeccakRound

namespace Verif.Lemmas.Keccak
open Verif Verif.Model.Keccak
open Verif.Spec.Keccak (State parity offset RC walk xpow keccakf xorInto bytes)

theorem RC_eq : ∀ r < 24, roundConstants[r]? = some (RC r) := by decide +kernel

theorem round_eq {S : List U64} (h : S.length = 25) {r : Nat} (hr : r < 24) :
    ∃ S', round S r = .ok S' ∧ lanes S' = Spec.Keccak.round (lanes S) r ∧ S'.length = 25 := by
  obtain ⟨t1, t2⟩ := theta_eq h
  obtain ⟨p1, p2⟩ := rhoPi_eq t2
  obtain ⟨c1, c2⟩ := chi_eq p2
  refine ⟨_, by rw [round, Go.idx, RC_eq r hr, Go.bind_ok, Go.pure_ok], ?_, by rw [List.length_set, c2]⟩
  rw [Spec.Keccak.round, ← t1, ← p1, ← c1]
  funext x y
  unfold Spec.Keccak.iota lanes at_
  rw [List.getD_eq_getElem?_getD, List.getElem?_set]
  by_cases e : x = 0 ∧ y = 0
  · rw [if_pos e, e.1, e.2, if_pos (by rfl), if_pos (by rw [c2]; decide)]; rfl
  · rw [if_neg e, if_neg ?_, List.getD_eq_getElem?_getD]
    intro h0
    apply e
    constructor <;> apply Fin.ext <;> simp only [Fin.val_zero] <;> omega

theorem rounds_eq {S : List U64} (h : S.length = 25) {n : Nat} (hn : n ≤ 24) :
    ∃ S', Go.forRange 0 n (fun r S => round S r) S = .ok S' ∧ lanes S' = keccakf n (lanes S) ∧ S'.length = 25 := by
  have key : ∀ n lo S, S.length = 25 → lo + n ≤ 24 → ∃ S', Go.forRange lo n (fun r S => round S r) S = .ok S' ∧
      lanes S' = (List.range' lo n).foldl Spec.Keccak.round (lanes S) ∧ S'.length = 25 := by
    intro n
    induction n with
    | zero => intro lo S h _; exact ⟨S, rfl, rfl, h⟩
    | succ n ih =>
      intro lo S h hn
      obtain ⟨S1, e1, e2, e3⟩ := round_eq h (show lo < 24 by omega)
      obtain ⟨S2, f1, f2, f3⟩ := ih (lo + 1) S1 e3 (by omega)
      refine ⟨S2, ?_, ?_, f3⟩
      · rw [Go.forRange, e1]; exact f1
      · rw [List.range'_succ, List.foldl_cons, ← e2, f2]
  obtain ⟨S', h1, h2, h3⟩ := key n 0 S h (by omega)
  exact ⟨S', h1, by rw [h2, keccakf, List.range_eq_range'], h3⟩

theorem uint64le_eq {v : List U8} (h : 8 ≤ v.length) : uint64le v = .ok (le64 v) := by
  obtain ⟨a, b, c, d, e, f, g, i, q, rfl⟩ := exists_cons8 h
  unfold uint64le
  simp only [Go.idx, List.getElem?_cons_zero, List.getElem?_cons_succ, Go.bind_ok, Go.pure_ok, or8_eq a b c d e f g i q]

theorem absorbStep_eq (block : List U8) (S : List U64) (i : Nat) (hS : S.length = 25) (hi : i < 25) (hb : 8 * i + 8 ≤ block.length) :
    absorbStep block i S = .ok (S.set i (at_ S i ^^^ le64 (block.drop (8 * i)))) := by
  unfold absorbStep
  rw [Go.idx_eq (by omega), Go.bind_ok, Go.from_eq (by omega), Go.bind_ok, uint64le_eq (by rw [List.length_drop]; omega), Go.bind_ok, Go.set, if_pos (by omega),
    Nat.mul_comm i, at_, List.getD_eq_getElem?_getD, List.getElem?_eq_getElem (by omega), Option.getD_some]

theorem absorb_eq (block : List U8) (S : List U64) (n : Nat) (hS : S.length = 25) (hn : n ≤ 25) (hb : 8 * n ≤ block.length) :
    ∃ S', Go.forRange 0 n (absorbStep block) S = .ok S' ∧ S'.length = 25 ∧ ∀ i < 25, at_ S' i = if i < n then at_ S i ^^^ le64 (block.drop (8 * i)) else at_ S i := by
  have key : ∀ n lo S, S.length = 25 → lo + n ≤ 25 → 8 * (lo + n) ≤ block.length → ∃ S', Go.forRange lo n (absorbStep block) S = .ok S' ∧ S'.length = 25 ∧
      ∀ i < 25, at_ S' i = if lo ≤ i ∧ i < lo + n then at_ S i ^^^ le64 (block.drop (8 * i)) else at_ S i := by
    intro n
    induction n with
    | zero => intro lo S hS _ _; exact ⟨S, rfl, hS, fun i _ => by rw [if_neg (by omega)]⟩
    | succ n ih =>
      intro lo S hS h1 h2
      obtain ⟨S', e1, e2, e3⟩ := ih (lo + 1) (S.set lo (at_ S lo ^^^ le64 (block.drop (8 * lo)))) (by simp [hS]) (by omega) (by omega)
      refine ⟨S', by rw [Go.forRange, absorbStep_eq block S lo hS (by omega) (by omega)]; exact e1, e2, fun i hi => ?_⟩
      rw [e3 i hi]
      have hat : at_ (S.set lo (at_ S lo ^^^ le64 (block.drop (8 * lo)))) i = if lo = i then at_ S lo ^^^ le64 (block.drop (8 * lo)) else at_ S i := by
        unfold at_
        rw [List.getD_eq_getElem?_getD, List.getElem?_set]
        by_cases h : lo = i
        · rw [if_pos h, if_pos h, if_pos (by omega), Option.getD_some]
        · rw [if_neg h, if_neg h, List.getD_eq_getElem?_getD]
      rw [hat]
      by_cases h : lo = i
      · subst h; rw [if_neg (by omega), if_pos rfl, if_pos (by omega)]
      · rw [if_neg h]
        by_cases h' : lo + 1 ≤ i ∧ i < lo + 1 + n
        · rw [if_pos h', if_pos (by omega)]
        · rw [if_neg h', if_neg (by omega)]
  obtain ⟨S', e1, e2, e3⟩ := key n 0 S hS (by omega) (by omega)
  exact ⟨S', e1, e2, fun i hi => by rw [e3 i hi]; simp⟩

/-- A word of a zero-padded string that lies inside the string. -/
theorem word_in {b : List U8} (k i : Nat) (h : 8 * i + 8 ≤ b.length) : le64 ((b ++ List.replicate k 0#8).drop (8 * i)) = le64 (b.drop (8 * i)) := by
  unfold le64
  rw [List.drop_append_of_le_length (by omega), List.take_append_of_le_length (by rw [List.length_drop]; omega)]

theorem leNat_zeros (n : Nat) : leNat (List.replicate n 0#8) = 0 := by
  induction n with
  | zero => rfl
  | succ n ih => rw [List.replicate_succ, leNat, ih]; rfl

/-- A word of a zero-padded string beyond the string. -/
theorem word_out {b : List U8} (k i : Nat) (h : b.length ≤ 8 * i) : le64 ((b ++ List.replicate k 0#8).drop (8 * i)) = 0#64 := by
  unfold le64
  rw [List.drop_append, List.drop_of_length_le h, List.nil_append, List.drop_replicate, List.take_replicate, leNat_zeros]

/-- The usable prefix of a block: whole words only. -/
def whole (b : List U8) : List U8 := b.take (8 * (b.length / 8))

theorem absorb_lanes (block : List U8) (S : List U64) (hS : S.length = 25) (hb : block.length ≤ 200) :
    ∃ S', Go.forRange 0 (block.length / 8) (absorbStep block) S = .ok S' ∧ S'.length = 25 ∧ lanes S' = xorInto (lanes S) (whole block) := by
  obtain ⟨S', e1, e2, e3⟩ := absorb_eq block S (block.length / 8) hS (by omega) (by omega)
  refine ⟨S', e1, e2, ?_⟩
  funext x y
  have hx := x.isLt
  have hy := y.isLt
  have hwl : (whole block).length = 8 * (block.length / 8) := by rw [whole, List.length_take]; omega
  unfold xorInto
  show at_ S' (x.val + 5 * y.val) = at_ S (x.val + 5 * y.val) ^^^ _
  rw [e3 _ (by omega)]
  generalize x.val + 5 * y.val = i
  by_cases h : i < block.length / 8
  · rw [if_pos h, word_in _ _ (by omega), whole, List.drop_take]
    congr 1
    unfold le64
    rw [List.take_take, Nat.min_eq_left (by omega)]
  · rw [if_neg h, word_out _ _ (by omega), BitVec.xor_zero]

theorem f_eq (k : Keccak) (block : List U8) (hS : k.S.length = 25) (hb : (block.length : Int) = k.blockSize) (h2 : block.length ≤ 200) (hr : k.rounds ≤ 24) :
    ∃ S', k.f block = .ok { k with S := S' } ∧ S'.length = 25 ∧ lanes S' = keccakf k.rounds (xorInto (lanes k.S) (whole block)) := by
  obtain ⟨S1, e1, e2, e3⟩ := absorb_lanes block k.S hS h2
  obtain ⟨S2, f1, f2, f3⟩ := rounds_eq e2 hr
  refine ⟨S2, ?_, f3, by rw [f2, e3]⟩
  unfold Keccak.f
  rw [if_neg (by simp [hb]), ← hb, Int.toNat_natCast, e1, Go.bind_ok, f1, Go.bind_ok, Go.pure_ok]

end Verif.Lemmas.Keccak
