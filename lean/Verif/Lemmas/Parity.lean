import Verif.Spec.Parity
import Verif.Lemmas.Bits

namespace Verif.Lemmas
open Verif Verif.Spec

theorem countP_xor (f g : Nat → Bool) (l : List Nat) : l.countP (fun i => f i ^^ g i) % 2 = (l.countP f + l.countP g) % 2 := by
  induction l with
  | nil => rfl
  | cons a l ih =>
    simp only [List.countP_cons]
    cases f a <;> cases g a <;> simp <;> omega

theorem ones_xor (a b : U64) : ones (a ^^^ b) % 2 = (ones a + ones b) % 2 := by
  have := countP_xor (fun i => a.getLsbD i) (fun i => b.getLsbD i) (List.range 64)
  simpa only [ones, BitVec.getLsbD_xor] using this

theorem range_split (r : Nat) (h : r ≤ 64) : List.range 64 = List.range r ++ (List.range (64 - r)).map (r + ·) := by
  rw [← List.range_add]; congr 1; omega

theorem ones_rotr (a : U64) (r : Nat) (h : r < 64) : ones (a.rotateRight r) = ones a := by
  have e1 : ones a = (List.range (64 - r)).countP (fun i => a.getLsbD (r + i)) + (List.range r).countP (fun i => a.getLsbD i) := by
    rw [ones, range_split r (by omega), List.countP_append, List.countP_map, Nat.add_comm]; rfl
  have e2 : ones (a.rotateRight r) = (List.range (64 - r)).countP (fun i => (a.rotateRight r).getLsbD i) +
      (List.range r).countP (fun i => (a.rotateRight r).getLsbD (64 - r + i)) := by
    rw [ones, range_split (64 - r) (by omega), List.countP_append, List.countP_map, show 64 - (64 - r) = r by omega]; rfl
  rw [e1, e2]
  congr 1
  · apply List.countP_congr
    intro i hi
    rw [List.mem_range] at hi
    rw [BitVec.getLsbD_rotateRight, Nat.mod_eq_of_lt h, decide_eq_true hi, cond_true]
  · apply List.countP_congr
    intro i hi
    rw [List.mem_range] at hi
    rw [BitVec.getLsbD_rotateRight, Nat.mod_eq_of_lt h, decide_eq_false (show ¬ 64 - r + i < 64 - r by omega), cond_false]
    have h1 : decide (64 - r + i < 64) = true := by simp; omega
    rw [h1, Bool.true_and, show 64 - r + i - (64 - r) = i by omega]

theorem ones_xor_rotr (a : U64) (r : Nat) (h : r < 64) : ones (a ^^^ a.rotateRight r) % 2 = 0 := by
  rw [ones_xor, ones_rotr a r h]; omega

end Verif.Lemmas
