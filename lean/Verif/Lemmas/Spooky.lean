import Verif.Model.Spooky
import Verif.Spec.Spooky
import Verif.Lemmas.Basic
import Mathlib.Tactic.IntervalCases

namespace Verif

/-- A loop that eats `n`-element blocks off a slice, guarded by a separately kept length. -/
theorem Go.while_blocks_len {n : Nat} (hn : 0 < n) {cond : σ × List α × Nat → Bool}
    {body : σ × List α × Nat → Go (σ × List α × Nat)} {f : σ → List α → σ}
    (hc : ∀ s p l, cond (s, p, l) = decide (n ≤ l))
    (hb : ∀ s p l, n ≤ p.length → body (s, p, l) = .ok (f s (p.take n), p.drop n, l - n))
    (fuel : Nat) (s : σ) (p : List α) (hf : p.length / n ≤ fuel) :
    Go.while_ fuel cond body (s, p, p.length) = .ok ((blocks n p).foldl f s, tailOf n p, p.length % n) := by
  induction fuel generalizing s p with
  | zero =>
    have h : p.length < n := by
      rcases Nat.lt_or_ge p.length n with h | h
      · exact h
      · have := Nat.div_pos h hn; omega
    have h' : ¬ n ≤ p.length := by omega
    simp [Go.while_, hc, h', blocks_of_lt h, tailOf_of_lt h, Nat.mod_eq_of_lt h]
  | succ m ih =>
    by_cases h : n ≤ p.length
    · have e : p.length / n = (p.length - n) / n + 1 := by
        rw [← Nat.sub_add_cancel h, Nat.add_div_right _ hn]; simp
      rw [Go.while_, hc]
      simp only [h, decide_true, if_true, hb s p _ h]
      rw [blocks_of_le hn h, tailOf_of_le hn h]
      show Go.while_ m cond body (f s (p.take n), p.drop n, p.length - n) = _
      have := ih (f s (p.take n)) (p.drop n) (by simp; omega)
      rw [List.length_drop] at this
      rw [this, Nat.mod_eq_sub_mod h]
      rfl
    · have h' := Nat.lt_of_not_le h
      simp [Go.while_, hc, h, blocks_of_lt h', tailOf_of_lt h', Nat.mod_eq_of_lt h']

end Verif

namespace Verif.Lemmas.Spooky
open Verif Verif.Model.Spooky Verif.Arx

/-! ## Straight-line code -/

theorem mixProg_eq : mixProg = (List.finRange 12).flatMap fun i =>
    [.add i [.par i], .xor (i + 2) (i + 10), .xor (i + 11) i, .rotl i (Spec.Spooky.mixRot.getD i 0), .add (i + 11) [.reg (i + 1)]] := by
  decide

theorem endProg_eq : endPartialProg = (List.finRange 12).flatMap fun i =>
    [.add (i + 11) [.reg (i + 1)], .xor (i + 2) (i + 11), .rotl (i + 1) (Spec.Spooky.endRot.getD i 0)] := by
  decide

theorem shortMixProg_eq : shortMixProg = (List.range 12).flatMap fun i =>
    [.rotl (Fin.ofNat 4 i + 2) (Spec.Spooky.shortMixRot.getD i 0), .add (Fin.ofNat 4 i + 2) [.reg (Fin.ofNat 4 i + 3)],
      .xor (Fin.ofNat 4 i) (Fin.ofNat 4 i + 2)] := by
  decide

theorem shortEndProg_eq : shortEndProg = (List.range 11).flatMap fun i =>
    [.xor (Fin.ofNat 4 i + 3) (Fin.ofNat 4 i + 2), .rotl (Fin.ofNat 4 i + 2) (Spec.Spooky.shortEndRot.getD i 0),
      .add (Fin.ofNat 4 i + 3) [.reg (Fin.ofNat 4 i + 2)]] := by
  decide

theorem total_one (par : Nat → U64) (s : Regs n) (x : Operand n) : total par s [x] = x.val par s := by
  simp [total]

theorem foldl_congr' {f g : σ → α → σ} (l : List α) (h : ∀ s, ∀ a ∈ l, f s a = g s a) (s : σ) : l.foldl f s = l.foldl g s := by
  induction l generalizing s with
  | nil => rfl
  | cons a l ih =>
    rw [List.foldl_cons, List.foldl_cons, h s a List.mem_cons_self]
    exact ih (fun s b hb => h s b (List.mem_cons_of_mem _ hb)) _

theorem Mix_eq (d : Nat → U64) (s : Regs 12) : Mix d s = Spec.Spooky.mix d s := by
  rw [Mix, mixProg_eq, run_flatMap]
  apply foldl_congr'
  intro s i _
  have hk : ∀ i : Fin 12, Spec.Spooky.mixRot.getD i 0 < 64 := by decide
  simp only [run, List.foldl_cons, List.foldl_nil, Instr.eval, total_one, Operand.val, Spec.Spooky.mixStep, Spec.Spooky.upd]
  simp only [rotl_eq _ (hk i)]

theorem EndPartial_eq (s : Regs 12) : EndPartial s = Spec.Spooky.endPartial s := by
  rw [EndPartial, endProg_eq, run_flatMap]
  apply foldl_congr'
  intro s i _
  have hk : ∀ i : Fin 12, Spec.Spooky.endRot.getD i 0 < 64 := by decide
  simp only [run, List.foldl_cons, List.foldl_nil, Instr.eval, total_one, Operand.val, Spec.Spooky.endStep, Spec.Spooky.upd]
  simp only [rotl_eq _ (hk i)]

theorem ShortMix_eq (s : Regs 4) : ShortMix s = Spec.Spooky.shortMix s := by
  rw [ShortMix, shortMixProg_eq, run_flatMap]
  apply foldl_congr'
  intro s i hi
  have hk : ∀ i ∈ List.range 12, Spec.Spooky.shortMixRot.getD i 0 < 64 := by decide
  simp only [run, List.foldl_cons, List.foldl_nil, Instr.eval, total_one, Operand.val, Spec.Spooky.shortMixStep, Spec.Spooky.upd]
  simp only [rotl_eq _ (hk i hi)]

theorem ShortEnd_eq (s : Regs 4) : ShortEnd s = Spec.Spooky.shortEnd s := by
  rw [ShortEnd, shortEndProg_eq, run_flatMap]
  apply foldl_congr'
  intro s i hi
  have hk : ∀ i ∈ List.range 11, Spec.Spooky.shortEndRot.getD i 0 < 64 := by decide
  simp only [run, List.foldl_cons, List.foldl_nil, Instr.eval, total_one, Operand.val, Spec.Spooky.shortEndStep, Spec.Spooky.upd]
  simp only [rotl_eq _ (hk i hi)]

theorem endAdd_eq (d : Nat → U64) (s : Regs 12) : run d s endAddProg = fun i => s i + d i := by
  have e : ∀ (l : List (Fin 12)) (s : Regs 12), l.Nodup →
      run d s (l.map fun i => Instr.add i [.par i]) = fun i => if i ∈ l then s i + d i else s i := by
    intro l
    induction l with
    | nil => intro s _; funext i; simp [run]
    | cons a l ih =>
      intro s hnd
      rw [List.nodup_cons] at hnd
      show run d ((Instr.add a [.par a]).eval d s) _ = _
      rw [ih _ hnd.2]
      funext i
      simp only [Instr.eval, total_one, Operand.val]
      by_cases hia : i = a
      · subst hia; simp [hnd.1]
      · simp [hia]
  have h : endAddProg = (List.finRange 12).map fun i => Instr.add i [.par i] := by decide
  rw [h, e _ _ (List.nodup_finRange 12)]
  simp

theorem End_eq (d : Nat → U64) (s : Regs 12) : End d s = Spec.Spooky.end_ d s := by
  rw [End, endAdd_eq]; simp only [EndPartial_eq]; rfl

/-! ## Loads -/

theorem load8 {p : List U8} (h : 8 ≤ p.length) : U8tou64le p = .ok (Spec.Spooky.word p 0) := by
  obtain ⟨a, b, c, d, e, f, g, i, q, rfl⟩ := exists_cons8 h
  simp only [U8tou64le, Go.idx, List.getElem?_cons_zero, List.getElem?_cons_succ, Go.bind_ok, Go.pure_ok]
  rw [or8_eq a b c d e f g i q]
  rfl

theorem word_drop (p : List U8) (i j : Nat) : Spec.Spooky.word (p.drop (8 * i)) j = Spec.Spooky.word p (i + j) := by
  rw [Spec.Spooky.word, Spec.Spooky.word, List.drop_drop, Nat.mul_add]

theorem word_drop8 (p : List U8) (j : Nat) : Spec.Spooky.word (p.drop 8) j = Spec.Spooky.word p (1 + j) := word_drop p 1 j

theorem word_take (p : List U8) (n i : Nat) (h : 8 * i + 8 ≤ n) : Spec.Spooky.word (p.take n) i = Spec.Spooky.word p i := by
  rw [Spec.Spooky.word, Spec.Spooky.word, List.drop_take, List.take_take, Nat.min_eq_left (by omega)]

theorem two_words (s : Regs 4) (x y : U64) : addTo (addTo s 2 x) 3 y = Spec.Spooky.upd (Spec.Spooky.upd s 2 (s 2 + x)) 3 (s 3 + y) := by
  simp only [addTo, Spec.Spooky.upd]
  rw [Function.update_of_ne (by decide : (3 : Fin 4) ≠ 2)]

theorem two_words' (s : Regs 4) (x y : U64) : addTo (addTo s 0 x) 1 y = Spec.Spooky.upd (Spec.Spooky.upd s 0 (s 0 + x)) 1 (s 1 + y) := by
  simp only [addTo, Spec.Spooky.upd]
  rw [Function.update_of_ne (by decide : (1 : Fin 4) ≠ 0)]

theorem shortBody_eq (s : Regs 4) (p : List U8) (l : Nat) (h : 32 ≤ p.length) :
    shortBody (s, p, l) = .ok (Spec.Spooky.shortBlock s (p.take 32), p.drop 32, l - 32) := by
  have l1 : (p.drop 8).length = p.length - 8 := by simp
  have l2 : (p.drop 16).length = p.length - 16 := by simp
  have l3 : (p.drop 24).length = p.length - 24 := by simp
  unfold shortBody
  simp only [load8 (show 8 ≤ p.length by omega), Go.from_eq (show 8 ≤ p.length by omega), Go.bind_ok,
    load8 (show 8 ≤ (p.drop 8).length by omega), Go.from_eq (show 8 ≤ (p.drop 8).length by omega), List.drop_drop, Nat.reduceAdd,
    load8 (show 8 ≤ (p.drop 16).length by omega), Go.from_eq (show 8 ≤ (p.drop 16).length by omega),
    load8 (show 8 ≤ (p.drop 24).length by omega), Go.from_eq (show 8 ≤ (p.drop 24).length by omega), Go.pure_ok]
  rw [two_words, two_words', ShortMix_eq]
  have e1 := word_drop p 1 0
  have e2 := word_drop p 2 0
  have e3 := word_drop p 3 0
  simp only [Nat.reduceMul, Nat.reduceAdd, Nat.add_zero] at e1 e2 e3
  rw [e1, e2, e3]
  simp only [Spec.Spooky.shortBlock, word_take p 32 0 (by omega), word_take p 32 1 (by omega), word_take p 32 2 (by omega), word_take p 32 3 (by omega)]

theorem short16_eq (s : Regs 4) (t : List U8) (ht : t.length < 32) :
    short16 s t t.length = .ok (if 16 ≤ t.length then
      (Spec.Spooky.shortMix (Spec.Spooky.upd (Spec.Spooky.upd s 2 (s 2 + Spec.Spooky.word t 0)) 3 (s 3 + Spec.Spooky.word t 1)), t.drop 16, (t.drop 16).length)
      else (s, t, t.length)) := by
  unfold short16
  by_cases h : 16 ≤ t.length
  · have l1 : (t.drop 8).length = t.length - 8 := by simp
    rw [if_pos h, if_pos h]
    simp only [load8 (show 8 ≤ t.length by omega), Go.from_eq (show 8 ≤ t.length by omega), Go.bind_ok,
      load8 (show 8 ≤ (t.drop 8).length by omega), Go.from_eq (show 8 ≤ (t.drop 8).length by omega), List.drop_drop, Nat.reduceAdd, Go.pure_ok]
    rw [two_words, ShortMix_eq, List.length_drop]
    have e1 := word_drop t 1 0
    simp only [Nat.reduceMul, Nat.reduceAdd, Nat.add_zero] at e1
    rw [e1]
  · rw [if_neg h, if_neg h]

/-! ## The final switch -/

theorem addTo_same (s : Regs 4) (r : Fin 4) (x y : U64) : addTo (addTo s r x) r y = addTo s r (x + y) := by
  simp only [addTo, Function.update_self, Function.update_idem, BitVec.add_assoc]

theorem addTo_swap (s : Regs 4) (x y : U64) : addTo (addTo s 3 y) 2 x = addTo (addTo s 2 x) 3 y := by
  simp only [addTo]
  rw [Function.update_of_ne (by decide : (2 : Fin 4) ≠ 3), Function.update_of_ne (by decide : (3 : Fin 4) ≠ 2),
    Function.update_comm (by decide : (2 : Fin 4) ≠ 3)]

theorem addTo_zero (s : Regs 4) (r : Fin 4) : addTo s r 0#64 = s := by
  simp only [addTo, BitVec.add_zero, Function.update_eq_self]

theorem load4 (a b c d : U8) (q : List U8) :
    U8tou32le (a :: b :: c :: d :: q) = .ok (BitVec.ofNat 64 (leNat [a, b, c, d])) := by
  simp only [U8tou32le, Go.idx, List.getElem?_cons_zero, List.getElem?_cons_succ, Go.bind_ok, Go.pure_ok]
  have := orBytes_eq (w := 64) [a, b, c, d] (by simp)
  simp only [orBytes, Nat.zero_add, Nat.reduceAdd, BitVec.shiftLeft_zero, BitVec.zero_or] at this
  rw [this]

theorem ofNat_add' (a b : Nat) : BitVec.ofNat 64 a + BitVec.ofNat 64 b = BitVec.ofNat 64 (a + b) := by
  rw [BitVec.ofNat_add]

theorem word_zero_of_le (u : List U8) (h : u.length ≤ 8) : Spec.Spooky.word u 1 = 0#64 := by
  rw [Spec.Spooky.word, List.drop_of_length_le (by omega)]; rfl

theorem idx_lt {p : List U8} {i : Nat} (h : i < p.length) : Go.idx p i = .ok p[i] := Go.idx_eq h

theorem word_take_succ {u : List U8} {d k : Nat} (h : d + k < u.length) :
    BitVec.ofNat 64 (leNat ((u.drop d).take (k + 1))) = BitVec.ofNat 64 (leNat ((u.drop d).take k)) + u[d + k].setWidth 64 <<< (8 * k) := by
  have := leNat_take_succ (t := u.drop d) (k := k) (by simp; omega)
  rw [this, byte_shl, BitVec.ofNat_add]
  simp

/-- Abbreviation: the number of the `k` bytes from offset `d`. -/
def wd (u : List U8) (d k : Nat) : U64 := BitVec.ofNat 64 (leNat ((u.drop d).take k))

theorem wd_succ {u : List U8} {d k : Nat} (h : d + k < u.length) : wd u d k + u[d + k].setWidth 64 <<< (8 * k) = wd u d (k + 1) :=
  (word_take_succ h).symm

theorem wd_zero (u : List U8) (d : Nat) : wd u d 0 = 0#64 := by simp [wd, leNat]

theorem wd_one {u : List U8} {d : Nat} (h : d < u.length) : u[d].setWidth 64 = wd u d 1 := by
  have := wd_succ (u := u) (d := d) (k := 0) (by omega)
  simpa [wd_zero] using this

theorem load4_wd {u : List U8} (h : 4 ≤ u.length) : U8tou32le u = .ok (wd u 0 4) := by
  obtain ⟨a, b, c, d, q, rfl⟩ := exists_cons4 h
  rw [load4]; rfl

theorem load8_wd {u : List U8} (h : 8 ≤ u.length) : U8tou64le u = .ok (wd u 0 8) := load8 h

theorem case1_eq {u : List U8} (h : 1 ≤ u.length) (s : Regs 4) : case1 u s = .ok (addTo s 2 (wd u 0 1)) := by
  unfold case1; rw [idx_lt (show 0 < u.length by omega), Go.bind_ok, wd_one]; rfl

theorem case2_eq {u : List U8} (h : 2 ≤ u.length) (s : Regs 4) : case2 u s = .ok (addTo s 2 (wd u 0 2)) := by
  unfold case2
  rw [idx_lt (show 1 < u.length by omega), Go.bind_ok, case1_eq (by omega), addTo_same, BitVec.add_comm, ← wd_succ (d := 0) (k := 1) (by omega)]
  try rfl

theorem case3_eq {u : List U8} (h : 3 ≤ u.length) (s : Regs 4) : case3 u s = .ok (addTo s 2 (wd u 0 3)) := by
  unfold case3
  rw [idx_lt (show 2 < u.length by omega), Go.bind_ok, case2_eq (by omega), addTo_same, BitVec.add_comm, ← wd_succ (d := 0) (k := 2) (by omega)]
  try rfl

theorem case4_eq {u : List U8} (h : 4 ≤ u.length) (s : Regs 4) : case4 u s = .ok (addTo s 2 (wd u 0 4)) := by
  unfold case4; rw [load4_wd h, Go.bind_ok]; rfl

theorem case5_eq {u : List U8} (h : 5 ≤ u.length) (s : Regs 4) : case5 u s = .ok (addTo s 2 (wd u 0 5)) := by
  unfold case5
  rw [idx_lt (show 4 < u.length by omega), Go.bind_ok, case4_eq (by omega), addTo_same, BitVec.add_comm, ← wd_succ (d := 0) (k := 4) (by omega)]
  try rfl

theorem case6_eq {u : List U8} (h : 6 ≤ u.length) (s : Regs 4) : case6 u s = .ok (addTo s 2 (wd u 0 6)) := by
  unfold case6
  rw [idx_lt (show 5 < u.length by omega), Go.bind_ok, case5_eq (by omega), addTo_same, BitVec.add_comm, ← wd_succ (d := 0) (k := 5) (by omega)]
  try rfl

theorem case7_eq {u : List U8} (h : 7 ≤ u.length) (s : Regs 4) : case7 u s = .ok (addTo s 2 (wd u 0 7)) := by
  unfold case7
  rw [idx_lt (show 6 < u.length by omega), Go.bind_ok, case6_eq (by omega), addTo_same, BitVec.add_comm, ← wd_succ (d := 0) (k := 6) (by omega)]
  try rfl

theorem case8_eq {u : List U8} (h : 8 ≤ u.length) (s : Regs 4) : case8 u s = .ok (addTo s 2 (wd u 0 8)) := by
  unfold case8; rw [load8_wd h, Go.bind_ok]; rfl

theorem case9_eq {u : List U8} (h : 9 ≤ u.length) (s : Regs 4) : case9 u s = .ok (addTo (addTo s 2 (wd u 0 8)) 3 (wd u 8 1)) := by
  unfold case9
  rw [idx_lt (show 8 < u.length by omega), Go.bind_ok, case8_eq (by omega), addTo_swap, wd_one]

theorem case10_eq {u : List U8} (h : 10 ≤ u.length) (s : Regs 4) : case10 u s = .ok (addTo (addTo s 2 (wd u 0 8)) 3 (wd u 8 2)) := by
  unfold case10
  rw [idx_lt (show 9 < u.length by omega), Go.bind_ok, case9_eq (by omega), addTo_swap, addTo_same, BitVec.add_comm, ← wd_succ (d := 8) (k := 1) (by omega)]

theorem case11_eq {u : List U8} (h : 11 ≤ u.length) (s : Regs 4) : case11 u s = .ok (addTo (addTo s 2 (wd u 0 8)) 3 (wd u 8 3)) := by
  unfold case11
  rw [idx_lt (show 10 < u.length by omega), Go.bind_ok, case10_eq (by omega), addTo_swap, addTo_same, BitVec.add_comm, ← wd_succ (d := 8) (k := 2) (by omega)]

theorem case12_eq {u : List U8} (h : 12 ≤ u.length) (s : Regs 4) : case12 u s = .ok (addTo (addTo s 2 (wd u 0 8)) 3 (wd u 8 4)) := by
  unfold case12
  rw [Go.from_eq (show 8 ≤ u.length by omega), Go.bind_ok, load4_wd (by simp; omega), Go.bind_ok, load8_wd (by omega), Go.bind_ok]
  rw [show wd (u.drop 8) 0 4 = wd u 8 4 from rfl]
  simp only [addTo_swap]
  rfl

theorem case13_eq {u : List U8} (h : 13 ≤ u.length) (s : Regs 4) : case13 u s = .ok (addTo (addTo s 2 (wd u 0 8)) 3 (wd u 8 5)) := by
  unfold case13
  rw [idx_lt (show 12 < u.length by omega), Go.bind_ok, case12_eq (by omega), addTo_swap, addTo_same, BitVec.add_comm, ← wd_succ (d := 8) (k := 4) (by omega)]

theorem case14_eq {u : List U8} (h : 14 ≤ u.length) (s : Regs 4) : case14 u s = .ok (addTo (addTo s 2 (wd u 0 8)) 3 (wd u 8 6)) := by
  unfold case14
  rw [idx_lt (show 13 < u.length by omega), Go.bind_ok, case13_eq (by omega), addTo_swap, addTo_same, BitVec.add_comm, ← wd_succ (d := 8) (k := 5) (by omega)]

theorem case15_eq {u : List U8} (h : 15 ≤ u.length) (s : Regs 4) : case15 u s = .ok (addTo (addTo s 2 (wd u 0 8)) 3 (wd u 8 7)) := by
  unfold case15
  rw [idx_lt (show 14 < u.length by omega), Go.bind_ok, case14_eq (by omega), addTo_swap, addTo_same, BitVec.add_comm, ← wd_succ (d := 8) (k := 6) (by omega)]

theorem wd_all {u : List U8} {d k : Nat} (h : u.length ≤ d + k) (h8 : k ≤ 8) (i : Nat) (hi : 8 * i = d) : wd u d k = Spec.Spooky.word u i := by
  rw [wd, Spec.Spooky.word, hi, List.take_of_length_le (by simp; omega), List.take_of_length_le (by simp; omega)]

theorem shortSwitch_eq (u : List U8) (hu : u.length < 16) (s : Regs 4) :
    shortSwitch u.length u s = .ok (if u = [] then Spec.Spooky.upd (Spec.Spooky.upd s 2 (s 2 + Spec.Spooky.scConst)) 3 (s 3 + Spec.Spooky.scConst)
      else Spec.Spooky.upd (Spec.Spooky.upd s 2 (s 2 + Spec.Spooky.word u 0)) 3 (s 3 + Spec.Spooky.word u 1)) := by
  rcases Nat.eq_zero_or_pos u.length with h0 | h0
  · have : u = [] := List.length_eq_zero_iff.1 h0
    subst this
    rw [if_pos rfl, ← two_words]; rfl
  · have hne : u ≠ [] := by intro h; rw [h] at h0; simp at h0
    rw [if_neg hne, ← two_words]
    have hs : ∀ k, u.length = k → k ≤ 8 → addTo s 2 (wd u 0 k) = addTo (addTo s 2 (Spec.Spooky.word u 0)) 3 (Spec.Spooky.word u 1) := by
      intro k hk h8
      rw [word_zero_of_le u (by omega), addTo_zero, wd_all (by omega) h8 0 rfl]
    have hl : ∀ k, u.length = k + 8 → k ≤ 8 → addTo (addTo s 2 (wd u 0 8)) 3 (wd u 8 k) = addTo (addTo s 2 (Spec.Spooky.word u 0)) 3 (Spec.Spooky.word u 1) := by
      intro k hk h8
      rw [wd_all (by omega) h8 1 rfl]; rfl
    unfold shortSwitch
    have h16 := hu
    generalize hr : u.length = r
    rw [hr] at h16 h0
    split
    · rw [case15_eq (by omega), hl 7 (by omega) (by omega)]
    · rw [case14_eq (by omega), hl 6 (by omega) (by omega)]
    · rw [case13_eq (by omega), hl 5 (by omega) (by omega)]
    · rw [case12_eq (by omega), hl 4 (by omega) (by omega)]
    · rw [case11_eq (by omega), hl 3 (by omega) (by omega)]
    · rw [case10_eq (by omega), hl 2 (by omega) (by omega)]
    · rw [case9_eq (by omega), hl 1 (by omega) (by omega)]
    · rw [case8_eq (by omega), hs 8 (by omega) (by omega)]
    · rw [case7_eq (by omega), hs 7 (by omega) (by omega)]
    · rw [case6_eq (by omega), hs 6 (by omega) (by omega)]
    · rw [case5_eq (by omega), hs 5 (by omega) (by omega)]
    · rw [case4_eq (by omega), hs 4 (by omega) (by omega)]
    · rw [case3_eq (by omega), hs 3 (by omega) (by omega)]
    · rw [case2_eq (by omega), hs 2 (by omega) (by omega)]
    · rw [case1_eq (by omega), hs 1 (by omega) (by omega)]
    · omega
    · exfalso
      clear hs hl hne hr
      interval_cases r <;> simp_all

/-! ## The whole functions -/

theorem Short_eq (p : List U8) (h1 h2 : U64) : SpookyHashShort p h1 h2 = .ok (Spec.Spooky.short p h1 h2) := by
  have key : ∀ s : Regs 4, shortHead s p =
      short16 ((blocks 32 p).foldl Spec.Spooky.shortBlock s) (tailOf 32 p) (tailOf 32 p).length := by
    intro s
    unfold shortHead
    by_cases h : p.length ≥ 16
    · rw [if_pos h, Go.while_blocks_len (n := 32) (by decide) (f := Spec.Spooky.shortBlock) (fun _ _ _ => rfl) shortBody_eq _ _ _ (by omega),
        Go.bind_ok]
      simp only []
      rw [tailOf_length]
    · rw [if_neg h, blocks_of_lt (by omega), tailOf_of_lt (by omega), Nat.mod_eq_of_lt (by omega)]
      unfold short16
      rw [if_neg (by omega)]; rfl
  unfold SpookyHashShort
  simp only []
  rw [key, short16_eq _ _ (tailOf_length_lt (by decide) _), Go.bind_ok]
  simp only [Spec.Spooky.short, Spec.Spooky.shortTail, show sc_const = Spec.Spooky.scConst from rfl]
  generalize (blocks 32 p).foldl Spec.Spooky.shortBlock _ = s
  have ht := tailOf_length_lt (n := 32) (by decide) p
  generalize tailOf 32 p = t at ht
  by_cases h : 16 ≤ t.length
  · simp only [if_pos h]
    rw [shortSwitch_eq _ (by simp; omega), Go.bind_ok, ShortEnd_eq]
    simp only [Go.pure_ok, addTo, Spec.Spooky.upd]
  · simp only [if_neg h]
    rw [shortSwitch_eq _ (by omega), Go.bind_ok, ShortEnd_eq]
    simp only [Go.pure_ok, addTo, Spec.Spooky.upd]

theorem words12_eq {p : List U8} (h : 96 ≤ p.length) : words12 p = .ok (Spec.Spooky.word p) := by
  rw [words12, if_pos (by omega)]; rfl

theorem mix_congr {d d' : Nat → U64} (h : ∀ i < 12, d i = d' i) (s : Spec.Spooky.St 12) : Spec.Spooky.mix d s = Spec.Spooky.mix d' s := by
  apply foldl_congr'
  intro s i _
  simp only [Spec.Spooky.mixStep, h i i.isLt]

theorem longBody_eq (s : Regs 12) (p : List U8) (l : Nat) (h : 96 ≤ p.length) :
    longBody (s, p, l) = .ok (Spec.Spooky.mix (Spec.Spooky.word (p.take 96)) s, p.drop 96, l - 96) := by
  unfold longBody
  simp only [words12_eq h, Go.bind_ok, Go.from_eq h, Go.pure_ok, Mix_eq]
  rw [mix_congr (d := Spec.Spooky.word p) (d' := Spec.Spooky.word (p.take 96))]
  intro i hi
  rw [word_take _ _ _ (by omega)]

theorem copyInto_eq (vs : List U8) (pre rest : List U8) (h : vs.length ≤ rest.length) :
    copyInto (pre ++ rest) pre.length vs = .ok (pre ++ vs ++ rest.drop vs.length) := by
  induction vs generalizing pre rest with
  | nil => simp [copyInto]
  | cons v vs ih =>
    match rest, h with
    | r :: rest, h =>
      unfold copyInto
      rw [Go.set, if_pos (by simp), Go.bind_ok]
      have e : (pre ++ r :: rest).set pre.length v = (pre ++ [v]) ++ rest := by simp
      have e2 : pre.length + 1 = (pre ++ [v]).length := by simp
      rw [e, e2, ih _ _ (by simpa using h)]
      simp

theorem Spooky_eq (p : List U8) (h1 h2 : U64) : SpookyHash128 p h1 h2 = .ok (Spec.Spooky.spooky128 p h1 h2) := by
  unfold SpookyHash128
  simp only [Spec.Spooky.spooky128, sc_bufSize]
  by_cases h : p.length < 192
  · rw [if_pos h, if_pos h, Short_eq]
  · rw [if_neg h, if_neg h]
    rw [Go.while_blocks_len (n := 96) (by decide) (f := fun s b => Spec.Spooky.mix (Spec.Spooky.word b) s) (fun _ _ _ => rfl) longBody_eq _ _ _ (by omega),
      Go.bind_ok]
    simp only []
    rw [if_neg (by rw [tailOf_length]; simp)]
    have ht := tailOf_length_lt (n := 96) (by decide) p
    rw [← tailOf_length 96 p]
    simp only [Spec.Spooky.long]
    have hs : (fun i : Fin 12 => if i = 0 ∨ i = 3 ∨ i = 6 ∨ i = 9 then h1 else if i = 1 ∨ i = 4 ∨ i = 7 ∨ i = 10 then h2 else sc_const) =
        (fun i : Fin 12 => if i.val % 3 = 0 then h1 else if i.val % 3 = 1 then h2 else Spec.Spooky.scConst) := by
      funext i
      have a : ∀ i : Fin 12, (i = 0 ∨ i = 3 ∨ i = 6 ∨ i = 9) ↔ i.val % 3 = 0 := by decide
      have b : ∀ i : Fin 12, (i = 1 ∨ i = 4 ∨ i = 7 ∨ i = 10) ↔ i.val % 3 = 1 := by decide
      simp only [a i, b i]; rfl
    rw [hs]
    generalize (blocks 96 p).foldl _ _ = s
    generalize tailOf 96 p = t at ht
    have hb : padCopy (List.replicate 96 0#8) t t.length = .ok (t ++ List.replicate (96 - t.length) 0#8) := by
      unfold padCopy
      by_cases h0 : t.length > 0
      · rw [if_pos h0]
        have := copyInto_eq t [] (List.replicate 96 0#8) (by rw [List.length_replicate]; omega)
        rw [List.drop_replicate] at this
        exact this
      · have : t = [] := List.length_eq_zero_iff.1 (by omega)
        subst this; rfl
    rw [hb, Go.bind_ok, Go.set, if_pos (by simp; omega), Go.bind_ok]
    have e : (t ++ List.replicate (96 - t.length) 0#8).set ((t ++ List.replicate (96 - t.length) 0#8).length - 1) (BitVec.ofNat 8 t.length) =
        t ++ List.replicate (95 - t.length) 0#8 ++ [BitVec.ofNat 8 t.length] := by
      obtain ⟨k, hk⟩ : ∃ k, 96 - t.length = k + 1 := ⟨95 - t.length, by omega⟩
      have hk' : 95 - t.length = k := by omega
      rw [hk, hk', List.replicate_succ', ← List.append_assoc]
      have : (t ++ List.replicate k 0#8 ++ [0#8]).length - 1 = (t ++ List.replicate k 0#8).length := by simp
      rw [this]
      simp
    rw [e, words12_eq (by simp; omega), Go.bind_ok, End_eq]
    rfl

end Verif.Lemmas.Spooky
