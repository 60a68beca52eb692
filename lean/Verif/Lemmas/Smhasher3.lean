import Verif.Lemmas.Smhasher2
import Mathlib.Data.Finset.Dedup
import Mathlib.Data.Finset.Card
import Mathlib.Tactic.Linarith
import Mathlib.Tactic.NormNum.GCD

namespace Verif.Lemmas.Smhasher
open Verif Verif.Model.Smhasher Verif.Spec.Smhasher
open Verif.Lemmas.Ht (set_eq forRange_collect flatMap_singleton_map)

theorem forRange_inv {σ : Type} {body : Nat → σ → Go σ} (P : Nat → σ → Prop) (lo n : Nat)
    (hb : ∀ j s, lo ≤ j → j < lo + n → P j s → ∃ s', body j s = .ok s' ∧ P (j + 1) s') (s : σ) (hs : P lo s) :
    ∃ s', Go.forRange lo n body s = .ok s' ∧ P (lo + n) s' := by
  induction n generalizing lo s with
  | zero => exact ⟨s, rfl, hs⟩
  | succ n ih =>
    obtain ⟨s1, h1, h2⟩ := hb lo s (by omega) (by omega) hs
    obtain ⟨s2, h3, h4⟩ := ih (lo + 1) (fun j s a b c => hb j s (by omega) (by omega) c) s1 h2
    refine ⟨s2, ?_, by rw [show lo + (n + 1) = lo + 1 + n by omega]; exact h4⟩
    rw [Go.forRange, h1]; exact h3

theorem forRange_traj {σ : Type} {body : Nat → σ → Go σ} (f : Nat → σ) (lo n : Nat)
    (hb : ∀ j, lo ≤ j → j < lo + n → body j (f j) = .ok (f (j + 1))) : Go.forRange lo n body (f lo) = .ok (f (lo + n)) := by
  obtain ⟨s, h1, h2⟩ := forRange_inv (fun j s => s = f j) lo n (body := body)
    (fun j s a b c => ⟨f (j + 1), by rw [c]; exact hb j a b, rfl⟩) (f lo) rfl
  rw [h1, h2]

/-! ### Tables -/

def tab {α : Type} (N : Nat) (f : Nat → α) : List α := (List.range N).map f

theorem tab_length {α : Type} (N : Nat) (f : Nat → α) : (tab N f).length = N := by simp [tab]

theorem tab_getElem? {α : Type} {N p : Nat} (f : Nat → α) (h : p < N) : (tab N f)[p]? = some (f p) := by
  simp [tab, h]

theorem tab_congr {α : Type} {N : Nat} {f g : Nat → α} (h : ∀ p, p < N → f p = g p) : tab N f = tab N g := by
  unfold tab
  apply List.map_congr_left
  intro p hp
  exact h p (List.mem_range.1 hp)

theorem tab_set {α : Type} {N p : Nat} (f : Nat → α) (h : p < N) (v : α) : (tab N f).set p v = tab N (fun q => if q = p then v else f q) := by
  apply List.ext_getElem (by simp [tab])
  intro q h1 h2
  rw [List.getElem_set]
  simp only [tab, List.getElem_map, List.getElem_range, eq_comm]

theorem tab_idx {α : Type} {N p : Nat} (f : Nat → α) (h : p < N) : Go.idx (tab N f) p = .ok (f p) := by
  rw [Go.idx_eq (by rw [tab_length]; exact h)]
  simp [tab]

theorem eq_tab (b : List U8) : b = tab b.length (fun p => b.getD p 0) := by
  apply List.ext_getElem (by simp [tab])
  intro q h1 h2
  simp [tab, List.getElem?_eq_getElem h1]

/-! ### Cyclic -/

/-- One period of the `i`th cyclic key. -/
def base (rnd : Nat → Nat → U8) (i p : Nat) : U8 :=
  if p = 0 then BitVec.ofNat 8 (i * 79 % 97) else if p = 1 then BitVec.ofNat 8 (i * 43 % 137) else
  if p = 2 then BitVec.ofNat 8 (i * 151 % 197) else if p = 3 then BitVec.ofNat 8 (i * 199 % 251) else rnd i (p - 4)

def cycKey (n : Nat) (rnd : Nat → Nat → U8) (i : Nat) : List U8 := tab (8 * n) fun p => base rnd i (p % n)

theorem cyclicBody_eq {n : Nat} (hn : 4 ≤ n) (rnd : Nat → Nat → U8) (i : Nat) (b : List U8) (hb : b.length = 8 * n) (out : List (List U8)) :
    cyclicBody n rnd i (b, out) = .ok (cycKey n rnd i, out ++ [cycKey n rnd i]) := by
  let g : Nat → List U8 := fun j => tab (8 * n) fun p => if p < j then base rnd i (p % n) else b.getD p 0
  have hstep : ∀ j, j < 8 * n → ∀ v, v = base rnd i (j % n) → put j v (g j, out) = .ok (g (j + 1), out) := by
    intro j hj v hv
    subst hv
    unfold put
    dsimp only
    rw [set_eq (by rw [tab_length]; exact hj), Go.bind_ok, Go.pure_ok, tab_set _ hj]
    congr 2
    apply tab_congr
    intro p _
    by_cases e : p = j
    · subst e; rw [if_pos rfl, if_pos (by omega)]
    · rw [if_neg e]
      by_cases l : p < j
      · rw [if_pos l, if_pos (by omega)]
      · rw [if_neg l, if_neg (by omega)]
  have h0 : b = g 0 := by
    conv_lhs => rw [eq_tab b, hb]
    apply tab_congr
    intro p _
    rw [if_neg (by omega)]
  unfold cyclicBody
  rw [h0]
  have m : ∀ p, p < n → base rnd i (p % n) = base rnd i p := fun p hp => by rw [Nat.mod_eq_of_lt hp]
  rw [hstep 0 (by omega) _ (by rw [m 0 (by omega)]; rfl), Go.bind_ok, hstep 1 (by omega) _ (by rw [m 1 (by omega)]; rfl), Go.bind_ok,
    hstep 2 (by omega) _ (by rw [m 2 (by omega)]; rfl), Go.bind_ok, hstep 3 (by omega) _ (by rw [m 3 (by omega)]; rfl), Go.bind_ok]
  rw [forRange_traj (fun j => (g j, out)) 4 (n - 4) (fun p h1 h2 => hstep p (by omega) _ (by
    rw [m p (by omega), base, if_neg (by omega), if_neg (by omega), if_neg (by omega), if_neg (by omega)]))]
  rw [Go.bind_ok, show 4 + (n - 4) = n by omega]
  rw [forRange_traj (fun j => (g j, out)) n (n * 8 - n) (fun j h1 h2 => by
    dsimp only
    rw [tab_idx _ (by omega), Go.bind_ok]
    apply hstep j (by omega)
    rw [if_pos (by omega)]
    congr 1
    rw [Nat.mod_eq_sub_mod h1])]
  rw [Go.bind_ok, Go.pure_ok, show n + (n * 8 - n) = 8 * n by omega]
  have : g (8 * n) = cycKey n rnd i := by
    apply tab_congr
    intro p hp
    rw [if_pos hp]
  rw [this]; rfl

theorem cyclic_eq {n : Nat} (hn : 4 ≤ n) (N : Nat) (rnd : Nat → Nat → U8) :
    ∃ b, cyclic N n rnd = .ok (b, (List.range N).map (cycKey n rnd)) := by
  unfold cyclic
  rw [if_pos hn]
  obtain ⟨s', h1, _⟩ := forRange_collect (fun b : List U8 => b.length = 8 * n) (fun i => [cycKey n rnd i]) 0 N (body := cyclicBody n rnd)
    (by
      intro i s out _ _ hs
      exact ⟨_, cyclicBody_eq hn rnd i s hs out, tab_length _ _⟩) (List.replicate (8 * n) 0#8) [] (by simp)
  refine ⟨s', h1.trans ?_⟩
  rw [flatMap_singleton_map, List.nil_append, ← List.range_eq_range']

theorem mul_mod_inj {a p i j : Nat} (hc : Nat.Coprime a p) (h : i * a % p = j * a % p) (hij : i ≤ j) : p ∣ j - i := by
  have : p ∣ j * a - i * a := (Nat.modEq_iff_dvd' (Nat.mul_le_mul_right a hij)).1 h
  rw [← Nat.sub_mul] at this
  exact (Nat.Coprime.symm hc).dvd_of_dvd_mul_right this

theorem base0 (rnd : Nat → Nat → U8) (i : Nat) : base rnd i 0 = BitVec.ofNat 8 (i * 79 % 97) := by rw [base, if_pos rfl]
theorem base1 (rnd : Nat → Nat → U8) (i : Nat) : base rnd i 1 = BitVec.ofNat 8 (i * 43 % 137) := by rw [base, if_neg (by omega), if_pos rfl]
theorem base2 (rnd : Nat → Nat → U8) (i : Nat) : base rnd i 2 = BitVec.ofNat 8 (i * 151 % 197) := by
  rw [base, if_neg (by omega), if_neg (by omega), if_pos rfl]
theorem base3 (rnd : Nat → Nat → U8) (i : Nat) : base rnd i 3 = BitVec.ofNat 8 (i * 199 % 251) := by
  rw [base, if_neg (by omega), if_neg (by omega), if_neg (by omega), if_pos rfl]

theorem mod_dvd {a p i j : Nat} (hc : Nat.Coprime a p) (hp : 0 < p) (hp' : p ≤ 256) (hij : i ≤ j)
    (h : BitVec.ofNat 8 (i * a % p) = BitVec.ofNat 8 (j * a % p)) : p ∣ j - i :=
  mul_mod_inj hc (ofNat8_inj (Nat.lt_of_lt_of_le (Nat.mod_lt _ hp) hp') (Nat.lt_of_lt_of_le (Nat.mod_lt _ hp) hp') h) hij

theorem crt4 {d a b c e : Nat} (h1 : Nat.Coprime a b) (h2 : Nat.Coprime c e) (h3 : Nat.Coprime (a * b) (c * e)) (ha : a ∣ d) (hb : b ∣ d) (hc : c ∣ d)
    (he : e ∣ d) : a * b * (c * e) ∣ d :=
  Nat.Coprime.mul_dvd_of_dvd_of_dvd h3 (Nat.Coprime.mul_dvd_of_dvd_of_dvd h1 ha hb) (Nat.Coprime.mul_dvd_of_dvd_of_dvd h2 hc he)

theorem cycKey_base {n : Nat} (hn : 4 ≤ n) (rnd : Nat → Nat → U8) {i j : Nat} (h : cycKey n rnd i = cycKey n rnd j) (p : Nat) (hp : p < 4) :
    base rnd i p = base rnd j p := by
  have := congrArg (fun l => l[p]?) h
  simp only [cycKey] at this
  rw [tab_getElem? _ (by omega), tab_getElem? _ (by omega), Nat.mod_eq_of_lt (by omega)] at this
  exact Option.some.inj this

theorem cycKey_inj {n : Nat} (hn : 4 ≤ n) (rnd : Nat → Nat → U8) {i j : Nat} (hij : i < j) (hj : j < 657101183) : cycKey n rnd i ≠ cycKey n rnd j := by
  intro h
  have d0 : 97 ∣ j - i := mod_dvd (a := 79) (by norm_num) (by norm_num) (by norm_num) hij.le (by rw [← base0 rnd, ← base0 rnd]; exact cycKey_base hn rnd h 0 (by norm_num))
  have d1 : 137 ∣ j - i := mod_dvd (a := 43) (by norm_num) (by norm_num) (by norm_num) hij.le (by rw [← base1 rnd, ← base1 rnd]; exact cycKey_base hn rnd h 1 (by norm_num))
  have d2 : 197 ∣ j - i := mod_dvd (a := 151) (by norm_num) (by norm_num) (by norm_num) hij.le (by rw [← base2 rnd, ← base2 rnd]; exact cycKey_base hn rnd h 2 (by norm_num))
  have d3 : 251 ∣ j - i := mod_dvd (a := 199) (by norm_num) (by norm_num) (by norm_num) hij.le (by rw [← base3 rnd, ← base3 rnd]; exact cycKey_base hn rnd h 3 (by norm_num))
  have := Nat.le_of_dvd (Nat.sub_pos_of_lt hij) (crt4 (by norm_num) (by norm_num) (by norm_num) d0 d1 d2 d3)
  exact absurd (Nat.lt_of_le_of_lt this (Nat.lt_of_le_of_lt (Nat.sub_le _ _) hj)) (by norm_num)

/-! ### Integer keys -/

theorem leBytes_tab (k x : Nat) : leBytes k x = tab k fun i => BitVec.ofNat 8 (x / 256 ^ i) := by
  induction k generalizing x with
  | zero => rfl
  | succ k ih =>
    rw [leBytes, ih, tab, tab, List.range_succ_eq_map, List.map_cons, List.map_map]
    congr 1
    · simp
    · apply List.map_congr_left
      intro p _
      simp only [Function.comp]
      rw [Nat.div_div_eq_div_mul, Nat.pow_succ, Nat.mul_comm 256]

theorem bit_leBytes (k x j : Nat) : bit (leBytes k x) j = (decide (j < 8 * k) && x.testBit j) := by
  rw [leBytes_tab]
  by_cases h : j < 8 * k
  · unfold bit
    rw [List.getD_eq_getElem?_getD, tab_getElem? _ (by omega), Option.getD_some, decide_eq_true h, Bool.true_and, BitVec.getLsbD_ofNat,
      decide_eq_true (by omega), Bool.true_and, show 256 ^ (j / 8) = 2 ^ (8 * (j / 8)) by rw [Nat.pow_mul], Nat.testBit_div_two_pow]
    congr 1; omega
  · rw [bit_oob (by rw [tab_length]; omega), decide_eq_false h, Bool.false_and]

theorem mask_byte {w : Nat} (x : BitVec w) (s : Nat) (hw : 8 ≤ w) : ((x >>> s) &&& BitVec.ofNat w 0xFF).setWidth 8 = BitVec.ofNat 8 (x.toNat / 2 ^ s) := by
  apply BitVec.eq_of_getLsbD_eq
  intro t ht
  have : (255 : Nat).testBit t = true := by
    have : ∀ t : Fin 8, (255 : Nat).testBit t.val = true := by decide
    exact this ⟨t, ht⟩
  rw [BitVec.getLsbD_setWidth, BitVec.getLsbD_and, BitVec.getLsbD_ushiftRight, BitVec.getLsbD_ofNat, BitVec.getLsbD_ofNat, this,
    decide_eq_true ht, decide_eq_true (by omega : t < w), Nat.testBit_div_two_pow]
  simp [BitVec.getLsbD, Nat.add_comm]

theorem mask_byte0 {w : Nat} (x : BitVec w) (hw : 8 ≤ w) : (x &&& BitVec.ofNat w 0xFF).setWidth 8 = BitVec.ofNat 8 (x.toNat / 2 ^ 0) := by
  have := mask_byte x 0 hw
  simpa using this

end Verif.Lemmas.Smhasher
