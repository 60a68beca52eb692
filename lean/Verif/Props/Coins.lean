import Verif.Props.Spread
import Mathlib.Algebra.Order.Chebyshev
import Mathlib.Data.Fintype.Pi

/-! Property C134: the avalanche test on a function chosen at random. -/

namespace Verif.Props.Coins
open Verif Verif.Model.Smhasher Verif.Spec.Smhasher
open Verif.Lemmas.Smhasher

set_option linter.unusedSectionVars false

section abstract
variable {K : Type} [Fintype K] [DecidableEq K]

def toggle (j : Nat) (hj : j < 64) (v : Fin (2 ^ 64)) : Fin (2 ^ 64) :=
  ⟨v.val ^^^ 2 ^ j, Nat.xor_lt_two_pow v.2 (Nat.pow_lt_pow_right (by omega) hj)⟩

theorem toggle_toggle (j : Nat) (hj : j < 64) (v : Fin (2 ^ 64)) : toggle j hj (toggle j hj v) = v := by
  apply Fin.ext
  simp [toggle, Nat.xor_assoc]

theorem toggle_bit (j : Nat) (hj : j < 64) (v : Fin (2 ^ 64)) : (toggle j hj v).val.testBit j = !v.val.testBit j := by
  simp [toggle, Nat.testBit_xor, Nat.testBit_two_pow_self]

/-- Bit `j` of the value at `x`, as a sign. -/
def s (j : Nat) (f : K → Fin (2 ^ 64)) (x : K) : Rat := if (f x).val.testBit j then -1 else 1

theorem s_sq (j : Nat) (f : K → Fin (2 ^ 64)) (x : K) : s j f x * s j f x = 1 := by
  unfold s; split <;> norm_num

def flipAt (j : Nat) (hj : j < 64) (x : K) (f : K → Fin (2 ^ 64)) : K → Fin (2 ^ 64) := Function.update f x (toggle j hj (f x))

theorem flipAt_flipAt (j : Nat) (hj : j < 64) (x : K) : Function.Involutive (flipAt j hj x) := by
  intro f
  unfold flipAt
  rw [Function.update_self, toggle_toggle, Function.update_idem, Function.update_eq_self]

theorem s_flip (j : Nat) (hj : j < 64) (x : K) (f : K → Fin (2 ^ 64)) : s j (flipAt j hj x f) x = - s j f x := by
  unfold s flipAt
  rw [Function.update_self, toggle_bit]
  cases (f x).val.testBit j <;> simp

theorem s_other (j : Nat) (hj : j < 64) (x y : K) (h : y ≠ x) (f : K → Fin (2 ^ 64)) : s j (flipAt j hj x f) y = s j f y := by
  unfold s flipAt
  rw [Function.update_of_ne h]

theorem sum_odd (j : Nat) (hj : j < 64) (x : K) (g : (K → Fin (2 ^ 64)) → Rat) (hg : ∀ f, g (flipAt j hj x f) = - g f) :
    ∑ f, g f = 0 := by
  have h := Equiv.sum_comp (Function.Involutive.toPerm _ (flipAt_flipAt j hj x)) g
  simp only [Function.Involutive.coe_toPerm, hg, Finset.sum_neg_distrib] at h
  linarith

theorem sum_pair (j : Nat) (hj : j < 64) (x y : K) (h : x ≠ y) : ∑ f : K → Fin (2 ^ 64), s j f x * s j f y = 0 :=
  sum_odd j hj x _ fun f => by rw [s_flip, s_other j hj x y h.symm]; ring

theorem sum_quad (j : Nat) (hj : j < 64) (σ : K → K) (h1 : ∀ x, σ (σ x) = x) (h2 : ∀ x, σ x ≠ x) (x z : K) :
    ∑ f : K → Fin (2 ^ 64), (s j f x * s j f (σ x)) * (s j f z * s j f (σ z)) =
      if z = x ∨ z = σ x then (Fintype.card (K → Fin (2 ^ 64)) : Rat) else 0 := by
  split
  · rename_i h
    have : ∀ f : K → Fin (2 ^ 64), (s j f x * s j f (σ x)) * (s j f z * s j f (σ z)) = 1 := by
      intro f
      rcases h with rfl | rfl
      · rw [mul_mul_mul_comm, s_sq, s_sq, one_mul]
      · rw [h1, mul_comm (s j f (σ x)), mul_mul_mul_comm, s_sq, s_sq, one_mul]
    simp only [this, Finset.sum_const, Finset.card_univ, nsmul_eq_mul, mul_one]
  · rename_i h
    refine sum_odd j hj x _ fun f => ?_
    have a : z ≠ x := fun e => h (Or.inl e)
    have b : σ z ≠ x := fun e => h (Or.inr (by rw [← e, h1]))
    rw [s_flip, s_other j hj x _ (h2 x), s_other j hj x _ a, s_other j hj x _ b]
    ring

theorem ind (j : Nat) (f : K → Fin (2 ^ 64)) (x y : K) :
    (if (f x).val.testBit j ≠ (f y).val.testBit j then (1 : Rat) else 0) = 1 / 2 - 1 / 2 * (s j f x * s j f y) := by
  unfold s
  cases (f x).val.testBit j <;> cases (f y).val.testBit j <;> norm_num

variable {N : Nat} (xs : Fin N → K)

/-- The number of rounds in which bit `j` changes. -/
def changes (j : Nat) (σ : K → K) (f : K → Fin (2 ^ 64)) : Rat :=
  ∑ p, if (f (xs p)).val.testBit j ≠ (f (σ (xs p))).val.testBit j then 1 else 0

theorem changes_eq (j : Nat) (σ : K → K) (f : K → Fin (2 ^ 64)) :
    changes xs j σ f = N / 2 - 1 / 2 * ∑ p, s j f (xs p) * s j f (σ (xs p)) := by
  unfold changes
  simp only [ind, Finset.sum_sub_distrib, ← Finset.mul_sum, Finset.sum_const, Finset.card_univ, Fintype.card_fin, nsmul_eq_mul]
  ring

theorem sum_changes (j : Nat) (hj : j < 64) (σ : K → K) (h2 : ∀ x, σ x ≠ x) :
    ∑ f, changes xs j σ f = N / 2 * Fintype.card (K → Fin (2 ^ 64)) := by
  simp only [changes_eq, Finset.sum_sub_distrib, ← Finset.mul_sum, Finset.sum_const, Finset.card_univ, nsmul_eq_mul]
  rw [Finset.sum_comm]
  simp only [fun p => sum_pair j hj (xs p) (σ (xs p)) (h2 _).symm, Finset.sum_const_zero]
  ring

theorem sum_changes_sq (j : Nat) (hj : j < 64) (σ : K → K) (h1 : ∀ x, σ (σ x) = x) (h2 : ∀ x, σ x ≠ x) :
    ∑ f, (changes xs j σ f - N / 2) ^ 2 =
      ((Finset.univ.filter fun p : Fin N × Fin N => xs p.2 = xs p.1 ∨ xs p.2 = σ (xs p.1)).card : Rat) / 4 * Fintype.card (K → Fin (2 ^ 64)) := by
  have : ∀ f, (changes xs j σ f - N / 2) ^ 2 = 1 / 4 * ∑ p, ∑ q, (s j f (xs p) * s j f (σ (xs p))) * (s j f (xs q) * s j f (σ (xs q))) := by
    intro f
    rw [changes_eq, ← Finset.sum_mul_sum]
    ring
  rw [Finset.sum_congr rfl fun f _ => this f, ← Finset.mul_sum, Finset.sum_comm]
  have e : ∀ p : Fin N, ∑ f : K → Fin (2 ^ 64), ∑ q, (s j f (xs p) * s j f (σ (xs p))) * (s j f (xs q) * s j f (σ (xs q))) =
      ∑ q, if xs q = xs p ∨ xs q = σ (xs p) then (Fintype.card (K → Fin (2 ^ 64)) : Rat) else 0 := by
    intro p
    rw [Finset.sum_comm]
    exact Finset.sum_congr rfl fun q _ => sum_quad j hj σ h1 h2 _ _
  rw [Finset.sum_congr rfl fun p _ => e p, Finset.card_filter, Fintype.sum_prod_type]
  generalize (Fintype.card (K → Fin (2 ^ 64)) : Rat) = C
  have e2 : (∑ p, ∑ q, if xs q = xs p ∨ xs q = σ (xs p) then C else 0) = (∑ p, ∑ q, if xs q = xs p ∨ xs q = σ (xs p) then 1 else 0) * C := by
    simp only [Finset.sum_mul, ite_mul, one_mul, zero_mul]
  rw [e2]
  push_cast
  ring

theorem repeats_ge (σ : K → K) (h1 : ∀ x, σ (σ x) = x) (h2 : ∀ x, σ x ≠ x) :
    2 * N ^ 2 ≤ Fintype.card K * (Finset.univ.filter fun p : Fin N × Fin N => xs p.2 = xs p.1 ∨ xs p.2 = σ (xs p.1)).card := by
  let L : K → Nat := fun x => ∑ p, if xs p = x then 1 else 0
  have hL : ∑ x, L x = N := by
    show ∑ x, ∑ p, (if xs p = x then 1 else 0) = N
    rw [Finset.sum_comm]
    simp
  have hσ : ∀ g : K → Nat, ∑ x, g (σ x) = ∑ x, g x := fun g => Equiv.sum_comp (Function.Involutive.toPerm σ h1) g
  have hc : (Finset.univ.filter fun p : Fin N × Fin N => xs p.2 = xs p.1 ∨ xs p.2 = σ (xs p.1)).card = ∑ x, L x * (L x + L (σ x)) := by
    have e1 : ∑ x, L x * (L x + L (σ x)) = ∑ p, (L (xs p) + L (σ (xs p))) := by
      show ∑ x, (∑ p, if xs p = x then 1 else 0) * (L x + L (σ x)) = _
      simp only [Finset.sum_mul]
      rw [Finset.sum_comm]
      refine Finset.sum_congr rfl fun p _ => ?_
      simp only [ite_mul, one_mul, zero_mul, Finset.sum_ite_eq, Finset.mem_univ, if_true]
    rw [e1, Finset.card_filter, Fintype.sum_prod_type]
    refine Finset.sum_congr rfl fun p _ => ?_
    show _ = (∑ q, if xs q = xs p then 1 else 0) + ∑ q, if xs q = σ (xs p) then 1 else 0
    rw [← Finset.sum_add_distrib]
    refine Finset.sum_congr rfl fun q _ => ?_
    by_cases a : xs q = xs p
    · rw [if_pos (Or.inl a), if_pos a, if_neg (fun b => h2 (xs p) (b.symm.trans a))]
    · by_cases b : xs q = σ (xs p)
      · rw [if_pos (Or.inr b), if_neg a, if_pos b]
      · rw [if_neg (fun h => h.elim a b), if_neg a, if_neg b]
  have h3 : ∑ x, (L x + L (σ x)) ^ 2 = 2 * ∑ x, L x * (L x + L (σ x)) := by
    have h4 : ∑ x, L (σ x) * (L (σ x) + L x) = ∑ x, L x * (L x + L (σ x)) := by
      have := hσ fun x => L x * (L x + L (σ x))
      simp only [h1] at this
      exact this
    rw [Nat.two_mul]
    nth_rw 2 [← h4]
    rw [← Finset.sum_add_distrib]
    exact Finset.sum_congr rfl fun x _ => by ring
  have h5 : (∑ x, (L x + L (σ x))) ^ 2 ≤ Fintype.card K * ∑ x, (L x + L (σ x)) ^ 2 := by
    have := @sq_sum_le_card_mul_sum_sq K Nat _ _ _ _ Finset.univ fun x => L x + L (σ x)
    rwa [Finset.card_univ] at this
  rw [Finset.sum_add_distrib, hσ L, hL, h3] at h5
  rw [hc]
  nlinarith
end abstract

/-- The pairs of rounds, a round with itself included, whose keys are the same up to bit `i`. -/
def repeats (ks : List Key) (i : Nat) : Nat :=
  (Finset.univ.filter fun p : Fin ks.length × Fin ks.length =>
    keyBytes ks[p.2] = keyBytes ks[p.1] ∨ keyBytes ks[p.2] = flipped (keyBytes ks[p.1]) i).card

/-- The bits of a byte string. -/
def bits (n : Nat) (b : List U8) : Fin n → Bool := fun p => bit b p.val

def flipBit {n : Nat} (i : Fin n) (x : Fin n → Bool) : Fin n → Bool := fun p => x p ^^ decide (p = i)

theorem flipBit_flipBit {n : Nat} (i : Fin n) (x : Fin n → Bool) : flipBit i (flipBit i x) = x := by
  funext p; simp [flipBit]

theorem flipBit_ne {n : Nat} (i : Fin n) (x : Fin n → Bool) : flipBit i x ≠ x := by
  intro h; have := congrFun h i; simp [flipBit] at this

theorem bits_flipped {n : Nat} (b : List U8) (hb : 8 * b.length = n) (i : Fin n) : bits n (flipped b i.val) = flipBit i (bits n b) := by
  funext p
  unfold bits flipBit
  rw [bit_flipped b i.val p.val (by rw [hb]; exact i.isLt)]
  congr 1
  rw [decide_eq_decide, Fin.ext_iff]

theorem bits_inj {n : Nat} {a b : List U8} (ha : 8 * a.length = n) (hb : 8 * b.length = n) : bits n a = bits n b ↔ a = b := by
  refine ⟨fun h => bit_ext (by omega) fun j hj => ?_, fun h => by rw [h]⟩
  exact congrFun h ⟨j, by omega⟩

theorem countP_fin {α : Type} (p : α → Bool) : ∀ l : List α, (l.countP p : Rat) = ∑ q : Fin l.length, if p l[q] then (1 : Rat) else 0
  | [] => by simp
  | x :: l => by
    rw [List.countP_cons]
    push_cast
    rw [countP_fin p l]
    have := Fin.sum_univ_succ (fun q : Fin (l.length + 1) => if p (x :: l)[q] then (1 : Rat) else 0)
    rw [show (∑ q : Fin (x :: l).length, if p (x :: l)[q] then (1 : Rat) else 0) = _ from this, add_comm]
    rfl

/-- Over all functions from keys of `n` bits to 64-bit values, and for every sequence of keys: every entry of the grid has mean half the number of
rounds, and its variance is a quarter of the number of pairs of rounds whose keys are the same up to the bit. -/
theorem C134_mean (n : Nat) (ks : List Key) (hk : ∀ k ∈ ks, k.bits = n)
    (H : ((Fin n → Bool) → Fin (2 ^ 64)) → List U8 → U64 → U64)
    (hH : ∀ f b, 8 * b.length = n → (H f b 0).toNat = f fun p => bit b p) :
    ∃ grid : ((Fin n → Bool) → Fin (2 ^ 64)) → List (List Nat), (∀ f, avalanche (H f) n ks = .ok (grid f)) ∧
      ∀ i, i < n → ∀ j, j < 64 → ∃ x : ((Fin n → Bool) → Fin (2 ^ 64)) → Nat,
        (∀ f, ∃ row : List Nat, (grid f)[i]? = some row ∧ row[j]? = some (x f)) ∧
        (∑ f, (x f : Rat)) / (Fintype.card ((Fin n → Bool) → Fin (2 ^ 64)) : Rat) = ks.length / 2 ∧
        (∑ f, ((x f : Rat) - ks.length / 2) ^ 2) / (Fintype.card ((Fin n → Bool) → Fin (2 ^ 64)) : Rat) = repeats ks i / 4 := by
  have hc : (Fintype.card ((Fin n → Bool) → Fin (2 ^ 64)) : Rat) ≠ 0 := by
    have : Fintype.card ((Fin n → Bool) → Fin (2 ^ 64)) ≠ 0 := Fintype.card_ne_zero
    exact_mod_cast this
  have hex := fun f => C90_avalanche (H f) n ks hk
  refine ⟨fun f => (hex f).choose, fun f => (hex f).choose_spec.1, fun i hi j hj => ?_⟩
  have hl : ∀ q : Fin ks.length, 8 * (keyBytes ks[q]).length = n := fun q => by
    rw [keyBytes_length]; exact hk _ (List.getElem_mem _)
  let xs : Fin ks.length → (Fin n → Bool) := fun q => bits n (keyBytes ks[q])
  have hfl : ∀ q, bits n (flipped (keyBytes ks[q]) i) = flipBit ⟨i, hi⟩ (xs q) := fun q => bits_flipped _ (hl q) ⟨i, hi⟩
  have hx : ∀ f, ((ks.countP fun k => (H f (keyBytes k) 0).getLsbD j ≠ (H f (flipped (keyBytes k) i) 0).getLsbD j : Nat) : Rat) =
      changes xs j (flipBit ⟨i, hi⟩) f := by
    intro f
    rw [countP_fin]
    unfold changes
    refine Finset.sum_congr rfl fun q _ => ?_
    have e1 : (H f (keyBytes ks[q]) 0).getLsbD j = (f (xs q)).val.testBit j := by
      rw [BitVec.getLsbD, hH f _ (hl q)]; rfl
    have e2 : (H f (flipped (keyBytes ks[q]) i) 0).getLsbD j = (f (flipBit ⟨i, hi⟩ (xs q))).val.testBit j := by
      rw [BitVec.getLsbD, hH f _ (by rw [flipped_length]; exact hl q), ← hfl q]; rfl
    simp only [e1, e2, decide_eq_true_eq]
  have hrep : (Finset.univ.filter fun p : Fin ks.length × Fin ks.length => xs p.2 = xs p.1 ∨ xs p.2 = flipBit ⟨i, hi⟩ (xs p.1)).card = repeats ks i := by
    unfold repeats
    congr 1
    ext p
    simp only [Finset.mem_filter, Finset.mem_univ, true_and]
    rw [← hfl p.1, bits_inj (hl p.2) (hl p.1), bits_inj (hl p.2) (by rw [flipped_length]; exact hl p.1)]
  refine ⟨fun f => ks.countP fun k => (H f (keyBytes k) 0).getLsbD j ≠ (H f (flipped (keyBytes k) i) 0).getLsbD j, fun f => ?_, ?_, ?_⟩
  · obtain ⟨row, h1, _, h2⟩ := (hex f).choose_spec.2.2 i hi
    exact ⟨row, h1, h2 j hj⟩
  · rw [div_eq_iff hc]
    simp only [hx]
    exact sum_changes xs j hj _ (flipBit_ne _)
  · rw [div_eq_iff hc, ← hrep]
    simp only [hx]
    exact sum_changes_sq xs j hj _ (flipBit_flipBit _) (flipBit_ne _)

/-- The number of pairs of rounds is at least the number of rounds, so the variance is at least that of `REP` coin flips, and the same
exactly if the keys of any two rounds differ in a bit other than `i`. -/
theorem C134_coins (ks : List Key) (i : Nat) : ks.length ≤ repeats ks i ∧
    (repeats ks i = ks.length ↔ ∀ p q : Fin ks.length, p ≠ q → keyBytes ks[q] ≠ keyBytes ks[p] ∧ keyBytes ks[q] ≠ flipped (keyBytes ks[p]) i) := by
  have hsub : (Finset.univ.image fun p : Fin ks.length => (p, p)) ⊆ Finset.univ.filter fun p : Fin ks.length × Fin ks.length =>
      keyBytes ks[p.2] = keyBytes ks[p.1] ∨ keyBytes ks[p.2] = flipped (keyBytes ks[p.1]) i := by
    intro p hp
    obtain ⟨q, _, rfl⟩ := Finset.mem_image.1 hp
    exact Finset.mem_filter.2 ⟨Finset.mem_univ _, Or.inl rfl⟩
  have hcard : (Finset.univ.image fun p : Fin ks.length => (p, p)).card = ks.length := by
    rw [Finset.card_image_of_injective _ (fun a b h => congrArg Prod.fst h), Finset.card_univ, Fintype.card_fin]
  have hle := Finset.card_le_card hsub
  rw [hcard] at hle
  refine ⟨hle, fun h p q hpq => ?_, fun h => ?_⟩
  · have heq := Finset.eq_of_subset_of_card_le hsub (by rw [hcard]; exact h.le)
    have hno : (p, q) ∉ Finset.univ.image fun p : Fin ks.length => (p, p) := by
      intro hm
      obtain ⟨r, _, hr⟩ := Finset.mem_image.1 hm
      exact hpq ((congrArg Prod.fst hr).symm.trans (congrArg Prod.snd hr))
    rw [heq] at hno
    exact ⟨fun e => hno (Finset.mem_filter.2 ⟨Finset.mem_univ _, Or.inl e⟩), fun e => hno (Finset.mem_filter.2 ⟨Finset.mem_univ _, Or.inr e⟩)⟩
  · refine le_antisymm ?_ hle
    rw [← hcard]
    refine Finset.card_le_card fun p hp => ?_
    obtain ⟨a, b⟩ := p
    have hab : a = b := by
      by_contra hne
      rcases (Finset.mem_filter.1 hp).2 with e | e
      · exact (h a b hne).1 e
      · exact (h a b hne).2 e
    subst hab
    exact Finset.mem_image.2 ⟨a, Finset.mem_univ _, rfl⟩

/-- There are at least `2·REP²/2^n` such pairs. -/
theorem C134_repeats (n : Nat) (ks : List Key) (hk : ∀ k ∈ ks, k.bits = n) (i : Nat) (hi : i < n) :
    2 * ks.length ^ 2 ≤ 2 ^ n * repeats ks i := by
  have hl : ∀ q : Fin ks.length, 8 * (keyBytes ks[q]).length = n := fun q => by
    rw [keyBytes_length]; exact hk _ (List.getElem_mem _)
  have h := repeats_ge (fun q : Fin ks.length => bits n (keyBytes ks[q])) (flipBit ⟨i, hi⟩) (flipBit_flipBit _) (flipBit_ne _)
  rw [Fintype.card_fun, Fintype.card_bool, Fintype.card_fin] at h
  have hrep : (Finset.univ.filter fun p : Fin ks.length × Fin ks.length => bits n (keyBytes ks[p.2]) = bits n (keyBytes ks[p.1]) ∨
      bits n (keyBytes ks[p.2]) = flipBit ⟨i, hi⟩ (bits n (keyBytes ks[p.1]))).card = repeats ks i := by
    unfold repeats
    congr 1
    ext p
    simp only [Finset.mem_filter, Finset.mem_univ, true_and]
    rw [← bits_flipped _ (hl p.1) ⟨i, hi⟩, bits_inj (hl p.2) (hl p.1), bits_inj (hl p.2) (by rw [flipped_length]; exact hl p.1)]
  rw [← hrep]
  exact h

/-- So in the test of two-byte keys the entries are not sums of 100000 coin flips, as smhasher.go:534-538 has it: whatever the keys, the variance
is more than three times the `REP/4` the limits are computed from. -/
theorem C134_two_bytes_violated (ks : List Key) (hk : ∀ k ∈ ks, k.bits = 16) (hrep : ks.length = 100000)
    (H : ((Fin 16 → Bool) → Fin (2 ^ 64)) → List U8 → U64 → U64)
    (hH : ∀ f b, 8 * b.length = 16 → (H f b 0).toNat = f fun p => bit b p) :
    ∃ grid : ((Fin 16 → Bool) → Fin (2 ^ 64)) → List (List Nat), (∀ f, avalanche (H f) 16 ks = .ok (grid f)) ∧
      ∀ i, i < 16 → ∀ j, j < 64 → ∃ x : ((Fin 16 → Bool) → Fin (2 ^ 64)) → Nat,
        (∀ f, ∃ row : List Nat, (grid f)[i]? = some row ∧ row[j]? = some (x f)) ∧
        3 * (100000 / 4) < (∑ f, ((x f : Rat) - ks.length / 2) ^ 2) / (Fintype.card ((Fin 16 → Bool) → Fin (2 ^ 64)) : Rat) := by
  obtain ⟨grid, h1, h2⟩ := C134_mean 16 ks hk H hH
  refine ⟨grid, h1, fun i hi j hj => ?_⟩
  obtain ⟨x, h3, _, h4⟩ := h2 i hi j hj
  refine ⟨x, h3, ?_⟩
  rw [h4]
  have h5 := C134_repeats 16 ks hk i hi
  rw [hrep] at h5
  have h6 : 300001 ≤ repeats ks i := by omega
  have h7 : (300001 : Rat) ≤ repeats ks i := by exact_mod_cast h6
  linarith

/-- C134 at work: of three one-byte keys, 5 and 4 are the same up to bit 0, and 5 and 13 up to bit 3. -/
example : repeats [.bytes [5], .bytes [4], .bytes [13]] 0 = 5 ∧ repeats [.bytes [5], .bytes [4], .bytes [13]] 3 = 5 ∧
    repeats [.bytes [5], .bytes [4], .bytes [13]] 1 = 3 := by decide +kernel

/-- The functions meant in C134_mean exist. -/
example : ∃ H : ((Fin 8 → Bool) → Fin (2 ^ 64)) → List U8 → U64 → U64,
    ∀ f b, 8 * b.length = 8 → (H f b 0).toNat = f fun p => bit b p :=
  ⟨fun f b _ => BitVec.ofNat 64 (f fun p => bit b p), fun f b _ => by
    rw [BitVec.toNat_ofNat]; exact Nat.mod_eq_of_lt (f _).isLt⟩

/-- C134_mean at work: the count for input bit 0 has mean 3/2 and variance 5/4. -/
example : ∃ grid : ((Fin 8 → Bool) → Fin (2 ^ 64)) → List (List Nat),
    (∀ f, avalanche (fun b _ => BitVec.ofNat 64 (f fun p => bit b p)) 8 [.bytes [5], .bytes [4], .bytes [13]] = .ok (grid f)) ∧
    ∃ x : ((Fin 8 → Bool) → Fin (2 ^ 64)) → Nat,
      (∀ f, ∃ row : List Nat, (grid f)[0]? = some row ∧ row[7]? = some (x f)) ∧
      (∑ f, (x f : Rat)) / (Fintype.card ((Fin 8 → Bool) → Fin (2 ^ 64)) : Rat) = (3 : Nat) / 2 ∧
      (∑ f, ((x f : Rat) - (3 : Nat) / 2) ^ 2) / (Fintype.card ((Fin 8 → Bool) → Fin (2 ^ 64)) : Rat) = (5 : Nat) / 4 :=
  have ⟨grid, h1, h2⟩ := C134_mean 8 [.bytes [5], .bytes [4], .bytes [13]] (by decide) (fun f b _ => BitVec.ofNat 64 (f fun p => bit b p))
    (fun f b _ => by rw [BitVec.toNat_ofNat]; exact Nat.mod_eq_of_lt (f _).isLt)
  have ⟨x, h3, h4, h5⟩ := h2 0 (by decide) 7 (by decide)
  ⟨grid, h1, x, h3, h4, h5.trans (by rw [show repeats [.bytes [5], .bytes [4], .bytes [13]] 0 = 5 by decide +kernel])⟩

/-- Keys as in C134_two_bytes_violated. -/
example : ∃ ks : List Key, (∀ k ∈ ks, k.bits = 16) ∧ ks.length = 100000 :=
  ⟨List.replicate 100000 (.bytes [0, 0]), fun k h => by rw [List.eq_of_mem_replicate h]; rfl, List.length_replicate⟩

end Verif.Props.Coins
