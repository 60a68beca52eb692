import Verif.Lemmas.Parking
import Mathlib.Data.List.FinRange
import Mathlib.Data.Fintype.BigOperators
import Mathlib.Data.Nat.Factorial.Basic
import Mathlib.Algebra.Group.Fin.Basic
import Mathlib.Data.Nat.ModEq
import Mathlib.Algebra.Group.Units.Equiv

/-! Sums over all sequences of home slots. Used by C131. -/

namespace Verif.Parking
open Verif.Spec.HashTable

/-- The home slots of an assignment. -/
def homes {n m : Nat} (f : Fin n → Fin m) : List Nat := List.ofFn fun i => (f i).val

theorem homes_lt {n m : Nat} (f : Fin n → Fin m) : ∀ a ∈ homes f, a < m := by
  intro a ha
  rw [homes, List.mem_ofFn] at ha
  obtain ⟨i, rfl⟩ := ha
  exact (f i).isLt

theorem homes_length {n m : Nat} (f : Fin n → Fin m) : (homes f).length = n := by simp [homes]

theorem homes_snoc {n m : Nat} (g : Fin n → Fin m) (a : Fin m) :
    homes (Fin.snoc (α := fun _ => Fin m) g a) = homes g ++ [a.val] := by
  unfold homes
  rw [List.ofFn_succ', List.concat_eq_append]
  simp

theorem sum_snoc {n m : Nat} (F : (Fin (n + 1) → Fin m) → Nat) :
    ∑ f, F f = ∑ g : Fin n → Fin m, ∑ a : Fin m, F (Fin.snoc (α := fun _ => Fin m) g a) := by
  rw [← (Fin.snocEquiv fun _ : Fin (n + 1) => Fin m).sum_comp, Fintype.sum_prod_type, Finset.sum_comm]
  rfl

theorem walked_perm {m : Nat} {l l' : List Nat} (hp : l.Perm l') (hl : ∀ a ∈ l, a < m) (hn : l.length ≤ m) :
    walked m l = walked m l' := by
  unfold walked; rw [parkAll_perm hp hl hn]

/-- The flow at home, key by key. -/
theorem sum_flow {m : Nat} : ∀ (n : Nat) (f : Fin n → Fin m) (C : Nat → Nat),
    ∑ h ∈ Finset.range m, (homes f).count h * C h = ∑ x, C (f x)
  | 0, f, C => by simp [homes]
  | n + 1, f, C => by
    have := sum_flow n (fun i => f i.succ) C
    rw [Fin.sum_univ_succ, ← this]
    have hc : ∀ h, (homes f).count h * C h = (homes fun i => f i.succ).count h * C h + if (f 0).val = h then C (f 0) else 0 := by
      intro h
      unfold homes
      rw [List.ofFn_succ, List.count_cons, Nat.add_mul]
      congr 1
      by_cases h0 : (f 0).val = h
      · subst h0; simp
      · simp [h0]
    simp only [hc, Finset.sum_add_distrib, Finset.sum_ite_eq, Finset.mem_range, (f 0).isLt, if_true]
    omega

theorem sum_flow_last {m n : Nat} (hn : n < m) :
    ∑ f : Fin (n + 1) → Fin m, (parkAll m (homes f)).2 (f (Fin.last n)) = ∑ g : Fin n → Fin m, walked m (homes g) := by
  rw [sum_snoc]
  refine Finset.sum_congr rfl fun g _ => ?_
  unfold walked
  rw [← Fin.sum_univ_eq_sum_range]
  refine Finset.sum_congr rfl fun a _ => ?_
  rw [homes_snoc, parkAll_snoc, Fin.snoc_last]
  have hok := parkAll_ok m (homes g) (homes_lt g) (by rw [homes_length]; omega)
  rw [homes_length] at hok
  have hs := (parkOne_ok hok a.isLt (by omega)).2
  simp only [parkOne]
  rw [entered_home a.isLt hs.lt, Nat.add_zero]

theorem sum_flow_any {m n : Nat} (hn : n < m) (x : Fin (n + 1)) :
    ∑ f : Fin (n + 1) → Fin m, (parkAll m (homes f)).2 (f x) = ∑ g : Fin n → Fin m, walked m (homes g) := by
  rw [← sum_flow_last hn]
  let σ : Equiv.Perm (Fin (n + 1)) := Equiv.swap x (Fin.last n)
  rw [← (Equiv.arrowCongr σ (Equiv.refl (Fin m))).sum_comp]
  refine Finset.sum_congr rfl fun f _ => ?_
  have e : (Equiv.arrowCongr σ (Equiv.refl (Fin m))) f = f ∘ σ := by
    funext i
    simp [Equiv.arrowCongr, σ]
  rw [e]
  have hp : (homes (f ∘ σ)).Perm (homes f) := Equiv.Perm.ofFn_comp_perm σ fun i => (f i).val
  rw [parkAll_perm hp (homes_lt _) (by rw [homes_length]; omega)]
  simp [σ]

theorem sum_eqPairs (m n : Nat) : 2 * (m * ∑ f : Fin n → Fin m, eqPairs (homes f)) = n * (n - 1) * m ^ n := by
  unfold homes
  rw [Verif.Props.Quality.sum_pairs n fun (f : Fin n → Fin m) i => (f i).val, ← Verif.Props.Quality.pairs_below, Finset.mul_sum, Finset.mul_sum, Finset.sum_mul]
  refine Finset.sum_congr rfl fun j _ => ?_
  rw [Finset.mul_sum, Finset.mul_sum, Finset.sum_mul]
  refine Finset.sum_congr rfl fun i _ => ?_
  split
  · rename_i h
    have := Verif.Props.Quality.together n m i j (Fin.ne_of_lt h)
    rw [Fintype.card_fun, Fintype.card_fin, Fintype.card_fin] at this
    have e : (Finset.univ.filter fun f : Fin n → Fin m => (f i).val = (f j).val) = Finset.univ.filter fun f : Fin n → Fin m => f i = f j := by
      ext f; simp [Fin.ext_iff]
    rw [e, ← this]
    ring
  · simp

/-- The recurrence of the total distance walked over all assignments. -/
theorem sum_walked_succ {m n : Nat} (hn : n < m) :
    2 * ∑ f : Fin (n + 1) → Fin m, walked m (homes f) =
      (n + 1) * (2 * ∑ g : Fin n → Fin m, walked m (homes g)) + (n + 1) * n * m ^ n := by
  have h1 : ∀ f : Fin (n + 1) → Fin m, walked m (homes f) = (∑ x, (parkAll m (homes f)).2 (f x)) + eqPairs (homes f) := by
    intro f
    rw [walked_eq m (homes f) (homes_lt f) (by rw [homes_length]; omega), sum_flow]
  simp only [h1]
  rw [Finset.sum_add_distrib, Finset.sum_comm]
  simp only [sum_flow_any hn, Finset.sum_const, Finset.card_univ, Fintype.card_fin, smul_eq_mul]
  have h2 := sum_eqPairs m (n + 1)
  rw [Nat.add_sub_cancel, pow_succ] at h2
  have hm : 0 < m := by omega
  have h3 : 2 * ∑ f : Fin (n + 1) → Fin m, eqPairs (homes f) = (n + 1) * n * m ^ n := by
    apply Nat.eq_of_mul_eq_mul_left hm
    rw [← Nat.mul_assoc, Nat.mul_comm m 2, Nat.mul_assoc, h2]
    ring
  rw [Nat.mul_add, h3]
  ring

/-- Knuth's sum. -/
theorem sum_walked {m : Nat} : ∀ n ≤ m,
    2 * ∑ f : Fin n → Fin m, walked m (homes f) = ∑ k ∈ Finset.range n, n.descFactorial (k + 2) * m ^ (n - 1 - k)
  | 0, _ => by simp [homes, walked, parkAll]
  | n + 1, hn => by
    rw [sum_walked_succ (by omega), sum_walked n (by omega), Finset.sum_range_succ', Finset.mul_sum]
    congr 1
    · refine Finset.sum_congr rfl fun k hk => ?_
      rw [show k + 1 + 2 = k + 2 + 1 from rfl, Nat.succ_descFactorial_succ, show n + 1 - 1 - (k + 1) = n - 1 - k from by omega]
      ring
    · rw [Nat.succ_descFactorial_succ, Nat.descFactorial_one, Nat.sub_zero, Nat.add_sub_cancel]

/-! ### Inserts that meet an occupied slot first -/

/-- The number of homes that are occupied when their key comes. -/
def missed (m : Nat) (l : List Nat) : Nat :=
  (List.range l.length).countP fun i => decide (l.getD i 0 ∈ (parkAll m (l.take i)).1)

theorem missed_snoc (m : Nat) (l : List Nat) (a : Nat) :
    missed m (l ++ [a]) = missed m l + if a ∈ (parkAll m l).1 then 1 else 0 := by
  unfold missed
  rw [List.length_append, List.length_singleton, List.range_succ, List.countP_append]
  congr 1
  · apply List.countP_congr
    intro i hi
    rw [List.mem_range] at hi
    rw [List.take_append_of_le_length (by omega)]
    simp only [List.getD_eq_getElem?_getD, List.getElem?_append_left hi]
  · simp

theorem sum_missed {m : Nat} : ∀ n ≤ m, 2 * (m * ∑ f : Fin n → Fin m, missed m (homes f)) = n * (n - 1) * m ^ n
  | 0, _ => by simp [homes, missed]
  | n + 1, hn => by
    have ih := sum_missed (m := m) n (by omega)
    rw [sum_snoc]
    have h1 : ∀ g : Fin n → Fin m, ∑ a : Fin m, missed m (homes (Fin.snoc (α := fun _ => Fin m) g a)) = m * missed m (homes g) + n := by
      intro g
      simp only [homes_snoc, missed_snoc, Finset.sum_add_distrib, Finset.sum_const, Finset.card_univ, Fintype.card_fin, smul_eq_mul]
      congr 1
      have hok := parkAll_ok m (homes g) (homes_lt g) (by rw [homes_length]; omega)
      rw [homes_length] at hok
      rw [Fin.sum_univ_eq_sum_range (fun a => if a ∈ (parkAll m (homes g)).1 then 1 else 0) m, Finset.sum_ite_mem,
        Finset.inter_eq_right.2 hok.sub, Finset.sum_const, hok.card]
      simp
    simp only [h1, Finset.sum_add_distrib, ← Finset.mul_sum, Finset.sum_const, Finset.card_univ, Fintype.card_fun, Fintype.card_fin, smul_eq_mul]
    have e : 2 * (m * (m * ∑ g : Fin n → Fin m, missed m (homes g) + m ^ n * n)) =
        m * (2 * (m * ∑ g : Fin n → Fin m, missed m (homes g))) + 2 * m * m ^ n * n := by ring
    rw [e, ih, Nat.add_sub_cancel, pow_succ]
    cases n with
    | zero => simp
    | succ n => rw [Nat.add_sub_cancel]; ring

/-! ### Every slot is used equally often -/

/-- Turning the circle. -/
theorem parkOne_turn {m n r a : Nat} {st st' : Finset Nat × (Nat → Nat)} (h : Ok m n st) (ha : a < m) (hn : n < m)
    (hs : ∀ x, (x + r) % m ∈ st'.1 ↔ x % m ∈ st.1) :
    ∀ x, (x + r) % m ∈ (parkOne m st' ((a + r) % m)).1 ↔ x % m ∈ (parkOne m st a).1 := by
  have hd := (parkOne_ok h ha hn).2
  have hd' : Steps m st'.1 ((a + r) % m) (steps m st.1 a) := by
    refine ⟨hd.lt, ?_, fun e he => ?_⟩
    · rw [Nat.mod_add_mod, show a + r + steps m st.1 a = a + steps m st.1 a + r from by omega, hs]; exact hd.free
    · rw [Nat.mod_add_mod, show a + r + e = a + e + r from by omega, hs]; exact hd.full e he
  intro x
  simp only [parkOne, steps_of hd', Finset.mem_insert, hs]
  rw [Nat.mod_add_mod, show a + r + steps m st.1 a = a + steps m st.1 a + r from by omega]
  have : (x + r) % m = (a + steps m st.1 a + r) % m ↔ x % m = (a + steps m st.1 a) % m := by
    constructor
    · intro h; exact Nat.ModEq.add_right_cancel' r h
    · intro h; exact Nat.ModEq.add_right r h
  rw [this]

theorem parkAll_turn {m r : Nat} (l : List Nat) (hl : ∀ a ∈ l, a < m) (hn : l.length ≤ m) :
    ∀ x, (x + r) % m ∈ (parkAll m (l.map fun a => (a + r) % m)).1 ↔ x % m ∈ (parkAll m l).1 := by
  induction l using List.reverseRecOn with
  | nil => intro x; simp [parkAll]
  | append_singleton l a ih =>
    rw [List.length_append, List.length_singleton] at hn
    have hl' : ∀ x ∈ l, x < m := fun x hx => hl x (by simp [hx])
    rw [List.map_append, List.map_singleton, parkAll_snoc, parkAll_snoc]
    exact parkOne_turn (parkAll_ok m l hl' (by omega)) (hl a (by simp)) (by omega) (ih hl' (by omega))

/-- Adding `r` on the circle. -/
def turn {m : Nat} (r : Fin m) : Equiv.Perm (Fin m) :=
  haveI : NeZero m := ⟨by have := r.isLt; omega⟩
  Equiv.addRight r

theorem turn_val {m : Nat} (r a : Fin m) : (turn r a).val = (a.val + r.val) % m := by
  unfold turn
  simp [Fin.val_add]

theorem used_turn {m n : Nat} (hn : n ≤ m) (s : Fin m) :
    (Finset.univ.filter fun f : Fin n → Fin m => s.val ∈ (parkAll m (homes f)).1).card =
    (Finset.univ.filter fun f : Fin n → Fin m => 0 ∈ (parkAll m (homes f)).1).card := by
  symm
  refine Finset.card_equiv (Equiv.arrowCongr (Equiv.refl _) (turn s)) fun f => ?_
  simp only [Finset.mem_filter, Finset.mem_univ, true_and]
  have e : homes (Equiv.arrowCongr (Equiv.refl (Fin n)) (turn s) f) = (homes f).map fun a => (a + s.val) % m := by
    unfold homes
    rw [List.map_ofFn]
    congr 1
  have ht := parkAll_turn (r := s.val) (homes f) (homes_lt f) (by rw [homes_length]; exact hn) 0
  rw [e, ← Nat.zero_mod m, ← ht, Nat.zero_add, Nat.mod_eq_of_lt s.isLt]

theorem used {m n : Nat} (hn : n ≤ m) (s : Fin m) :
    (Finset.univ.filter fun f : Fin n → Fin m => s.val ∈ (parkAll m (homes f)).1).card * m = n * m ^ n := by
  have h1 : ∑ s : Fin m, (Finset.univ.filter fun f : Fin n → Fin m => s.val ∈ (parkAll m (homes f)).1).card = n * m ^ n := by
    simp only [Finset.card_filter]
    rw [Finset.sum_comm]
    have : ∀ f : Fin n → Fin m, ∑ s : Fin m, (if s.val ∈ (parkAll m (homes f)).1 then 1 else 0) = n := by
      intro g
      have hok := parkAll_ok m (homes g) (homes_lt g) (by rw [homes_length]; omega)
      rw [homes_length] at hok
      rw [Fin.sum_univ_eq_sum_range (fun a => if a ∈ (parkAll m (homes g)).1 then 1 else 0) m, Finset.sum_ite_mem,
        Finset.inter_eq_right.2 hok.sub, Finset.sum_const, hok.card]
      simp
    simp only [this, Finset.sum_const, Finset.card_univ, Fintype.card_fun, Fintype.card_fin, smul_eq_mul]
    ring
  rw [used_turn hn s, ← h1]
  simp only [fun s => used_turn hn s, Finset.sum_const, Finset.card_univ, Fintype.card_fin, smul_eq_mul]
  ring

end Verif.Parking
