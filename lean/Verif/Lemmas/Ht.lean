import Verif.Model.Ht
import Verif.Spec.Ht
import Verif.Lemmas.Basic
import Verif.Lemmas.Small
import Mathlib.Data.List.Nodup
import Mathlib.Data.List.Forall2

namespace Verif.Lemmas.Ht
open Verif Verif.Model.Ht Verif.Spec.Ht

theorem set_eq {α : Type} {s : List α} {i : Nat} (h : i < s.length) (v : α) : Go.set s i v = .ok (s.set i v) := by
  simp [Go.set, h]

/-! ### UTF-8 of bytes -/

theorem ofByte_utf8 (b : U8) : ofByte b = utf8 b := by
  revert b; decide +kernel

theorem utf8_decode (b : U8) : 128 ≤ b.toNat →
    (BitVec.ofNat 8 (0xC0 + b.toNat / 64) <<< 6 ||| (BitVec.ofNat 8 (0x80 + b.toNat % 64) &&& 0x3F#8) = b) ∧
    128 ≤ (BitVec.ofNat 8 (0xC0 + b.toNat / 64)).toNat := by
  revert b; decide +kernel

theorem utf8_inj {b c : U8} {x y : List U8} (h : utf8 b ++ x = utf8 c ++ y) : b = c ∧ x = y := by
  unfold utf8 at h
  split at h <;> split at h <;> rename_i hb hc
  · simpa using h
  · simp only [List.cons_append, List.nil_append, List.cons.injEq] at h
    have := (utf8_decode c (by omega)).2
    rw [← h.1] at this; omega
  · simp only [List.cons_append, List.nil_append, List.cons.injEq] at h
    have := (utf8_decode b (by omega)).2
    rw [h.1] at this; omega
  · simp only [List.cons_append, List.nil_append, List.cons.injEq] at h
    have h1 := (utf8_decode b (by omega)).1
    have h2 := (utf8_decode c (by omega)).1
    rw [h.1, h.2.1, h2] at h1
    exact ⟨h1.symm, h.2.2⟩

theorem spell_cons (b : U8) (w : List U8) : spell (b :: w) = utf8 b ++ spell w := by simp [spell]

theorem utf8_ne (b : U8) : utf8 b ≠ [] := by unfold utf8; split <;> simp

theorem spell_inj : Function.Injective spell := by
  intro v
  induction v with
  | nil =>
    intro w h
    cases w with
    | nil => rfl
    | cons c w =>
      rw [spell_cons] at h
      have := congrArg List.length h
      have h2 := List.length_pos_iff.2 (utf8_ne c)
      simp [spell] at this; omega
  | cons b v ih =>
    intro w h
    cases w with
    | nil =>
      rw [spell_cons] at h
      have := congrArg List.length h
      have h2 := List.length_pos_iff.2 (utf8_ne b)
      simp only [spell, List.flatMap_nil, List.length_append, List.length_nil] at this; omega
    | cons c w =>
      rw [spell_cons, spell_cons] at h
      obtain ⟨h1, h2⟩ := utf8_inj h
      rw [h1, ih h2]

theorem spell_ascii {w : List U8} (h : ascii w) : spell w = w := by
  induction w with
  | nil => rfl
  | cons b w ih =>
    rw [spell_cons, ih (fun x hx => h x (List.mem_cons_of_mem _ hx)), utf8, if_pos (h b (by simp))]; rfl

theorem reverse_eq (s : List U8) : reverse s = spell s.reverse := by
  induction s with
  | nil => rfl
  | cons c s ih =>
    rw [reverse, ih, ofByte_utf8, List.reverse_cons]
    simp [spell]

/-! ### genWords -/

/-- Digits of `k` in the mixed radix of the string lengths, least significant first. -/
def digits : List (List U8) → Nat → List Nat
  | [], _ => []
  | p :: ps, k => k % p.length :: digits ps (k / p.length)

def total (perms : List (List U8)) : Nat := (perms.map List.length).foldr (· * ·) 1

def next : List (List U8) → List Nat → Bool × List Nat
  | p :: ps, i :: is => if i + 1 ≥ p.length then ((next ps is).1, 0 :: (next ps is).2) else (false, (i + 1) :: is)
  | _, _ => (true, [])

theorem digits_length (perms : List (List U8)) (k : Nat) : (digits perms k).length = perms.length := by
  induction perms generalizing k with
  | nil => rfl
  | cons p ps ih => simp [digits, ih]

theorem total_pos {perms : List (List U8)} (h : ∀ p ∈ perms, p ≠ []) : 0 < total perms := by
  induction perms with
  | nil => simp [total]
  | cons p ps ih =>
    have h1 := List.length_pos_iff.2 (h p (by simp))
    have h2 := ih (fun q hq => h q (List.mem_cons_of_mem _ hq))
    simp only [total, List.map_cons, List.foldr_cons]
    exact Nat.mul_pos h1 h2

theorem digits_mod {perms : List (List U8)} (h : ∀ p ∈ perms, p ≠ []) (k : Nat) : digits perms (k % total perms) = digits perms k := by
  induction perms generalizing k with
  | nil => rfl
  | cons p ps ih =>
    have e : total (p :: ps) = p.length * total ps := rfl
    simp only [digits, e]
    rw [Nat.mod_mul_right_mod, Nat.mod_mul_right_div_self, ih (fun q hq => h q (List.mem_cons_of_mem _ hq))]

theorem digits_zero (perms : List (List U8)) : digits perms 0 = List.replicate perms.length 0 := by
  induction perms with
  | nil => rfl
  | cons p ps ih => simp [digits, ih, List.replicate_succ]

theorem next_digits {perms : List (List U8)} (h : ∀ p ∈ perms, p ≠ []) {k : Nat} (hk : k < total perms) :
    next perms (digits perms k) = (decide (k + 1 = total perms), digits perms (k + 1)) := by
  induction perms generalizing k with
  | nil =>
    have : k = 0 := by simp [total] at hk; exact hk
    subst this; simp [next, digits, total]
  | cons p ps ih =>
    have e : total (p :: ps) = p.length * total ps := rfl
    have hp := List.length_pos_iff.2 (h p (by simp))
    have hk' : k / p.length < total ps := by rw [Nat.div_lt_iff_lt_mul hp, Nat.mul_comm, ← e]; exact hk
    have hi := ih (fun q hq => h q (List.mem_cons_of_mem _ hq)) hk'
    have hm := Nat.mod_lt k hp
    have hdm := Nat.div_add_mod k p.length
    simp only [digits, next]
    by_cases hc : k % p.length + 1 ≥ p.length
    · rw [if_pos hc, hi]
      have hk1 : k + 1 = p.length * (k / p.length + 1) := by rw [Nat.mul_add]; omega
      rw [e, hk1, Nat.mul_mod_right, Nat.mul_div_cancel_left _ hp]
      simp only [Prod.mk.injEq, decide_eq_decide, and_true]
      exact ⟨fun h => by rw [h], fun h => Nat.eq_of_mul_eq_mul_left hp h⟩
    · rw [if_neg hc]
      have h1 : (k + 1) % p.length = k % p.length + 1 := by
        rw [Nat.add_mod, Nat.mod_eq_of_lt (a := 1) (by omega), Nat.mod_eq_of_lt (by omega)]
      have h2 : (k + 1) / p.length = k / p.length := by
        have := Nat.div_add_mod (k + 1) p.length
        rw [h1] at this
        apply Nat.eq_of_mul_eq_mul_left hp; omega
      rw [h1, h2]
      simp only [Prod.mk.injEq, and_true]
      symm
      rw [decide_eq_false_iff_not]
      intro h3
      rw [h3, e, Nat.mul_mod_right] at h1
      omega

theorem inc_eq (perms : List (List U8)) (fuel idx : Nat) (ind : List Nat) (hl : ind.length = perms.length) (hi : idx < perms.length)
    (hf : perms.length - idx ≤ fuel) :
    inc perms fuel idx ind =
      .ok ((next (perms.drop idx) (ind.drop idx)).1, ind.take idx ++ (next (perms.drop idx) (ind.drop idx)).2) := by
  induction fuel generalizing idx ind with
  | zero => omega
  | succ fuel ih =>
    have e1 : perms.drop idx = perms[idx] :: perms.drop (idx + 1) := List.drop_eq_getElem_cons hi
    have e2 : ind.drop idx = ind[idx] :: ind.drop (idx + 1) := List.drop_eq_getElem_cons (by omega)
    unfold inc
    rw [Go.idx_eq (by omega), Go.bind_ok, set_eq (by omega), Go.bind_ok, Go.idx_eq hi, Go.bind_ok, e1, e2]
    simp only [next]
    by_cases hc : ind[idx] + 1 ≥ perms[idx].length
    · rw [if_pos hc, if_pos hc, set_eq (by simp; omega), Go.bind_ok]
      simp only [List.set_set]
      by_cases hlast : idx + 1 ≥ perms.length
      · rw [if_pos hlast, List.drop_of_length_le hlast]
        simp only [next]
        rw [Go.pure_ok, List.set_eq_take_append_cons_drop, if_pos (by omega), List.drop_of_length_le (by omega : ind.length ≤ idx + 1)]
      · rw [if_neg hlast, ih (idx + 1) (ind.set idx 0) (by simp [hl]) (by omega) (by omega)]
        have d1 : (ind.set idx 0).drop (idx + 1) = ind.drop (idx + 1) := by
          rw [List.drop_set, if_pos (by omega)]
        have d2 : (ind.set idx 0).take (idx + 1) = ind.take idx ++ [0] := by
          rw [List.set_eq_take_append_cons_drop, if_pos (by omega), List.take_append, List.take_take, List.length_take]
          rw [Nat.min_eq_right (by omega), Nat.min_eq_left (by omega : idx ≤ ind.length)]
          simp
        rw [d1, d2]; simp
    · rw [if_neg hc, if_neg hc, Go.pure_ok, List.set_eq_take_append_cons_drop, if_pos (by omega)]

/-- The letters chosen by the digits of `k`. -/
def pick : List (List U8) → Nat → List U8
  | [], _ => []
  | p :: ps, k => p.getD (k % p.length) 0 :: pick ps (k / p.length)

theorem word_eq {perms : List (List U8)} (h : ∀ p ∈ perms, p ≠ []) (pre : List Nat) (k : Nat) :
    word (pre.length + perms.length) (pre ++ digits perms k) perms = .ok (spell (pick perms k)) := by
  induction perms generalizing pre k with
  | nil => rfl
  | cons p ps ih =>
    have hp := List.length_pos_iff.2 (h p (by simp))
    have hm := Nat.mod_lt k hp
    unfold word
    have hi := ih (fun q hq => h q (List.mem_cons_of_mem _ hq)) (pre ++ [k % p.length]) (k / p.length)
    simp only [List.length_append, List.length_cons, List.length_nil, List.append_assoc, List.cons_append, List.nil_append] at hi ⊢
    rw [show pre.length + (ps.length + 1) - (ps.length + 1) = pre.length by omega]
    unfold letter
    simp only [digits]
    rw [Go.idx_eq (by simp), Go.bind_ok]
    simp only [List.getElem_append_right (Nat.le_refl _), Nat.sub_self, List.getElem_cons_zero]
    rw [Go.idx_eq hm, Go.bind_ok, Go.pure_ok, Go.bind_ok, show pre.length + (ps.length + 1) = pre.length + (0 + 1) + ps.length by omega, hi, Go.bind_ok, Go.pure_ok,
      pick, spell_cons, ofByte_utf8, List.getD_eq_getElem?_getD, List.getElem?_eq_getElem hm, Option.getD_some]

theorem genLoop_eq {perms : List (List U8)} (hne : perms ≠ []) (h : ∀ p ∈ perms, p ≠ []) (fuel k : Nat) (acc : List (List U8)) (hk : k < total perms)
    (hf : total perms - k ≤ fuel) :
    genLoop perms fuel (digits perms k) acc =
      ⟨acc ++ (List.range' k (total perms - k)).map (fun i => spell (pick perms i)), .ok ()⟩ := by
  induction fuel generalizing k acc with
  | zero => omega
  | succ fuel ih =>
    have hw := word_eq h [] k
    simp only [List.length_nil, Nat.zero_add, List.nil_append] at hw
    have hinc := inc_eq perms (perms.length + 1) 0 (digits perms k) (digits_length _ _) (List.length_pos_iff.2 hne) (by omega)
    simp only [List.drop_zero, List.take_zero, List.nil_append, next_digits h hk] at hinc
    unfold genLoop
    rw [hw, hinc]
    have hr : List.range' k (total perms - k) = k :: List.range' (k + 1) (total perms - (k + 1)) := by
      rw [show total perms - k = total perms - (k + 1) + 1 by omega, List.range'_succ]
    rw [hr]
    by_cases hl : k + 1 = total perms
    · simp only [hl, decide_true]
      simp
    · simp only [hl, decide_false]
      rw [ih (k + 1) _ (by omega) (by omega)]
      simp

theorem range_mul {β : Type} (f : Nat → β) (L M : Nat) :
    (List.range M).flatMap (fun k => (List.range L).map fun j => f (j + L * k)) = (List.range (L * M)).map f := by
  induction M with
  | zero => simp
  | succ M ih =>
    rw [List.range_succ, List.flatMap_append, ih, Nat.mul_add, Nat.mul_one, List.range_add, List.map_append]
    simp [Nat.add_comm, Function.comp_def]

theorem combos_eq {perms : List (List U8)} (h : ∀ p ∈ perms, p ≠ []) : combos perms = (List.range (total perms)).map (pick perms) := by
  induction perms with
  | nil => rfl
  | cons p ps ih =>
    have hp := List.length_pos_iff.2 (h p (by simp))
    have e : total (p :: ps) = p.length * total ps := rfl
    rw [combos, ih (fun q hq => h q (List.mem_cons_of_mem _ hq)), e, ← range_mul, List.flatMap_map]
    congr 1
    funext k
    apply List.ext_getElem (by simp)
    intro j h1 h2
    simp only [List.getElem_map, List.getElem_range]
    simp only [List.length_map] at h1
    rw [pick, Nat.add_mul_mod_self_left, Nat.mod_eq_of_lt h1, Nat.add_mul_div_left _ _ hp, Nat.div_eq_of_lt h1, Nat.zero_add,
      List.getD_eq_getElem?_getD, List.getElem?_eq_getElem h1, Option.getD_some]

theorem genWords_eq {perms : List (List U8)} (hne : perms ≠ []) (h : ∀ p ∈ perms, p ≠ []) :
    genWords perms = ⟨(combos perms).map spell, .ok ()⟩ := by
  unfold genWords
  rw [← digits_zero, show (perms.map List.length).foldr (· * ·) 1 = total perms from rfl,
    genLoop_eq hne h _ 0 [] (total_pos h) (by omega), combos_eq h, List.range_eq_range']
  simp [Function.comp_def]

theorem mem_combos {α : Type} (ls : List (List α)) (w : List α) : w ∈ combos ls ↔ List.Forall₂ (· ∈ ·) w ls := by
  induction ls generalizing w with
  | nil => simp [combos]
  | cons s r ih =>
    rw [combos, List.mem_flatMap]
    constructor
    · rintro ⟨v, hv, hw⟩
      obtain ⟨c, hc, rfl⟩ := List.mem_map.1 hw
      exact .cons hc ((ih v).1 hv)
    · rintro (_ | ⟨hc, hv⟩)
      exact ⟨_, (ih _).2 hv, List.mem_map.2 ⟨_, hc, rfl⟩⟩

theorem nodup_combos {α : Type} {ls : List (List α)} (h : ∀ s ∈ ls, s.Nodup) : (combos ls).Nodup := by
  induction ls with
  | nil => simp [combos]
  | cons s r ih =>
    rw [combos, List.nodup_flatMap]
    have hs := h s (by simp)
    refine ⟨fun w _ => hs.map (fun a b hab => by simpa using hab), ?_⟩
    apply (ih (fun q hq => h q (List.mem_cons_of_mem _ hq))).imp
    intro v w hvw x hx hy
    obtain ⟨a, _, rfl⟩ := List.mem_map.1 hx
    obtain ⟨b, _, hb⟩ := List.mem_map.1 hy
    simp at hb
    exact hvw hb.2.symm

theorem length_combos {α : Type} (ls : List (List α)) : (combos ls).length = (ls.map List.length).prod := by
  induction ls with
  | nil => rfl
  | cons s r ih =>
    rw [combos, List.length_flatMap]
    simp [ih, Nat.mul_comm]

theorem word_empty_string {perms : List (List U8)} (h : [] ∈ perms) (n : Nat) (ind : List Nat) (hn : perms.length ≤ n) (hl : ind.length = n)
    (hz : ∀ i ∈ ind, i = 0) : word n ind perms = .error .index := by
  induction perms with
  | nil => simp at h
  | cons p ps ih =>
    simp only [List.length_cons] at hn
    have hz' : ∀ (j : Nat) (hj : j < ind.length), ind[j] = 0 := fun j hj => hz _ (List.getElem_mem hj)
    unfold word letter
    rw [Go.idx_eq (by omega), Go.bind_ok, hz']
    by_cases hp : p = []
    · subst hp; rfl
    · rw [Go.idx_eq (List.length_pos_iff.2 hp), Go.bind_ok, Go.pure_ok, Go.bind_ok, ih (by simpa [Ne.symm hp] using h) (by omega)]
      rfl

/-! ### hexToBytes -/

theorem unhex_some {c : U8} {n : Nat} (h : digit c = some n) : unhex c = .ok (BitVec.ofNat 8 n) ∧ n < 16 := by
  have : ∀ c : U8, ∀ n, n < 256 → digit c = some n → unhex c = .ok (BitVec.ofNat 8 n) ∧ n < 16 := by
    have : ∀ c : U8, ∀ n ∈ digit c, unhex c = .ok (BitVec.ofNat 8 n) ∧ n < 16 := by decide +kernel
    intro c n _ h
    exact this c n h
  refine this c n ?_ h
  have := c.isLt
  unfold digit at h
  dsimp only at h
  split at h
  · simp at h; omega
  · split at h
    · simp at h; omega
    · split at h
      · simp at h; omega
      · simp at h

theorem unhex_none {c : U8} (h : digit c = none) : unhex c = .error (.explicit "unhex: bad input") := by
  have : ∀ c : U8, digit c = none → unhex c = .error (.explicit "unhex: bad input") := by decide +kernel
  exact this c h

theorem nibbles {a b : Nat} (ha : a < 16) (hb : b < 16) :
    (BitVec.ofNat 8 a) <<< 4 ||| BitVec.ofNat 8 b = BitVec.ofNat 8 (16 * a + b) := by
  have : ∀ a b : Fin 16, (BitVec.ofNat 8 a.val) <<< 4 ||| BitVec.ofNat 8 b.val = BitVec.ofNat 8 (16 * a.val + b.val) := by decide +kernel
  exact this ⟨a, ha⟩ ⟨b, hb⟩

theorem hexStep_ok {s data : List U8} {i a b : Nat} (hi : 2 * i + 1 < s.length) (hd : i < data.length)
    (ha : digit (s.getD (2 * i) 0) = some a) (hb : digit (s.getD (2 * i + 1) 0) = some b) :
    hexStep s i data = .ok (data.set i (BitVec.ofNat 8 (16 * a + b))) := by
  rw [List.getD_eq_getElem?_getD, List.getElem?_eq_getElem (by omega), Option.getD_some] at ha hb
  unfold hexStep
  obtain ⟨h1, h2⟩ := unhex_some ha
  obtain ⟨h3, h4⟩ := unhex_some hb
  rw [Go.idx_eq (by omega), Go.bind_ok, h1, Go.bind_ok, Go.idx_eq (by omega), Go.bind_ok, h3, Go.bind_ok, nibbles h2 h4, set_eq hd]

theorem hexStep_bad {s data : List U8} {i : Nat} (hi : 2 * i + 1 < s.length)
    (h : digit (s.getD (2 * i) 0) = none ∨ digit (s.getD (2 * i + 1) 0) = none) :
    hexStep s i data = .error (.explicit "unhex: bad input") := by
  rw [List.getD_eq_getElem?_getD, List.getElem?_eq_getElem (by omega), Option.getD_some,
    List.getD_eq_getElem?_getD, List.getElem?_eq_getElem (by omega), Option.getD_some] at h
  unfold hexStep
  rw [Go.idx_eq (by omega), Go.bind_ok]
  cases ha : digit s[2 * i] with
  | none => rw [unhex_none ha]; rfl
  | some a =>
    obtain ⟨h1, _⟩ := unhex_some ha
    rw [h1, Go.bind_ok, Go.idx_eq (by omega), Go.bind_ok, unhex_none (h.resolve_left (by rw [ha]; simp))]
    rfl

theorem hexLoop_ok {s : List U8} (hs : s.length % 2 = 0) (hd : ∀ c ∈ s, digit c ≠ none) (k n : Nat) (data : List U8) (hk : k + n = s.length / 2)
    (hl : data.length = s.length / 2) :
    ∃ r, Go.forRange k n (hexStep s) data = .ok r ∧ r.length = data.length ∧ (∀ i, i < k → r[i]? = data[i]?) ∧
      ∀ i, k ≤ i → i < s.length / 2 → ∃ a b, digit (s.getD (2 * i) 0) = some a ∧ digit (s.getD (2 * i + 1) 0) = some b ∧
        r[i]? = some (BitVec.ofNat 8 (16 * a + b)) := by
  induction n generalizing k data with
  | zero => exact ⟨data, rfl, rfl, fun _ _ => rfl, fun i h1 h2 => by omega⟩
  | succ n ih =>
    have get : ∀ j, j < s.length → ∃ a, digit (s.getD j 0) = some a := by
      intro j hj
      rw [List.getD_eq_getElem?_getD, List.getElem?_eq_getElem hj, Option.getD_some]
      exact Option.ne_none_iff_exists'.1 (hd _ (List.getElem_mem hj))
    obtain ⟨a, ha⟩ := get (2 * k) (by omega)
    obtain ⟨b, hb⟩ := get (2 * k + 1) (by omega)
    obtain ⟨r, h1, h2, h3, h4⟩ := ih (k + 1) (data.set k (BitVec.ofNat 8 (16 * a + b))) (by omega) (by simpa using hl)
    refine ⟨r, ?_, by simpa using h2, ?_, ?_⟩
    · rw [Go.forRange, hexStep_ok (by omega) (by omega) ha hb]; exact h1
    · intro i hi
      rw [h3 i (by omega), List.getElem?_set_ne (by omega)]
    · intro i hi1 hi2
      by_cases he : i = k
      · subst he
        refine ⟨a, b, ha, hb, ?_⟩
        rw [h3 i (by omega), List.getElem?_set_self (by omega)]
      · exact h4 i (by omega) hi2

theorem hexLoop_bad {s : List U8} (hs : s.length % 2 = 0) (k n : Nat) (data : List U8) (hk : k + n = s.length / 2) (hl : data.length = s.length / 2)
    (hb : ∃ j, 2 * k ≤ j ∧ j < s.length ∧ digit (s.getD j 0) = none) :
    Go.forRange k n (hexStep s) data = .error (.explicit "unhex: bad input") := by
  induction n generalizing k data with
  | zero => obtain ⟨j, h1, h2, _⟩ := hb; omega
  | succ n ih =>
    rw [Go.forRange]
    cases ha : digit (s.getD (2 * k) 0) with
    | none => rw [hexStep_bad (by omega) (.inl ha)]; rfl
    | some a =>
      cases hb' : digit (s.getD (2 * k + 1) 0) with
      | none => rw [hexStep_bad (by omega) (.inr hb')]; rfl
      | some b =>
        rw [hexStep_ok (by omega) (by omega) ha hb']
        refine ih (k + 1) _ (by omega) (by simpa using hl) ?_
        obtain ⟨j, h1, h2, h3⟩ := hb
        refine ⟨j, ?_, h2, h3⟩
        rcases Nat.lt_or_ge j (2 * (k + 1)) with h | h
        · exfalso
          rcases (by omega : j = 2 * k ∨ j = 2 * k + 1) with rfl | rfl
          · rw [ha] at h3; simp at h3
          · rw [hb'] at h3; simp at h3
        · exact h

/-! ### ReadFile -/

theorem takeWhile_line {l rest : List U8} (h : 10#8 ∉ l) : (l ++ 10#8 :: rest).takeWhile (· ≠ 10#8) = l := by
  induction l with
  | nil => simp
  | cons b l ih =>
    have hb : b ≠ 10#8 := fun e => h (by simp [e])
    rw [List.cons_append, List.takeWhile_cons, if_pos (by simpa using hb), ih (fun e => h (by simp [e]))]

theorem dropWhile_line {l rest : List U8} (h : 10#8 ∉ l) : (l ++ 10#8 :: rest).dropWhile (· ≠ 10#8) = 10#8 :: rest := by
  induction l with
  | nil => simp
  | cons b l ih =>
    have hb : b ≠ 10#8 := fun e => h (by simp [e])
    rw [List.cons_append, List.dropWhile_cons, if_pos (by simpa using hb), ih (fun e => h (by simp [e]))]

theorem readString_line {l rest : List U8} (h : 10#8 ∉ l) : readString (l ++ 10#8 :: rest) = some (l ++ [10#8], rest) := by
  unfold readString
  rw [if_pos (by simp), takeWhile_line h, dropWhile_line h]; rfl

theorem readString_rest {rest : List U8} (h : 10#8 ∉ rest) : readString rest = none := by
  unfold readString; rw [if_neg h]

theorem trimLast_ne {c : U8} {s : List U8} (h : s ≠ []) : trimLast c s = .ok (if s.getLast? = some c then s.dropLast else s) := by
  unfold trimLast
  cases hs : s.getLast? with
  | none => simp at hs; exact absurd hs h
  | some x => simp

theorem trimLine_eq (l : List U8) : trimLine (l ++ [10#8]) = if bad l then .error .index else .ok (strip l) := by
  unfold trimLine
  rw [trimLast_ne (by simp), Go.bind_ok]
  simp only [List.getLast?_append, List.getLast?_singleton, Option.some_or, if_true, List.dropLast_concat]
  by_cases h0 : l = []
  · subst h0; rfl
  · rw [trimLast_ne h0, Go.bind_ok]
    by_cases h1 : l = [13#8]
    · subst h1; rfl
    · have hb : ¬ bad l = true := by simp [bad, h0, h1]
      rw [if_neg hb, trimLast_ne]
      · rfl
      · split
        · rename_i hl
          intro hd
          apply h1
          rw [List.getLast?_eq_some_iff] at hl
          obtain ⟨ys, rfl⟩ := hl
          rw [List.dropLast_concat] at hd
          subst hd; rfl
        · exact h0

theorem readLoop_eq (ioErr : Bool) (ls : List (List U8)) (rest : List U8) (hls : ∀ l ∈ ls, 10#8 ∉ l) (hrest : 10#8 ∉ rest) (fuel : Nat)
    (hf : ls.length < fuel) (acc : List (List U8)) (n : Nat) :
    readLoop ioErr fuel (fileOf ls rest) acc n =
      ⟨acc ++ (ls.takeWhile (! bad ·)).map strip,
        if ls.any bad then .error .index else if ioErr then .error (.explicit "reading file") else .ok (n + ls.length)⟩ := by
  induction ls generalizing fuel acc n with
  | nil =>
    cases fuel with
    | zero => simp at hf
    | succ fuel =>
      unfold readLoop
      rw [show fileOf [] rest = rest from rfl, readString_rest hrest]
      simp [Go.panic]
  | cons l ls ih =>
    cases fuel with
    | zero => simp at hf
    | succ fuel =>
      have e : fileOf (l :: ls) rest = l ++ 10#8 :: fileOf ls rest := by simp [fileOf]
      unfold readLoop
      rw [e, readString_line (hls l (by simp))]
      simp only []
      rw [trimLine_eq]
      by_cases hb : bad l = true
      · rw [if_pos hb]
        simp [hb]
      · rw [if_neg hb]
        simp only []
        rw [ih (fun x hx => hls x (List.mem_cons_of_mem _ hx)) fuel (by simp at hf; omega)]
        simp [hb, Nat.add_assoc, Nat.add_comm 1]

theorem fileOf_length (ls : List (List U8)) (rest : List U8) : ls.length ≤ (fileOf ls rest).length := by
  induction ls with
  | nil => simp
  | cons l ls ih => simp [fileOf] at ih ⊢; omega

theorem ReadFile_eq (ioErr : Bool) (ls : List (List U8)) (rest : List U8) (hls : ∀ l ∈ ls, 10#8 ∉ l) (hrest : 10#8 ∉ rest) :
    ReadFile (some ⟨fileOf ls rest, ioErr⟩) =
      ⟨(ls.takeWhile (! bad ·)).map strip,
        if ls.any bad then .error .index else if ioErr then .error (.explicit "reading file") else .ok ls.length⟩ := by
  unfold ReadFile
  have := fileOf_length ls rest
  dsimp only
  rw [readLoop_eq ioErr ls rest hls hrest _ (by omega)]
  simp

theorem fileOf_exists (content : List U8) : ∃ ls rest, content = fileOf ls rest ∧ (∀ l ∈ ls, 10#8 ∉ l) ∧ 10#8 ∉ rest := by
  induction content with
  | nil => exact ⟨[], [], rfl, by simp, by simp⟩
  | cons b c ih =>
    obtain ⟨ls, rest, h1, h2, h3⟩ := ih
    by_cases hb : b = 10#8
    · refine ⟨[] :: ls, rest, by rw [h1, hb]; simp [fileOf], ?_, h3⟩
      intro l hl
      rcases List.mem_cons.1 hl with rfl | hl
      · simp
      · exact h2 l hl
    · cases ls with
      | nil => exact ⟨[], b :: rest, by rw [h1]; simp [fileOf], by simp, by simp [Ne.symm hb, h3]⟩
      | cons l ls =>
        refine ⟨(b :: l) :: ls, rest, by rw [h1]; simp [fileOf], ?_, h3⟩
        intro x hx
        rcases List.mem_cons.1 hx with rfl | hx
        · simp [Ne.symm hb, h2 l (by simp)]
        · exact h2 x (List.mem_cons_of_mem _ hx)

/-! ### checkForDups32 -/

def scan : U32 → Nat → Nat → Nat → List U32 → Nat × Nat
  | _, _, dups, mrun, [] => (dups, mrun)
  | x, run, dups, mrun, v :: l =>
    if x = v then scan x (run + 1) (dups + 1) mrun l else scan v 0 dups (max run mrun) l

theorem dupLoop_eq (u : List U32) (n k : Nat) (d : Dups) (hk : k + n = u.length) (hi : d.i < k) (hk0 : 0 < k) :
    (Go.forRange k n (dupStep u) d).map (fun d => (d.dups, d.mrun)) = .ok (scan (u.getD d.i 0) d.run d.dups d.mrun (u.drop k)) := by
  induction n generalizing k d with
  | zero => rw [List.drop_of_length_le (by omega)]; rfl
  | succ n ih =>
    have e : u.drop k = u[k] :: u.drop (k + 1) := List.drop_eq_getElem_cons (by omega)
    have g : u.getD d.i 0 = u[d.i] := by rw [List.getD_eq_getElem?_getD, List.getElem?_eq_getElem (by omega), Option.getD_some]
    rw [Go.forRange]
    unfold dupStep
    rw [Go.idx_eq (by omega), Go.bind_ok, if_neg (by omega), Go.idx_eq (by omega), Go.bind_ok, e, g]
    unfold scan
    by_cases h : u[d.i] = u[k]
    · rw [if_pos h, if_pos h, Go.pure_ok]
      have := ih (k + 1) { d with run := d.run + 1, dups := d.dups + 1 } (by omega) (by dsimp only; omega) (by omega)
      dsimp only at this
      rw [g] at this
      exact this
    · rw [if_neg h, if_neg h, Go.pure_ok]
      have := ih (k + 1) { d with i := k, run := 0, mrun := if d.run > d.mrun then d.run else d.mrun } (by omega) (by dsimp only; omega) (by omega)
      dsimp only at this
      rw [List.getD_eq_getElem?_getD, List.getElem?_eq_getElem (by omega), Option.getD_some] at this
      have hm : (if d.run > d.mrun then d.run else d.mrun) = max d.run d.mrun := by
        rw [Nat.max_def]; split <;> split <;> omega
      rw [hm] at this
      rw [hm]
      exact this

theorem checkForDups32_cons (x : U32) (l : List U32) : checkForDups32 (x :: l) = .ok (scan x 0 0 0 l) := by
  unfold checkForDups32
  have h := dupLoop_eq (x :: l) l.length 1 ⟨0, 0, 0, 0⟩ (by simp [Nat.add_comm]) (by simp) (by simp)
  rw [List.length_cons, Go.forRange]
  have e : dupStep (x :: l) 0 ⟨0, 0, 0, 0⟩ = .ok ⟨0, 0, 0, 0⟩ := by
    unfold dupStep; rw [Go.idx_eq (by simp), Go.bind_ok, if_pos (by simp)]; rfl
  rw [e]
  simp only [List.getD_cons_zero, List.drop_succ_cons, List.drop_zero] at h
  rw [← h]
  simp only [Except.bind]
  rw [show 0 + 1 = 1 from rfl]
  cases Go.forRange 1 l.length (dupStep (x :: l)) ⟨0, 0, 0, 0⟩ <;> rfl

theorem scan_replicate (x : U32) (n run dups mrun : Nat) (l : List U32) :
    scan x run dups mrun (List.replicate n x ++ l) = scan x (run + n) (dups + n) mrun l := by
  induction n generalizing run dups with
  | zero => rfl
  | succ n ih =>
    rw [List.replicate_succ, List.cons_append, scan, if_pos rfl, ih]
    congr 1 <;> omega

/-- Longest run of extra elements, of all runs. -/
def longest (rs : List (U32 × Nat)) : Nat := rs.foldr (fun r m => max (r.2 - 1) m) 0

theorem scan_runs (x : U32) (run dups mrun : Nat) (rs : List (U32 × Nat)) (h : IsRuns rs) (hx : ∀ r ∈ rs.head?, x ≠ r.1) :
    scan x run dups mrun (ofRuns rs) =
      (dups + (rs.map fun r => r.2 - 1).sum, if rs = [] then mrun else max mrun (max run (longest rs.dropLast))) := by
  induction rs generalizing x run dups mrun with
  | nil => rfl
  | cons r rs ih =>
    obtain ⟨v, c⟩ := r
    have hc := h.1 (v, c) (by simp)
    dsimp only at hc
    obtain ⟨c, rfl⟩ : ∃ c', c = c' + 1 := ⟨c - 1, by omega⟩
    have e : ofRuns ((v, c + 1) :: rs) = v :: (List.replicate c v ++ ofRuns rs) := by
      simp [ofRuns, List.replicate_succ]
    have hr : IsRuns rs := ⟨fun r hr => h.1 r (List.mem_cons_of_mem _ hr), h.2.tail⟩
    have hv : ∀ r ∈ rs.head?, v ≠ r.1 := by
      intro r hr
      cases rs with
      | nil => simp at hr
      | cons a rs => simp at hr; subst hr; exact (List.isChain_cons_cons.1 h.2).1
    have hxv : x ≠ v := hx (v, c + 1) rfl
    rw [e, scan, if_neg hxv, scan_replicate, ih v _ _ _ hr hv]
    simp only [List.map_cons, List.sum_cons, List.cons_ne_nil, if_false, Prod.mk.injEq]
    refine ⟨by omega, ?_⟩
    by_cases hn : rs = []
    · subst hn; simp [longest, Nat.max_comm]
    · rw [if_neg hn]
      obtain ⟨a, rs', rfl⟩ := List.exists_cons_of_ne_nil hn
      rw [List.dropLast_cons_of_ne_nil (x := (v, c + 1)) (l := a :: rs') (by simp)]
      simp only [longest, List.foldr_cons]
      omega

theorem checkForDups32_runs (rs : List (U32 × Nat)) (h : IsRuns rs) :
    checkForDups32 (ofRuns rs) = .ok ((rs.map fun r => r.2 - 1).sum, longest rs.dropLast) := by
  cases rs with
  | nil => rfl
  | cons r rs =>
    obtain ⟨v, c⟩ := r
    have hc := h.1 (v, c) (by simp)
    dsimp only at hc
    obtain ⟨c, rfl⟩ : ∃ c', c = c' + 1 := ⟨c - 1, by omega⟩
    have e : ofRuns ((v, c + 1) :: rs) = v :: (List.replicate c v ++ ofRuns rs) := by
      simp [ofRuns, List.replicate_succ]
    have hr : IsRuns rs := ⟨fun r hr => h.1 r (List.mem_cons_of_mem _ hr), h.2.tail⟩
    have hv : ∀ r ∈ rs.head?, v ≠ r.1 := by
      intro r hr
      cases rs with
      | nil => simp at hr
      | cons a rs => simp at hr; subst hr; exact (List.isChain_cons_cons.1 h.2).1
    rw [e, checkForDups32_cons, scan_replicate, scan_runs v _ _ _ rs hr hv]
    simp only [List.map_cons, List.sum_cons, Nat.zero_add, Nat.add_sub_cancel, Except.ok.injEq, Prod.mk.injEq, true_and]
    by_cases hn : rs = []
    · subst hn; simp [longest]
    · rw [if_neg hn]
      obtain ⟨a, rs', rfl⟩ := List.exists_cons_of_ne_nil hn
      rw [List.dropLast_cons_of_ne_nil (x := (v, c + 1)) (l := a :: rs') (by simp)]
      simp only [longest, List.foldr_cons, Nat.add_sub_cancel]
      omega

theorem runs_exist (u : List U32) : ∃ rs, IsRuns rs ∧ u = ofRuns rs := by
  induction u with
  | nil => exact ⟨[], ⟨by simp, by simp⟩, rfl⟩
  | cons x u ih =>
    obtain ⟨rs, h, rfl⟩ := ih
    cases rs with
    | nil => exact ⟨[(x, 1)], ⟨by simp, by simp⟩, rfl⟩
    | cons r rs =>
      obtain ⟨v, c⟩ := r
      by_cases hx : x = v
      · subst hx
        refine ⟨(x, c + 1) :: rs, ⟨?_, ?_⟩, by simp [ofRuns, List.replicate_succ]⟩
        · intro r hr
          rcases List.mem_cons.1 hr with rfl | hr
          · simp
          · exact h.1 r (List.mem_cons_of_mem _ hr)
        · cases rs with
          | nil => simp
          | cons a rs =>
            have := List.isChain_cons_cons.1 h.2
            exact List.isChain_cons_cons.2 ⟨this.1, this.2⟩
      · refine ⟨(x, 1) :: (v, c) :: rs, ⟨?_, ?_⟩, by simp [ofRuns]⟩
        · intro r hr
          rcases List.mem_cons.1 hr with rfl | hr
          · simp
          · exact h.1 r hr
        · exact List.isChain_cons_cons.2 ⟨hx, h.2⟩

/-! ### Loops that append -/

theorem forRange_collect {σ β : Type} (I : σ → Prop) (g : Nat → List β) {body : Nat → σ × List β → Go (σ × List β)} (lo n : Nat)
    (hb : ∀ i s out, lo ≤ i → i < lo + n → I s → ∃ s', body i (s, out) = .ok (s', out ++ g i) ∧ I s') (s : σ) (out : List β) (hs : I s) :
    ∃ s', Go.forRange lo n body (s, out) = .ok (s', out ++ (List.range' lo n).flatMap g) ∧ I s' := by
  induction n generalizing lo s out with
  | zero => exact ⟨s, by simp [Go.forRange], hs⟩
  | succ n ih =>
    obtain ⟨s1, h1, h2⟩ := hb lo s out (by omega) (by omega) hs
    obtain ⟨s2, h3, h4⟩ := ih (lo + 1) (fun i s out a b c => hb i s out (by omega) (by omega) c) s1 (out ++ g lo) h2
    refine ⟨s2, ?_, h4⟩
    rw [Go.forRange, h1, List.range'_succ, List.flatMap_cons, ← List.append_assoc]
    exact h3

theorem flatMap_singleton_map {α β : Type} (f : α → β) (l : List α) : l.flatMap (fun a => [f a]) = l.map f := by
  induction l with
  | nil => rfl
  | cons a l ih => simp [ih]

theorem leBytes4 (i : Nat) : leBytes 4 i = [BitVec.ofNat 8 i, BitVec.ofNat 8 (i >>> 8), BitVec.ofNat 8 (i >>> 16), BitVec.ofNat 8 (i >>> 24)] := by
  simp only [leBytes, Nat.shiftRight_eq_div_pow, Nat.div_div_eq_div_mul]

theorem set4 {bs : List U8} (h : bs.length = 4) (a b c d : U8) : (((bs.set 0 a).set 1 b).set 2 c).set 3 d = [a, b, c, d] := by
  match bs, h with
  | [w, x, y, z], _ => rfl

theorem testI_eq (ni : Int) : ∃ bs, testI ni = .ok (bs, (List.range ni.toNat).map (leBytes 4)) := by
  unfold testI
  obtain ⟨s', h, _⟩ := forRange_collect (fun bs : List U8 => bs.length = 4) (fun i => [leBytes 4 i]) 0 ni.toNat (s := List.replicate 4 0#8) (out := [])
    (body := fun i q => do
      let bs ← Go.set q.1 0 (BitVec.ofNat 8 i)
      let bs ← Go.set bs 1 (BitVec.ofNat 8 (i >>> 8))
      let bs ← Go.set bs 2 (BitVec.ofNat 8 (i >>> 16))
      let bs ← Go.set bs 3 (BitVec.ofNat 8 (i >>> 24))
      return (bs, q.2 ++ [bs]))
    (by
      intro i s out _ _ hs
      refine ⟨leBytes 4 i, ?_, leBytes_length _ _⟩
      dsimp only
      rw [set_eq (by omega), Go.bind_ok, set_eq (by simp; omega), Go.bind_ok, set_eq (by simp; omega), Go.bind_ok, set_eq (by simp; omega), Go.bind_ok,
        set4 hs, ← leBytes4]; rfl) (by simp)
  refine ⟨s', ?_⟩
  rw [h, flatMap_singleton_map, List.nil_append, List.range_eq_range']

theorem leBytes_zero (n : Nat) : leBytes n 0 = List.replicate n 0#8 := by
  induction n with
  | zero => rfl
  | succ n ih => rw [leBytes, Nat.zero_div, ih, List.replicate_succ]

theorem leBytes_pow (n k i : Nat) (hi : i < 8) (hk : k < n) : leBytes n (2 ^ (i + 8 * k)) = (List.replicate n 0#8).set k (1#8 <<< i) := by
  induction n generalizing k with
  | zero => omega
  | succ n ih =>
    cases k with
    | zero =>
      rw [leBytes, List.replicate_succ, List.set_cons_zero]
      have h1 : 2 ^ (i + 8 * 0) / 256 = 0 := by
        apply Nat.div_eq_of_lt
        exact Nat.pow_lt_pow_right (n := 8) (by omega) (by omega)
      rw [h1, leBytes_zero]
      congr 1
      have : ∀ i : Fin 8, BitVec.ofNat 8 (2 ^ (i.val + 8 * 0)) = 1#8 <<< i.val := by decide
      exact this ⟨i, hi⟩
    | succ k =>
      rw [leBytes, List.replicate_succ, List.set_cons_succ, ← ih k (by omega)]
      have e : 2 ^ (i + 8 * (k + 1)) = 2 ^ (i + 8 * k) * 256 := by
        rw [show i + 8 * (k + 1) = (i + 8 * k) + 8 by omega, Nat.pow_add]
      rw [e, Nat.mul_div_cancel _ (by omega)]
      congr 1
      apply BitVec.eq_of_toNat_eq
      simp [BitVec.toNat_ofNat]

theorem testJInner_eq (length k : Nat) (hk : k < length) (out : List (List U8)) :
    testJInner k (List.replicate length 0#8, out) =
      .ok (List.replicate length 0#8, out ++ (List.range 8).map fun i => leBytes length (2 ^ (i + 8 * k))) := by
  unfold testJInner
  obtain ⟨s', h, hs'⟩ := forRange_collect (fun bs : List U8 => bs = List.replicate length 0#8) (fun i => [leBytes length (2 ^ (i + 8 * k))]) 0 8
    (s := List.replicate length 0#8) (out := out)
    (body := fun i q => do
      let key ← Go.set q.1 k (1#8 <<< i)
      let out := q.2 ++ [key]
      let key ← Go.set key k 0#8
      return (key, out))
    (by
      intro i s out _ hi hs
      subst hs
      refine ⟨_, ?_, rfl⟩
      dsimp only
      rw [set_eq (by simpa using hk), Go.bind_ok, set_eq (by simpa using hk), Go.bind_ok, leBytes_pow length k i (by omega) hk, List.set_set,
        List.set_replicate_self]; rfl) rfl
  subst hs'
  rw [h, flatMap_singleton_map, List.range_eq_range']

theorem testJ_eq (length : Nat) :
    ∃ bs, testJ length = .ok (bs, (List.range (8 * length)).map fun j => leBytes length (2 ^ j)) := by
  unfold testJ
  obtain ⟨s', h, hs'⟩ := forRange_collect (fun bs : List U8 => bs = List.replicate length 0#8)
    (fun k => (List.range 8).map fun i => leBytes length (2 ^ (i + 8 * k))) 0 length
    (s := List.replicate length 0#8) (out := []) (body := testJInner)
    (by
      intro i s out _ hi hs
      subst hs
      exact ⟨_, testJInner_eq length i (by omega) out, rfl⟩) rfl
  refine ⟨s', ?_⟩
  rw [h, List.nil_append, ← List.range_eq_range', range_mul (fun j => leBytes length (2 ^ j))]

theorem testLBody_eq (i j k : Nat) (hj : j < 256) (hk : k < 256) (key : List U8) (h : key.length = 3) (out : List (List U8)) :
    testLBody i j k (key, out) = .ok (beBytes 3 (k + 256 * (j + 256 * i)), out ++ [beBytes 3 (k + 256 * (j + 256 * i))]) := by
  have e : beBytes 3 (k + 256 * (j + 256 * i)) = [BitVec.ofNat 8 i, BitVec.ofNat 8 j, BitVec.ofNat 8 k] := by
    simp only [beBytes, leBytes, List.reverse_cons, List.reverse_nil, List.nil_append, List.cons_append, Nat.div_div_eq_div_mul]
    rw [show (k + 256 * (j + 256 * i)) / (256 * 256) = i by omega, show (k + 256 * (j + 256 * i)) / 256 = j + 256 * i by omega]
    congr 1
    have f : ∀ a b, BitVec.ofNat 8 (a + 256 * b) = BitVec.ofNat 8 a := by
      intro a b; apply BitVec.eq_of_toNat_eq; simp [BitVec.toNat_ofNat]
    rw [f, f]
  unfold testLBody
  dsimp only
  rw [set_eq (by omega), Go.bind_ok, set_eq (by simp; omega), Go.bind_ok, set_eq (by simp; omega), Go.bind_ok, e]
  match key, h with
  | [x, y, z], _ => rfl

theorem range_mul3 {β : Type} (f : Nat → β) (L : Nat) :
    ((List.range L).flatMap fun i => (List.range L).flatMap fun j => (List.range L).map fun k => f (k + L * (j + L * i))) =
      (List.range (L * (L * L))).map f := by
  have : ∀ i, ((List.range L).flatMap fun j => (List.range L).map fun k => f (k + L * (j + L * i))) =
      (List.range (L * L)).map fun m => f (m + L * L * i) := by
    intro i
    rw [← range_mul (fun m => f (m + L * L * i)) L L]
    congr 1; funext j; congr 1; funext k; congr 1
    rw [Nat.mul_add, Nat.mul_assoc, Nat.add_assoc]
  simp only [this]
  rw [range_mul f (L * L) L, Nat.mul_assoc]

theorem testL_eq : ∃ bs, testL = .ok (bs, (List.range (256 * (256 * 256))).map (beBytes 3)) := by
  unfold testL
  obtain ⟨s', h, hs'⟩ := forRange_collect (fun bs : List U8 => bs.length = 3)
    (fun i => (List.range 256).flatMap fun j => (List.range 256).map fun k => beBytes 3 (k + 256 * (j + 256 * i))) 0 256
    (s := List.replicate 3 0#8) (out := [])
    (body := fun i q => Go.forRange 0 256 (fun j q => Go.forRange 0 256 (fun k q => testLBody i j k q) q) q)
    (by
      intro i s out _ hi hs
      obtain ⟨s1, h1, h2⟩ := forRange_collect (fun bs : List U8 => bs.length = 3)
        (fun j => (List.range 256).map fun k => beBytes 3 (k + 256 * (j + 256 * i))) 0 256
        (s := s) (out := out)
        (body := fun j q => Go.forRange 0 256 (fun k q => testLBody i j k q) q)
        (by
          intro j s out _ hj hs
          obtain ⟨s1, h1, h2⟩ := forRange_collect (fun bs : List U8 => bs.length = 3)
            (fun k => [beBytes 3 (k + 256 * (j + 256 * i))]) 0 256 (s := s) (out := out)
            (body := fun k q => testLBody i j k q)
            (by
              intro k s out _ hk hs
              exact ⟨_, testLBody_eq i j k (by omega) (by omega) s hs out, by simp [beBytes, leBytes_length]⟩) hs
          rw [flatMap_singleton_map, ← List.range_eq_range'] at h1
          exact ⟨s1, h1, h2⟩) hs
      rw [← List.range_eq_range'] at h1
      exact ⟨s1, h1, h2⟩) (by simp)
  refine ⟨s', ?_⟩
  rw [h, List.nil_append, ← List.range_eq_range']
  rw [range_mul3]

/-! ### TestM -/

theorem binCount_succ (h : Nat → Nat) (n b : Nat) : binCount h (n + 1) b = binCount h n b + if h n = b then 1 else 0 := by
  unfold binCount
  rw [List.range_succ, List.countP_append]
  simp [List.countP_cons]

theorem testMLoop_eq (H : List U8 → U64) (N : Nat) (hN : 0 < N) (hN' : N < 2 ^ 64) (n k : Nat) (bs : List U8) (hist : List Nat)
    (hb : bs.length = 4) (hl : hist.length = N) (hh : ∀ b, b < N → hist[b]? = some (binCount (fun i => (H (leBytes 4 i)).toNat % N) k b)) :
    ∃ bs' hist', Go.forRange k n (testMBody H (BitVec.ofNat 64 N)) (bs, hist) = .ok (bs', hist') ∧ hist'.length = N ∧
      ∀ b, b < N → hist'[b]? = some (binCount (fun i => (H (leBytes 4 i)).toNat % N) (k + n) b) := by
  induction n generalizing k bs hist with
  | zero => exact ⟨bs, hist, rfl, hl, hh⟩
  | succ n ih =>
    have hmod : (BitVec.ofNat 64 N).toNat = N := by rw [BitVec.toNat_ofNat, Nat.mod_eq_of_lt hN']
    have hx : (H (leBytes 4 k) % BitVec.ofNat 64 N).toNat = (H (leBytes 4 k)).toNat % N := by rw [BitVec.toNat_umod, hmod]
    have hlt := Nat.mod_lt (H (leBytes 4 k)).toNat hN
    have e : testMBody H (BitVec.ofNat 64 N) k (bs, hist) =
        .ok (leBytes 4 k, hist.set ((H (leBytes 4 k)).toNat % N) (binCount (fun i => (H (leBytes 4 i)).toNat % N) k ((H (leBytes 4 k)).toNat % N) + 1)) := by
      unfold testMBody
      dsimp only
      rw [set_eq (by omega), Go.bind_ok, set_eq (by simp; omega), Go.bind_ok, set_eq (by simp; omega), Go.bind_ok, set_eq (by simp; omega), Go.bind_ok,
        set4 hb, ← leBytes4]
      rw [if_neg (by intro h; have := congrArg BitVec.toNat h; rw [hmod] at this; simp at this; omega), hx, Go.idx, hh _ hlt]
      dsimp only
      rw [Go.bind_ok, set_eq (by omega), Go.bind_ok]; rfl
    obtain ⟨bs', hist', h1, h2, h3⟩ := ih (k + 1) (leBytes 4 k) (hb := leBytes_length _ _)
      (hist := hist.set ((H (leBytes 4 k)).toNat % N) (binCount (fun i => (H (leBytes 4 i)).toNat % N) k ((H (leBytes 4 k)).toNat % N) + 1))
      (hl := by simpa using hl) (hh := by
        intro b hb'
        rw [binCount_succ]
        by_cases he : (H (leBytes 4 k)).toNat % N = b
        · subst he
          rw [List.getElem?_set_self (by omega), if_pos rfl]
        · rw [List.getElem?_set_ne he, hh b hb', if_neg he, Nat.add_zero])
    refine ⟨bs', hist', ?_, h2, by rw [← Nat.add_assoc, Nat.add_right_comm]; exact h3⟩
    rw [Go.forRange, e]; exact h1

end Verif.Lemmas.Ht
