import Verif.Go

/-! Helper lemmas about blocks, little-endian numbers and the Go loop combinators. -/

namespace Verif

theorem tailOf_length (n : Nat) (l : List α) : (tailOf n l).length = l.length % n := by
  have := Nat.div_add_mod l.length n
  have h2 := Nat.mul_comm n (l.length / n)
  simp [tailOf]; omega

theorem tailOf_length_lt {n : Nat} (hn : 0 < n) (l : List α) : (tailOf n l).length < n := by
  rw [tailOf_length]; exact Nat.mod_lt _ hn

theorem blocks_of_lt {n : Nat} {l : List α} (h : l.length < n) : blocks n l = [] := by
  simp [blocks, Nat.div_eq_of_lt h]

theorem tailOf_of_lt {n : Nat} {l : List α} (h : l.length < n) : tailOf n l = l := by
  simp [tailOf, Nat.div_eq_of_lt h]

theorem blocks_of_le {n : Nat} {l : List α} (hn : 0 < n) (h : n ≤ l.length) :
    blocks n l = l.take n :: blocks n (l.drop n) := by
  have e : l.length / n = (l.length - n) / n + 1 := by
    rw [← Nat.sub_add_cancel h, Nat.add_div_right _ hn]; simp
  unfold blocks
  rw [e, List.range_succ_eq_map]
  simp [List.length_drop, List.map_map, Function.comp_def, Nat.succ_mul, Nat.add_comm]

theorem tailOf_of_le {n : Nat} {l : List α} (hn : 0 < n) (h : n ≤ l.length) :
    tailOf n l = tailOf n (l.drop n) := by
  have e : l.length / n = (l.length - n) / n + 1 := by
    rw [← Nat.sub_add_cancel h, Nat.add_div_right _ hn]; simp
  unfold tailOf
  rw [e]
  simp [Nat.add_mul, Nat.add_comm]

@[simp] theorem blocks_nil (n : Nat) : blocks n ([] : List α) = [] := by simp [blocks]
@[simp] theorem tailOf_nil (n : Nat) : tailOf n ([] : List α) = [] := by simp [tailOf]

/-- Strong induction: process one block at a time. -/
theorem blocks_induction {n : Nat} (hn : 0 < n) {P : List α → Prop}
    (small : ∀ l, l.length < n → P l)
    (step : ∀ l, n ≤ l.length → P (l.drop n) → P l) (l : List α) : P l := by
  generalize hk : l.length = k
  induction k using Nat.strongRecOn generalizing l with
  | _ k ih =>
    by_cases h : l.length < n
    · exact small l h
    · exact step l (by omega) (ih (l.drop n).length (by simp; omega) _ rfl)

theorem blocks_flatten {n : Nat} (hn : 0 < n) (l : List α) :
    (blocks n l).flatten ++ tailOf n l = l := by
  induction l using blocks_induction hn with
  | small l h => simp [blocks_of_lt h, tailOf_of_lt h]
  | step l h ih =>
    rw [blocks_of_le hn h, tailOf_of_le hn h, List.flatten_cons, List.append_assoc, ih,
      List.take_append_drop]

theorem blocks_mem_length {n : Nat} (hn : 0 < n) {l b : List α} (hb : b ∈ blocks n l) :
    b.length = n := by
  induction l using blocks_induction hn with
  | small l h => simp [blocks_of_lt h] at hb
  | step l h ih =>
    rw [blocks_of_le hn h] at hb
    rcases List.mem_cons.1 hb with rfl | hb
    · simp; omega
    · exact ih hb

theorem blocks_length (n : Nat) (l : List α) : (blocks n l).length = l.length / n := by
  simp [blocks]

/-- Blocks of a concatenation: first the blocks of the prefix, then those of its leftover and the rest. -/
theorem blocks_append {n : Nat} (hn : 0 < n) (a b : List α) :
    blocks n (a ++ b) = blocks n a ++ blocks n (tailOf n a ++ b) := by
  induction a using blocks_induction hn with
  | small a h => simp [blocks_of_lt h, tailOf_of_lt h]
  | step a h ih =>
    rw [blocks_of_le hn h, tailOf_of_le hn h, blocks_of_le hn (by simp; omega),
      List.take_append_of_le_length h, List.drop_append_of_le_length h, ih, List.cons_append]

theorem tailOf_append {n : Nat} (hn : 0 < n) (a b : List α) :
    tailOf n (a ++ b) = tailOf n (tailOf n a ++ b) := by
  induction a using blocks_induction hn with
  | small a h => simp [tailOf_of_lt h]
  | step a h ih =>
    rw [tailOf_of_le hn h, tailOf_of_le hn (by simp; omega : n ≤ (a ++ b).length),
      List.drop_append_of_le_length h, ih]

namespace Go

/-- Sequencing after a normal return. Rewriting with this lemma (instead of unfolding `bind`) keeps
kernel checking cheap. -/
theorem bind_ok {α β : Type} (x : α) (f : α → Go β) : (Except.ok x >>= f) = f x := rfl

theorem bind_error {α β : Type} (e : Fault) (f : α → Go β) : ((Except.error e : Go α) >>= f) = .error e := rfl

theorem pure_ok {α : Type} (x : α) : (pure x : Go α) = .ok x := rfl

/-- A loop that eats `n`-element blocks off the front of a slice is a fold over the blocks. -/
theorem while_blocks {n : Nat} (hn : 0 < n) {cond : σ × List α → Bool}
    {body : σ × List α → Go (σ × List α)} {f : σ → List α → σ}
    (hc : ∀ s p, cond (s, p) = decide (n ≤ p.length))
    (hb : ∀ s p, n ≤ p.length → body (s, p) = .ok (f s (p.take n), p.drop n))
    (fuel : Nat) (s : σ) (p : List α) (hf : p.length / n ≤ fuel) :
    while_ fuel cond body (s, p) = .ok ((blocks n p).foldl f s, tailOf n p) := by
  induction fuel generalizing s p with
  | zero =>
    have h : p.length < n := by
      rcases Nat.lt_or_ge p.length n with h | h
      · exact h
      · have := Nat.div_pos h hn; omega
    have h' : ¬ n ≤ p.length := by omega
    simp [while_, hc, h', blocks_of_lt h, tailOf_of_lt h]
  | succ m ih =>
    by_cases h : n ≤ p.length
    · have e : p.length / n = (p.length - n) / n + 1 := by
        rw [← Nat.sub_add_cancel h, Nat.add_div_right _ hn]; simp
      rw [while_, hc]
      simp only [h, decide_true, if_true, hb s p h]
      rw [blocks_of_le hn h, tailOf_of_le hn h]
      show while_ m cond body _ = _
      rw [ih _ _ (by simp; omega)]
      rfl
    · simp [while_, hc, h, blocks_of_lt (Nat.lt_of_not_le h), tailOf_of_lt (Nat.lt_of_not_le h)]

/-- As `while_blocks`, with an invariant on the accumulator. -/
theorem while_blocks_inv {n : Nat} (hn : 0 < n) {cond : σ × List α → Bool}
    {body : σ × List α → Go (σ × List α)} {f : σ → List α → σ} (I : σ → Prop)
    (hc : ∀ s p, cond (s, p) = decide (n ≤ p.length))
    (hb : ∀ s p, I s → n ≤ p.length → body (s, p) = .ok (f s (p.take n), p.drop n))
    (hI : ∀ s b, I s → b.length = n → I (f s b))
    (fuel : Nat) (s : σ) (p : List α) (hs : I s) (hf : p.length / n ≤ fuel) :
    while_ fuel cond body (s, p) = .ok ((blocks n p).foldl f s, tailOf n p) := by
  induction fuel generalizing s p with
  | zero =>
    have h : p.length < n := by
      rcases Nat.lt_or_ge p.length n with h | h
      · exact h
      · have := Nat.div_pos h hn; omega
    have h' : ¬ n ≤ p.length := by omega
    simp [while_, hc, h', blocks_of_lt h, tailOf_of_lt h]
  | succ m ih =>
    by_cases h : n ≤ p.length
    · have e : p.length / n = (p.length - n) / n + 1 := by
        rw [← Nat.sub_add_cancel h, Nat.add_div_right _ hn]; simp
      rw [while_, hc]
      simp only [h, decide_true, if_true, hb s p hs h]
      rw [blocks_of_le hn h, tailOf_of_le hn h]
      show while_ m cond body _ = _
      rw [ih _ _ (hI _ _ hs (by simp; omega)) (by simp; omega)]
      rfl
    · simp [while_, hc, h, blocks_of_lt (Nat.lt_of_not_le h), tailOf_of_lt (Nat.lt_of_not_le h)]

theorem forRange_eq {body : Nat → σ → Go σ} {g : Nat → σ → σ} (lo n : Nat) (s : σ)
    (hb : ∀ i s, lo ≤ i → i < lo + n → body i s = .ok (g i s)) :
    forRange lo n body s = .ok ((List.range' lo n).foldl (fun s i => g i s) s) := by
  induction n generalizing lo s with
  | zero => rfl
  | succ n ih =>
    rw [forRange, hb lo s (by omega) (by omega), List.range'_succ, List.foldl_cons]
    exact ih (lo + 1) _ (fun i s h1 h2 => hb i s (by omega) (by omega))

/-- A counted loop that reads the `i`-th block is a fold over the blocks. -/
theorem forRange_blocks {n : Nat} (p : List α) {body : Nat → σ → Go σ} {f : σ → List α → σ}
    (hb : ∀ i s, i * n + n ≤ p.length → body i s = .ok (f s ((p.drop (i * n)).take n))) (s : σ) :
    forRange 0 (p.length / n) body s = .ok ((blocks n p).foldl f s) := by
  rw [forRange_eq (g := fun i s => f s ((p.drop (i * n)).take n))]
  · rw [blocks, List.foldl_map, List.range_eq_range']
  · intro i s _ hi
    apply hb
    have h1 : i + 1 ≤ p.length / n := by omega
    have := Nat.mul_le_mul_right n h1
    have h2 := Nat.div_mul_le_self p.length n
    rw [Nat.add_mul, Nat.one_mul] at this
    omega

theorem unsafe32_eq {p : List U8} {i : Nat} (h : i + 4 ≤ p.length) : unsafe32 p i = .ok (le32 (p.drop i)) := by
  simp [unsafe32, h]

theorem unsafe64_eq {p : List U8} {i : Nat} (h : i + 8 ≤ p.length) : unsafe64 p i = .ok (le64 (p.drop i)) := by
  simp [unsafe64, h]

theorem idx_eq {s : List α} {i : Nat} (h : i < s.length) : idx s i = .ok s[i] := by
  simp [idx, h]

theorem idx_none {s : List α} {i : Nat} (h : s.length ≤ i) : idx s i = .error .index := by
  simp [idx, h]

theorem from_eq {s : List α} {i : Nat} (h : i ≤ s.length) : from_ s i = .ok (s.drop i) := by
  simp [from_, h]

end Go

/-! ### Little-endian numbers -/

theorem leNat_lt (l : List U8) : leNat l < 256 ^ l.length := by
  induction l with
  | nil => simp [leNat]
  | cons b bs ih =>
    have := b.isLt
    simp only [leNat, List.length_cons, Nat.pow_succ]
    omega

theorem leNat_append (a b : List U8) : leNat (a ++ b) = leNat a + 256 ^ a.length * leNat b := by
  induction a with
  | nil => simp [leNat]
  | cons x xs ih =>
    simp only [List.cons_append, leNat, ih, List.length_cons, Nat.pow_succ, Nat.mul_add]
    rw [Nat.mul_comm (256 ^ xs.length) 256, Nat.mul_assoc, Nat.add_assoc]

theorem leBytes_length (n x : Nat) : (leBytes n x).length = n := by
  induction n generalizing x with
  | zero => rfl
  | succ n ih => simp [leBytes, ih]

theorem leNat_leBytes (n x : Nat) : leNat (leBytes n x) = x % 256 ^ n := by
  induction n generalizing x with
  | zero => simp [leBytes, leNat, Nat.mod_one]
  | succ n ih =>
    simp only [leBytes, leNat, ih, BitVec.toNat_ofNat]
    rw [Nat.pow_succ (n := 256), Nat.mul_comm (256 ^ n) 256, Nat.mod_mul]

theorem leBytes_leNat (l : List U8) : leBytes l.length (leNat l) = l := by
  induction l with
  | nil => rfl
  | cons b bs ih =>
    have hb := b.isLt
    have h1 : (b.toNat + 256 * leNat bs) / 256 = leNat bs := by omega
    simp only [List.length_cons, leNat, leBytes, h1, ih, List.cons.injEq, and_true]
    apply BitVec.eq_of_toNat_eq
    simp; omega

theorem leNat_inj {a b : List U8} (hl : a.length = b.length) (h : leNat a = leNat b) : a = b := by
  rw [← leBytes_leNat a, ← leBytes_leNat b, hl, h]

theorem le32_inj {a b : List U8} (ha : a.length = 4) (hb : b.length = 4) (h : le32 a = le32 b) :
    a = b := by
  have h1 := leNat_lt a
  have h2 := leNat_lt b
  rw [ha] at h1
  rw [hb] at h2
  apply leNat_inj (by omega)
  have := congrArg BitVec.toNat h
  simp [le32, List.take_of_length_le (Nat.le_of_eq ha), List.take_of_length_le (Nat.le_of_eq hb)] at this
  omega

theorem le64_inj {a b : List U8} (ha : a.length = 8) (hb : b.length = 8) (h : le64 a = le64 b) :
    a = b := by
  have h1 := leNat_lt a
  have h2 := leNat_lt b
  rw [ha] at h1
  rw [hb] at h2
  apply leNat_inj (by omega)
  have := congrArg BitVec.toNat h
  simp [le64, List.take_of_length_le (Nat.le_of_eq ha), List.take_of_length_le (Nat.le_of_eq hb)] at this
  omega

end Verif
