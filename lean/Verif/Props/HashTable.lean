import Verif.Lemmas.HashTable5
import Mathlib.Tactic.Ring
import Mathlib.Tactic.Linarith
import Mathlib.Tactic.FieldSimp
import Mathlib.Tactic.Positivity
import Mathlib.Algebra.Order.Field.Rat
import Mathlib.Data.Rat.Cast.Order

/-! Properties C01-C12: the hash table (package hashtable). -/

namespace Verif.Props
open Verif Verif.HashTable Verif.Spec.HashTable

variable {ω κ : Type}

/-! ## C01 -/

/-- For `x ≥ 2`, `NextLog2 x` is the least `n` with `x ≤ 2^n`. -/
theorem C01_nextLog2_least (x : U32) (hx : 2 ≤ x.toNat) :
    x.toNat ≤ 2 ^ (nextLog2 x).toNat ∧ ∀ m, x.toNat ≤ 2 ^ m → (nextLog2 x).toNat ≤ m := by
  obtain ⟨h1, _, h3, h4⟩ := nextLog2_bounds x hx
  refine ⟨h3, fun m hm => ?_⟩
  rcases Nat.lt_or_ge m (nextLog2 x).toNat with h | h
  · have h5 : 2 ^ m ≤ 2 ^ ((nextLog2 x).toNat - 1) := Nat.pow_le_pow_right (by omega) (by omega)
    omega
  · exact h

theorem C01_nextLog2_small : nextLog2 0 = 0 ∧ nextLog2 1 = 1 := by decide

/-- `2^NextLog2(x)` always covers `x`, and the result is at most 32. -/
theorem C01_nextLog2_covers (x : U32) :
    x.toNat ≤ 2 ^ (nextLog2 x).toNat ∧ (nextLog2 x).toNat ≤ 32 := by
  rcases Nat.lt_or_ge x.toNat 2 with h | h
  · have : x = 0 ∨ x = 1 := by
      rcases (by omega : x.toNat = 0 ∨ x.toNat = 1) with h | h
      · left; exact BitVec.eq_of_toNat_eq h
      · right; exact BitVec.eq_of_toNat_eq h
    rcases this with rfl | rfl <;> decide
  · have := nextLog2_bounds x h; exact ⟨this.2.2.1, this.2.1⟩

example : (2 : Nat) ≤ (1000 : U32).toNat ∧ nextLog2 1000 = 10 := by decide

/-! ## C02 -/

theorem ofInt_natCast (w n : Nat) : BitVec.ofInt w (n : Int) = BitVec.ofNat w n := by
  exact BitVec.ofInt_natCast w n

/-- `Size` of a table of non-negative size (no prime): the shift is a shift of 64 bits. -/
theorem tableSize_pow (np : Int → Int) (size extra : Nat) (he : extra < 2 ^ 31) :
    (tableSize np size extra false).1.toNat = 2 ^ ((nextLog2 (BitVec.ofNat 32 size)).toNat + extra) % 2 ^ 64 := by
  have hneg : ¬ ((size : Int) < 0) := by omega
  have hcov := (C01_nextLog2_covers (BitVec.ofNat 32 size)).2
  simp only [tableSize, hneg, if_false, ofInt_natCast, Bool.false_eq_true]
  have hadd : (nextLog2 (BitVec.ofNat 32 size) + BitVec.ofNat 32 extra).toNat =
      (nextLog2 (BitVec.ofNat 32 size)).toNat + extra := by
    rw [BitVec.toNat_add, BitVec.toNat_ofNat, Nat.mod_eq_of_lt (a := extra) (by omega)]
    exact Nat.mod_eq_of_lt (by omega)
  rw [BitVec.shiftLeft_eq', BitVec.toNat_shiftLeft, BitVec.toNat_setWidth, hadd,
    Nat.mod_eq_of_lt (a := _ + extra) (by omega), Nat.shiftLeft_eq]
  simp only [BitVec.toNat_ofNat]
  rw [Nat.mod_eq_of_lt (a := 1) (by omega), Nat.one_mul]

/-- When `NewHashTable` succeeds (no prime, enough memory): with `L = NextLog2(size) + extra`, up to 2^43 buckets of 24 bytes fit the
48-bit address space; for `44 ≤ L < 64` the allocation panics; for a negative size the limit is `2^48/24` buckets. -/
theorem C02_outcome (np : Int → Int) (size extra : Nat) (seed : Int) (pd oa : Bool) (he : extra < 2 ^ 31) :
    (((nextLog2 (BitVec.ofNat 32 size)).toNat + extra ≤ 43 ∨ 64 ≤ (nextLog2 (BitVec.ofNat 32 size)).toNat + extra) →
      ∃ ht : HT κ, newHashTable np size seed extra pd oa false = .ok ht) ∧
    (44 ≤ (nextLog2 (BitVec.ofNat 32 size)).toNat + extra → (nextLog2 (BitVec.ofNat 32 size)).toNat + extra < 64 →
      (newHashTable np size seed extra pd oa false : Go (HT κ)) = .error (.explicit "makeslice: len out of range")) ∧
    (∀ e : Int, 0 < size → size < 2 ^ 63 →
      (size ≤ 2 ^ 48 / 24 → ∃ ht : HT κ, newHashTable np (-(size : Int)) seed e pd oa false = .ok ht) ∧
      (2 ^ 48 / 24 < size → (newHashTable np (-(size : Int)) seed e pd oa false : Go (HT κ)) =
        .error (.explicit "makeslice: len out of range"))) := by
  have hsz := tableSize_pow np size extra he
  refine ⟨fun h => ?_, fun h1 h2 => ?_, fun e h0 h1 => ?_⟩
  · unfold newHashTable
    dsimp only
    rw [if_pos]
    · exact ⟨_, rfl⟩
    · rw [hsz]
      rcases h with h | h
      · have := Nat.pow_le_pow_right (n := 2) (by omega) h
        rw [Nat.mod_eq_of_lt (by omega)]
        omega
      · obtain ⟨k, hk⟩ := Nat.exists_eq_add_of_le h
        rw [hk, Nat.pow_add, Nat.mul_mod_right]
        omega
  · unfold newHashTable
    dsimp only
    rw [if_neg]
    · rfl
    · rw [hsz, Nat.mod_eq_of_lt (Nat.pow_lt_pow_right (by omega) h2)]
      have := Nat.pow_le_pow_right (n := 2) (by omega) h1
      omega
  · have hneg : (-(size : Int) < 0) := by omega
    have hs : (tableSize np (-(size : Int)) e false).1.toNat = size := by
      simp only [tableSize, hneg, if_true, Int.neg_neg, ofInt_natCast, Bool.false_eq_true, if_false,
        BitVec.toNat_ofNat]
      exact Nat.mod_eq_of_lt (by omega)
    unfold newHashTable
    dsimp only
    rw [hs]
    constructor
    · intro h
      rw [if_pos (by omega)]
      exact ⟨_, rfl⟩
    · intro h
      rw [if_neg (by omega)]
      rfl

example : (nextLog2 (BitVec.ofNat 32 1000)).toNat + 33 ≤ 43 ∧ 44 ≤ (nextLog2 (BitVec.ofNat 32 1000)).toNat + 34 := by decide

/-- Geometry of a table of non-negative size (no prime): `L = NextLog2(size) + extra`. -/
theorem C02_geometry (np : Int → Int) (size extra : Nat) (seed : Int) (pd oa : Bool) (ht : HT κ)
    (hs : size < 2 ^ 32)
    (hL : (nextLog2 (BitVec.ofNat 32 size)).toNat + extra < 64)
    (h : newHashTable np size seed extra pd oa false = .ok ht) :
    ht.buckets = List.replicate (2 ^ ((nextLog2 (BitVec.ofNat 32 size)).toNat + extra)) [] ∧
    ht.size.toNat = 2 ^ ((nextLog2 (BitVec.ofNat 32 size)).toNat + extra) ∧
    size ≤ ht.size.toNat ∧
    ∀ x : U64, (x &&& ht.sizeMask).toNat = x.toNat % ht.size.toNat := by
  have hok := newHashTable_ok h
  have hsz := hok.2.2.2.2.2.2.2.2.2.2.2.1
  have hsize : ht.size.toNat = 2 ^ ((nextLog2 (BitVec.ofNat 32 size)).toNat + extra) := by
    rw [hsz]
    have hneg : ¬ ((size : Int) < 0) := by omega
    simp only [tableSize, hneg, if_false, ofInt_natCast, Bool.false_eq_true]
    have hadd : (nextLog2 (BitVec.ofNat 32 size) + BitVec.ofNat 32 extra).toNat =
        (nextLog2 (BitVec.ofNat 32 size)).toNat + extra := by
      rw [BitVec.toNat_add, BitVec.toNat_ofNat, Nat.mod_eq_of_lt (a := extra) (by omega)]
      exact Nat.mod_eq_of_lt (by omega)
    rw [BitVec.shiftLeft_eq', BitVec.toNat_shiftLeft, BitVec.toNat_setWidth, hadd,
      Nat.mod_eq_of_lt (a := _ + extra) (by omega), Nat.shiftLeft_eq]
    simp only [BitVec.toNat_ofNat]
    rw [Nat.mod_eq_of_lt (a := 1) (by omega), Nat.one_mul]
    exact Nat.mod_eq_of_lt (Nat.pow_lt_pow_right (by omega) hL)
  have hpos : 0 < ht.size.toNat := by rw [hsize]; exact Nat.two_pow_pos _
  refine ⟨by rw [hok.1, hsize], hsize, ?_, ?_⟩
  · have hc := (C01_nextLog2_covers (BitVec.ofNat 32 size)).1
    rw [BitVec.toNat_ofNat, Nat.mod_eq_of_lt (a := size) hs] at hc
    rw [hsize, Nat.pow_add]
    exact Nat.le_trans hc (Nat.le_mul_of_pos_right _ (Nat.two_pow_pos _))
  · intro x
    rw [hok.2.1, BitVec.toNat_and, size_sub_one hpos, hsize, Nat.and_two_pow_sub_one_eq_mod]

/-- C02_geometry at work: five elements with `extra = 1` make sixteen buckets. -/
example : ∃ ht : HT (List U8), newHashTable id 5 0 1 false false false = .ok ht ∧ ht.buckets = List.replicate 16 [] :=
  ⟨_, rfl, (C02_geometry id 5 1 0 false false _ (by decide) (by decide) rfl).1⟩

/-- The finding at the excluded point: when `NextLog2(size) + extra` reaches 64 the shift gives a
table without any bucket. -/
theorem C02_too_large (np : Int → Int) (size extra : Nat) (seed : Int) (pd oa : Bool) (ht : HT κ)
    (hL : 64 ≤ (nextLog2 (BitVec.ofNat 32 size)).toNat + extra) (he : extra < 2 ^ 31)
    (h : newHashTable np size seed extra pd oa false = .ok ht) : ht.buckets = [] := by
  have hok := newHashTable_ok h
  have hsz := hok.2.2.2.2.2.2.2.2.2.2.2.1
  have hneg : ¬ ((size : Int) < 0) := by omega
  have hcov := (C01_nextLog2_covers (BitVec.ofNat 32 size)).2
  have : ht.size.toNat = 0 := by
    rw [hsz]
    simp only [tableSize, hneg, if_false, ofInt_natCast, Bool.false_eq_true]
    have hadd : (nextLog2 (BitVec.ofNat 32 size) + BitVec.ofNat 32 extra).toNat =
        (nextLog2 (BitVec.ofNat 32 size)).toNat + extra := by
      rw [BitVec.toNat_add, BitVec.toNat_ofNat, Nat.mod_eq_of_lt (a := extra) (by omega)]
      exact Nat.mod_eq_of_lt (by omega)
    rw [BitVec.shiftLeft_eq', BitVec.toNat_shiftLeft, BitVec.toNat_setWidth, hadd,
      Nat.mod_eq_of_lt (a := _ + extra) (by omega), Nat.shiftLeft_eq]
    simp only [BitVec.toNat_ofNat]
    rw [Nat.mod_eq_of_lt (a := 1) (by omega), Nat.one_mul]
    obtain ⟨k, hk⟩ := Nat.exists_eq_add_of_le hL
    rw [hk, Nat.pow_add]
    exact Nat.mul_mod_right _ _
  rw [hok.1, this]; rfl

/-- C02_too_large at work: five elements with `extra = 61` make the shift count 64. -/
example : ∃ ht : HT (List U8), newHashTable id 5 0 61 false false false = .ok ht ∧ ht.buckets = [] :=
  ⟨_, rfl, C02_too_large id 5 61 0 false false _ (by decide) (by decide) rfl⟩

/-- A negative size asks for exactly `-size` buckets. -/
theorem C02_negative (np : Int → Int) (size : Nat) (hs : 0 < size) (hs' : size < 2 ^ 64)
    (seed extra : Int) (pd oa : Bool) (ht : HT κ)
    (h : newHashTable np (-(size : Int)) seed extra pd oa false = .ok ht) :
    ht.buckets = List.replicate size [] := by
  have hok := newHashTable_ok h
  have hsz := hok.2.2.2.2.2.2.2.2.2.2.2.1
  have hneg : (-(size : Int) < 0) := by omega
  have : ht.size.toNat = size := by
    rw [hsz]
    simp only [tableSize, hneg, if_true, Int.neg_neg, ofInt_natCast, Bool.false_eq_true, if_false,
      BitVec.toNat_ofNat]
    exact Nat.mod_eq_of_lt hs'
  rw [hok.1, this]

/-- C02_negative at work: `-6` gives six buckets. -/
example : ∃ ht : HT (List U8), newHashTable id (-6) 0 0 false false false = .ok ht ∧ ht.buckets = List.replicate 6 [] :=
  ⟨_, rfl, C02_negative id 6 (by decide) (by decide) 0 0 false false _ rfl⟩

/-- A size of 2^32 or more is silently truncated modulo 2^32. -/
theorem C02_truncation (np : Int → Int) (size : Nat) (seed extra : Int) (pd oa prime : Bool) :
    (newHashTable np size seed extra pd oa prime : Go (HT κ)).map (fun ht => { ht with lines := 0 }) =
    (newHashTable np ((size % 2 ^ 32 : Nat) : Int) seed extra pd oa prime : Go (HT κ)).map
      (fun ht => { ht with lines := 0 }) := by
  have h1 : ¬ ((size : Int) < 0) := by omega
  have h2 : ¬ (((size % 2 ^ 32 : Nat) : Int) < 0) := by omega
  have h3 : BitVec.ofInt 32 ((size % 2 ^ 32 : Nat) : Int) = BitVec.ofInt 32 (size : Int) := by
    rw [ofInt_natCast, ofInt_natCast]
    apply BitVec.eq_of_toNat_eq
    simp
  have ht : tableSize np (size : Int) extra prime =
      tableSize np ((size % 2 ^ 32 : Nat) : Int) extra prime := by
    simp only [tableSize, h1, h2, if_false, h3]
  unfold newHashTable
  rw [ht]
  dsimp only
  split <;> rfl

/-- What a new table says about itself: no counter has been touched, the parameters are the arguments, and `SizeLog2` is the
logarithm the size was computed from (0 for a negative size). -/
theorem C02_fields (np : Int → Int) (size seed extra : Int) (pd oa prime : Bool) (ht : HT κ)
    (h : newHashTable np size seed extra pd oa prime = .ok ht) :
    (ht.inserts = 0 ∧ ht.cols = 0 ∧ ht.probes = 0 ∧ ht.heads = 0 ∧ ht.dups = 0 ∧ ht.nbuckets = 0 ∧ ht.longestChain = 0) ∧
    (ht.lines = size ∧ ht.seed = BitVec.ofInt 64 seed ∧ ht.extra = extra ∧ ht.pd = pd ∧ ht.oa = oa ∧ ht.prime = prime) ∧
    (ht.buckets.length = ht.size.toNat ∧ ∀ b ∈ ht.buckets, b = []) ∧
    (size < 0 → ht.sizeLog2 = 0) ∧
    (0 ≤ size → 0 ≤ extra → (nextLog2 (BitVec.ofInt 32 size)).toNat + extra.toNat < 2 ^ 32 →
      ht.sizeLog2.toNat = (nextLog2 (BitVec.ofInt 32 size)).toNat + extra.toNat) := by
  unfold newHashTable at h
  dsimp only at h
  split at h
  · cases Except.ok.inj h
    refine ⟨⟨rfl, rfl, rfl, rfl, rfl, rfl, rfl⟩, ⟨rfl, rfl, rfl, rfl, rfl, rfl⟩, ⟨List.length_replicate, fun b hb => (List.mem_replicate.1 hb).2⟩, fun hs => ?_, fun h0 he hl => ?_⟩
    · show (tableSize np size extra prime).2 = 0
      simp only [tableSize, hs, if_true]
    · show (tableSize np size extra prime).2.toNat = _
      have hneg : ¬ size < 0 := by omega
      obtain ⟨e, rfl⟩ := Int.eq_ofNat_of_zero_le he
      simp only [tableSize, hneg, if_false]
      rw [Int.toNat_natCast] at hl
      rw [BitVec.toNat_setWidth, BitVec.toNat_add, ofInt_natCast, BitVec.toNat_ofNat, Int.toNat_natCast,
        Nat.mod_eq_of_lt (a := e) (by omega), Nat.mod_eq_of_lt (a := _ + e) hl]
      exact Nat.mod_eq_of_lt (by omega)
  · exact nomatch h

/-- With the prime option the table has `primes.NextPrime(Size)` buckets, `Size` being what it would be without the option. -/
theorem C02_prime (np : Int → Int) (size seed extra : Int) (pd oa : Bool) (ht ht' : HT κ)
    (h : newHashTable np size seed extra pd oa false = .ok ht) (h' : newHashTable np size seed extra pd oa true = .ok ht') :
    ht'.size = BitVec.ofInt 64 (np ht.size.toInt) ∧ ht'.buckets.length = ht'.size.toNat ∧ ht'.sizeLog2 = ht.sizeLog2 := by
  unfold newHashTable at h h'
  dsimp only at h h'
  split at h
  · split at h'
    · cases Except.ok.inj h
      cases Except.ok.inj h'
      exact ⟨rfl, List.length_replicate, rfl⟩
    · exact nomatch h'
  · exact nomatch h

example : ∃ ht ht' : HT (List U8), newHashTable (fun _ => 17) 5 7 1 false false false = .ok ht ∧ newHashTable (fun _ => 17) 5 7 1 false false true = .ok ht' ∧
    ht.sizeLog2 = 4 ∧ ht'.buckets.length = 17 :=
  ⟨_, _, rfl, rfl, by decide, by decide⟩

example : ∃ ht : HT (List U8), newHashTable id 5 7 1 false false false = .ok ht ∧
    ht.size.toNat = 16 ∧ ht.sizeMask = 15 :=
  ⟨_, rfl, by decide, by decide⟩

/-! ## C03, C08 -/

/-- A table obtained from `NewHashTable` with at least one bucket by a history `ks` of inserts. -/
def Reachable (e : Env ω κ) (oa prime : Bool) (ks : List κ) (w : ω) (ht : HT κ) : Prop :=
  ∃ (np : Int → Int) (size seed extra : Int) (pd : Bool) (ht0 : HT κ) (w0 : ω),
    newHashTable np size seed extra pd oa prime = .ok ht0 ∧ 0 < ht0.buckets.length ∧
    insertAll e w0 ht0 ks = .ok (w, ht)

theorem insertAll_same {e : Env ω κ} (hk : ∀ k, e.traceOK k = true) (ks : List κ) :
    ∀ (w : ω) (ht : HT κ), WF ht → ∀ r, insertAll e w ht ks = r →
      (∃ w' ht', r = .ok (w', ht') ∧ Same ht ht') ∨
      (ht.oa = true ∧ r = .error (.explicit "Add: pass")) := by
  induction ks with
  | nil => intro w ht wf r h; left; exact ⟨w, ht, h.symm, wf, rfl, rfl, rfl, rfl⟩
  | cons k ks ih =>
    intro w ht wf r h
    rcases insert_cases (w := w) wf (hk k) with ⟨hoa, _, hf⟩ | ⟨_, w1, ht1, h1, hs⟩
    · right
      refine ⟨hoa, ?_⟩
      rw [← h, insertAll, hf]; rfl
    · rw [insertAll, h1] at h
      rcases ih w1 ht1 hs.wf r h with ⟨w2, ht2, h2, hs2⟩ | ⟨hoa, h2⟩
      · left
        exact ⟨w2, ht2, h2, hs2.wf, hs2.oa.trans hs.oa, hs2.prime.trans hs.prime,
          hs2.size.trans hs.size, hs2.seed.trans hs.seed⟩
      · right; exact ⟨hs.oa ▸ hoa, h2⟩

/-- With tracing off, for every hash function (even a stateful one) and every history, inserting
never indexes out of range, divides by zero or loops forever: the only possible failure is the
explicit "Add: pass" panic of open addressing. In chaining mode there is no failure at all. -/
theorem C03_no_index_fault (e : Env ω κ) (hk : ∀ k, e.traceOK k = true) (np : Int → Int)
    (size seed extra : Int) (pd oa prime : Bool) (ht0 : HT κ) (w0 : ω) (ks : List κ)
    (hnew : newHashTable np size seed extra pd oa prime = .ok ht0)
    (hpos : 0 < ht0.buckets.length) :
    (∃ w ht, insertAll e w0 ht0 ks = .ok (w, ht)) ∨
    (oa = true ∧ insertAll e w0 ht0 ks = .error (.explicit "Add: pass")) := by
  have wf := newHashTable_wf hnew hpos
  rcases insertAll_same hk ks w0 ht0 wf _ rfl with ⟨w, ht, h, _⟩ | ⟨h1, h2⟩
  · exact .inl ⟨w, ht, h⟩
  · exact .inr ⟨by rw [← (newHashTable_ok hnew).2.2.1]; exact h1, h2⟩

/-- With tracing on the key is formatted through `btoi`, and a key shorter than four bytes makes
`Insert` die with an index error (here: into an empty table). -/
theorem C03_trace_short_key :
    ∃ ht0 : HT (List U8), newHashTable id 4 0 0 false false false = .ok ht0 ∧
      insert { hash := fun (_ : Unit) _ _ => (0, ()), traceOK := fun k => decide (4 ≤ k.length) }
        () ht0 [1] = .error .index :=
  ⟨_, rfl, by decide⟩

/-- Open addressing: on every reachable table `Insert` terminates, and it panics (with
"Add: pass") exactly when no slot is free. -/
theorem C08_panics_iff_full (e : Env ω κ) (hk : ∀ k, e.traceOK k = true) (prime : Bool)
    (ks : List κ) (w : ω) (ht : HT κ) (hr : Reachable e true prime ks w ht) (k : κ) :
    (insert e w ht k = .error (.explicit "Add: pass") ↔ ∀ b ∈ ht.buckets, b ≠ []) ∧
    ((∃ b ∈ ht.buckets, b = []) → ∃ w' ht', insert e w ht k = .ok (w', ht')) := by
  obtain ⟨np, size, seed, extra, pd, ht0, w0, hnew, hpos, hall⟩ := hr
  have wf0 := newHashTable_wf hnew hpos
  have hoa0 := (newHashTable_ok hnew).2.2.1
  rcases insertAll_same hk ks w0 ht0 wf0 _ hall with ⟨w1, ht1, h1, hs⟩ | ⟨_, h1⟩
  · cases h1
    rcases insert_cases (w := w) hs.wf (hk k) with ⟨_, hne, hf⟩ | ⟨hfree, w', ht', hi, _⟩
    · refine ⟨⟨fun _ => hne, fun _ => hf⟩, ?_⟩
      rintro ⟨b, hb, rfl⟩
      exact absurd rfl (hne _ hb)
    · refine ⟨⟨?_, ?_⟩, fun _ => ⟨w', ht', hi⟩⟩
      · intro h; rw [hi] at h; cases h
      · intro hne
        rcases hfree with h | ⟨b, hb, rfl⟩
        · rw [hs.oa, hoa0] at h; cases h
        · exact absurd rfl (hne _ hb)
  · cases h1

/-- A concrete reachable full table: two keys in a table of two slots. -/
def exH : List U8 → U64 → U64 := fun k s => BitVec.ofNat 64 (leNat k) + s
example : ∃ ht : HT (List U8),
    Reachable (pureEnv exH (fun _ => true)) true false [[1], [3]] () ht ∧
    (∀ b ∈ ht.buckets, b ≠ []) := by
  refine ⟨_, ⟨id, 2, 0, 0, false, _, (), rfl, by decide, rfl⟩, by decide⟩

/-! ## C04, C05, C06: chaining -/

theorem chain_main (H : κ → U64 → U64) (tr : κ → Bool) (np : Int → Int)
    (size seed extra : Int) (pd prime : Bool) (ht0 : HT κ) (ks : List κ)
    (hk : ∀ k ∈ ks, tr k = true)
    (hnew : newHashTable np size seed extra pd false prime = .ok ht0)
    (hpos : 0 < ht0.buckets.length) :
    ∃ ht, insertAll (pureEnv H tr) () ht0 ks = .ok ((), ht) ∧
      ChainData H prime ht0.size ht0.seed ks ht := by
  have wf := newHashTable_wf hnew hpos
  have hok := newHashTable_ok hnew
  have h0 : ChainData H prime ht0.size ht0.seed [] ht0 := by
    refine ⟨wf, hok.2.2.1, hok.2.2.2.1, rfl, rfl, ?_, ?_⟩
    · intro i hi
      rw [hok.1, List.getElem?_replicate]; simp [hi]
    · simp [eqPairs, hok.2.2.2.2.2.2.2.2.1]
  obtain ⟨w, ht, h1, h2⟩ := insertAll_ind (e := pureEnv H tr) ks.length
    (fun done _ ht => ChainData H prime ht0.size ht0.seed done ht)
    (fun done w ht k h _ htr => ⟨_, _, insert_chain h.wf h.oa htr, chainData_step h⟩)
    ks [] () ht0 h0 (by simp) hk
  exact ⟨ht, h1, by simpa using h2⟩

/-- Chaining: every insert succeeds, and bucket `i` holds exactly the inserted keys whose hash
selects `i`, in insertion order and with multiplicity. -/
theorem C04_chain_contents (H : κ → U64 → U64) (np : Int → Int)
    (size seed extra : Int) (pd prime : Bool) (ht0 : HT κ) (ks : List κ)
    (hnew : newHashTable np size seed extra pd false prime = .ok ht0)
    (hpos : 0 < ht0.buckets.length) :
    ∃ ht, insertAll (pureEnv H (fun _ => true)) () ht0 ks = .ok ((), ht) ∧
      ht.buckets = (List.range ht0.buckets.length).map fun i =>
        ks.filter fun k => homeOf prime ht0.buckets.length (H k ht0.seed) = i := by
  obtain ⟨ht, h1, h2⟩ := chain_main H (fun _ => true) np size seed extra pd prime ht0 ks
    (fun _ _ => rfl) hnew hpos
  refine ⟨ht, h1, ?_⟩
  have hl0 : ht0.buckets.length = ht0.size.toNat := (newHashTable_wf hnew hpos).len
  have hl : ht.buckets.length = ht0.size.toNat := by rw [h2.wf.len, h2.hsize]
  rw [hl0]
  apply List.ext_getElem?
  intro i
  by_cases hi : i < ht0.size.toNat
  · rw [h2.data i hi, List.getElem?_map, List.getElem?_range hi]; rfl
  · rw [List.getElem?_eq_none (by omega), List.getElem?_eq_none (by simp; omega)]

/-- C04_chain_contents at work: three keys, two of them of bucket 1, in a table of four buckets. -/
example : ∃ ht0 ht : HT (List U8), newHashTable id 3 0 0 false false false = .ok ht0 ∧
    insertAll (pureEnv (fun k s => BitVec.ofNat 64 (leNat k) + s) (fun _ => true)) () ht0 [[1], [5], [2]] = .ok ((), ht) ∧
    ht.buckets = [[], [[1], [5]], [[2]], []] :=
  have ⟨ht, h1, h2⟩ := C04_chain_contents (fun k s => BitVec.ofNat 64 (leNat k) + s) id 3 0 0 false false _ [[1], [5], [2]] rfl (by decide)
  ⟨_, ht, rfl, h1, h2.trans (by decide)⟩

/-- Chaining statistics, for any hash function (even a stateful one). -/
theorem C05_chain_stats (e : Env ω κ) (hk : ∀ k, e.traceOK k = true) (np : Int → Int)
    (size seed extra : Int) (pd prime : Bool) (ht0 : HT κ) (w0 : ω) (ks : List κ)
    (hnew : newHashTable np size seed extra pd false prime = .ok ht0)
    (hpos : 0 < ht0.buckets.length) :
    ∃ w ht, insertAll e w0 ht0 ks = .ok (w, ht) ∧
      ht.inserts = ks.length ∧ ht.probes = ks.length ∧ ht.cols = 0 ∧
      ht.heads = occupied ht.buckets ∧ ht.nbuckets = ks.length - ht.heads ∧
      ht.longestChain = if longest ht.buckets ≤ 1 then 0 else longest ht.buckets := by
  have wf := newHashTable_wf hnew hpos
  have hok := newHashTable_ok hnew
  have h0 : ChainStats [] ht0 := by
    obtain ⟨h1, h2, h3, h4, h5, h6, h7, h8, h9, h10, h11, _, _⟩ := hok
    refine ⟨wf, h3, by simp [h5], by simp [h7], h6, ?_, by simp [h8, h10], ?_⟩
    · rw [h8, h1, occupied_replicate]
    · rw [h11, h1, longest_replicate]; rfl
  obtain ⟨w, ht, h1, h2⟩ := insertAll_ind (e := e) ks.length
    (fun done _ ht => ChainStats done ht)
    (fun done w ht k h _ htr => ⟨_, _, insert_chain h.wf h.oa htr, chainStats_step h⟩)
    ks [] w0 ht0 h0 (by simp) (fun k _ => hk k)
  simp only [List.nil_append] at h2
  have := h2.nb
  exact ⟨w, ht, h1, h2.inserts, h2.probes, h2.cols, h2.heads, by omega, h2.long⟩

/-- C05_chain_stats at work on the same table: three inserts, two heads, a chain of two. -/
example : ∃ ht0 ht : HT (List U8), newHashTable id 3 0 0 false false false = .ok ht0 ∧
    insertAll (pureEnv (fun k s => BitVec.ofNat 64 (leNat k) + s) (fun _ => true)) () ht0 [[1], [5], [2]] = .ok ((), ht) ∧
    ht.inserts = 3 ∧ ht.probes = 3 :=
  have ⟨_, ht, h1, h2, h3, _⟩ := C05_chain_stats (pureEnv (fun k s => BitVec.ofNat 64 (leNat k) + s) (fun _ => true)) (fun _ => rfl) id 3 0 0 false false _ () [[1], [5], [2]] rfl (by decide)
  ⟨_, ht, rfl, h1, h2, h3⟩

/-- Chaining: `Dups` is the number of pairs of inserted keys with equal 64-bit hashes. -/
theorem C06_chain_dups (H : κ → U64 → U64) (np : Int → Int)
    (size seed extra : Int) (pd prime : Bool) (ht0 : HT κ) (ks : List κ)
    (hnew : newHashTable np size seed extra pd false prime = .ok ht0)
    (hpos : 0 < ht0.buckets.length) :
    ∃ ht, insertAll (pureEnv H (fun _ => true)) () ht0 ks = .ok ((), ht) ∧
      ht.dups = eqPairs (ks.map fun k => H k ht0.seed) := by
  obtain ⟨ht, h1, h2⟩ := chain_main H (fun _ => true) np size seed extra pd prime ht0 ks
    (fun _ _ => rfl) hnew hpos
  exact ⟨ht, h1, h2.dups⟩

/-- C06_chain_dups at work: `[1]` and `[1, 0]` have the same hash, and are the one pair counted. -/
example : ∃ ht0 ht : HT (List U8), newHashTable id 3 0 0 false false false = .ok ht0 ∧
    insertAll (pureEnv (fun k s => BitVec.ofNat 64 (leNat k) + s) (fun _ => true)) () ht0 [[1], [5], [2], [1, 0]] = .ok ((), ht) ∧ ht.dups = 1 :=
  have ⟨ht, h1, h2⟩ := C06_chain_dups (fun k s => BitVec.ofNat 64 (leNat k) + s) id 3 0 0 false false _ [[1], [5], [2], [1, 0]] rfl (by decide)
  ⟨_, ht, rfl, h1, h2.trans (by decide)⟩

/-! ## C06, C07, C09: open addressing -/

theorem oa_main (H : κ → U64 → U64) (tr : κ → Bool) (np : Int → Int)
    (size seed extra : Int) (pd prime : Bool) (ht0 : HT κ) (ks : List κ)
    (hk : ∀ k ∈ ks, tr k = true)
    (hnew : newHashTable np size seed extra pd true prime = .ok ht0)
    (hroom : ks.length ≤ ht0.buckets.length) (hpos : 0 < ht0.buckets.length) :
    ∃ ht, insertAll (pureEnv H tr) () ht0 ks = .ok ((), ht) ∧
      OAInv H prime ht0.size ht0.seed ks ht := by
  have wf := newHashTable_wf hnew hpos
  have hok := newHashTable_ok hnew
  have hlen := wf.len
  obtain ⟨h1, h2, h3, h4, h5, h6, h7, h8, h9, h10, h11, _, _⟩ := hok
  have h0 : OAInv H prime ht0.size ht0.seed [] ht0 := by
    refine ⟨wf, h3, h4, rfl, rfl, ?_, ?_, ?_, by simp [h5], by simp [h8], ?_, ?_, by simp [eqPairs, h9],
      h10, h11⟩
    · intro b hb; rw [h1] at hb; rw [List.eq_of_mem_replicate hb]; simp
    · rw [h1]; simp
    · intro i k hik
      rw [h1, List.getElem?_replicate] at hik
      split at hik <;> simp at hik
    · rw [h7, h1, sumSlots_replicate]; rfl
    · rw [h6, h1, sumSlots_replicate, sumSlots_replicate]
  obtain ⟨w, ht, h1, h2⟩ := insertAll_ind (e := pureEnv H tr) ht0.size.toNat
    (fun done _ ht => OAInv H prime ht0.size ht0.seed done ht)
    (fun done w ht k h hlt htr => by
      obtain ⟨ht', ha, hb⟩ := oa_step h hlt htr
      exact ⟨(), ht', ha, hb⟩)
    ks [] () ht0 h0 (by simpa [hlen] using hroom) hk
  exact ⟨ht, h1, by simpa using h2⟩

/-- Open addressing: `n ≤ Size` inserts all succeed; each slot holds at most one key; the stored
keys are the inserted ones as a multiset; and every stored key is found by scanning circularly
from its home slot without meeting an empty slot. -/
theorem C07_oa_contents (H : κ → U64 → U64) (np : Int → Int)
    (size seed extra : Int) (pd prime : Bool) (ht0 : HT κ) (ks : List κ)
    (hnew : newHashTable np size seed extra pd true prime = .ok ht0)
    (hpos : 0 < ht0.buckets.length) (hroom : ks.length ≤ ht0.buckets.length) :
    ∃ ht, insertAll (pureEnv H (fun _ => true)) () ht0 ks = .ok ((), ht) ∧
      (∀ b ∈ ht.buckets, b.length ≤ 1) ∧
      ht.buckets.flatten.Perm ks ∧
      ∀ i k, ht.buckets[i]? = some [k] →
        ∀ d, d < dist ht0.buckets.length (homeOf prime ht0.buckets.length (H k ht0.seed)) i →
          ht.buckets[(homeOf prime ht0.buckets.length (H k ht0.seed) + d) % ht0.buckets.length]?
            ≠ some [] := by
  obtain ⟨ht, h1, h2⟩ := oa_main H (fun _ => true) np size seed extra pd prime ht0 ks
    (fun _ _ => rfl) hnew hroom hpos
  rw [(newHashTable_wf hnew hpos).len]
  exact ⟨ht, h1, h2.len1, h2.perm, h2.probe⟩

/-- Open addressing statistics: `Probes - Inserts` counts the keys that are not in their home slot,
`Cols + (Probes - Inserts)` is the total distance of keys from their home slots. -/
theorem C09_oa_stats (H : κ → U64 → U64) (np : Int → Int)
    (size seed extra : Int) (pd prime : Bool) (ht0 : HT κ) (ks : List κ)
    (hnew : newHashTable np size seed extra pd true prime = .ok ht0)
    (hpos : 0 < ht0.buckets.length) (hroom : ks.length ≤ ht0.buckets.length) :
    ∃ ht, insertAll (pureEnv H (fun _ => true)) () ht0 ks = .ok ((), ht) ∧
      ht.inserts = ks.length ∧ ht.heads = ks.length ∧ occupied ht.buckets = ks.length ∧
      ht.probes - ht.inserts = sumSlots
        (fun i k => if homeOf prime ht0.buckets.length (H k ht0.seed) = i then 0 else 1) ht.buckets ∧
      ht.cols + (ht.probes - ht.inserts) = sumSlots
        (fun i k => dist ht0.buckets.length (homeOf prime ht0.buckets.length (H k ht0.seed)) i)
        ht.buckets ∧
      ht.inserts ≤ ht.probes ∧ ht.nbuckets = 0 ∧ ht.longestChain = 0 := by
  obtain ⟨ht, h1, h2⟩ := oa_main H (fun _ => true) np size seed extra pd prime ht0 ks
    (fun _ _ => rfl) hnew hroom hpos
  rw [(newHashTable_wf hnew hpos).len]
  have hp := h2.probes
  have hc := h2.cols
  have hi := h2.inserts
  refine ⟨ht, h1, hi, h2.heads, ?_, by omega, by omega, by omega, h2.nbl.1, h2.nbl.2⟩
  rw [← flatten_length_le h2.len1, h2.perm.length_eq]

/-- Open addressing: `Dups` is the number of pairs of inserted keys with equal 64-bit hashes. -/
theorem C06_oa_dups (H : κ → U64 → U64) (np : Int → Int)
    (size seed extra : Int) (pd prime : Bool) (ht0 : HT κ) (ks : List κ)
    (hnew : newHashTable np size seed extra pd true prime = .ok ht0)
    (hpos : 0 < ht0.buckets.length) (hroom : ks.length ≤ ht0.buckets.length) :
    ∃ ht, insertAll (pureEnv H (fun _ => true)) () ht0 ks = .ok ((), ht) ∧
      ht.dups = eqPairs (ks.map fun k => H k ht0.seed) := by
  obtain ⟨ht, h1, h2⟩ := oa_main H (fun _ => true) np size seed extra pd prime ht0 ks
    (fun _ _ => rfl) hnew hroom hpos
  exact ⟨ht, h1, h2.dups⟩

/-- Concrete case: three keys, two with equal hash, in an open-addressing table of four slots. -/
example : ∃ ht0 ht : HT (List U8), newHashTable id 3 0 0 false true false = .ok ht0 ∧
    0 < ht0.buckets.length ∧ ([[1], [5], [1, 0]] : List (List U8)).length ≤ ht0.buckets.length ∧
    insertAll (pureEnv exH (fun _ => true)) () ht0 [[1], [5], [1, 0]] = .ok ((), ht) ∧
    ht.buckets = [[], [[1]], [[5]], [[1, 0]]] ∧ ht.dups = 1 ∧ ht.cols = 1 ∧ ht.probes = 5 :=
  ⟨_, _, rfl, by decide, by decide, rfl, by decide, by decide, by decide, by decide⟩

/-- Concrete case for chaining: bucket 1 holds a chain of three. -/
example : ∃ ht0 ht : HT (List U8), newHashTable id 3 0 0 false false false = .ok ht0 ∧
    0 < ht0.buckets.length ∧
    insertAll (pureEnv exH (fun _ => true)) () ht0 [[1], [5], [2], [1, 0]] = .ok ((), ht) ∧
    ht.buckets = [[], [[1], [5], [1, 0]], [[2]], []] ∧ ht.dups = 1 ∧ ht.longestChain = 3 :=
  ⟨_, _, rfl, by decide, rfl, by decide, by decide, by decide⟩

/-! ## C10 -/

/-- `Insert` keeps its own copy: for any interleaving of buffer allocations, overwrites of the
caller's buffers and inserts of pieces of those buffers, the table (with the keys it stores read
back from memory, and all its statistics) is what inserting the bytes passed at the time of each
call gives. Later overwrites have no effect. -/
theorem C10_insert_copies (H : List U8 → U64 → U64) (np : Int → Int) (size seed extra : Int)
    (pd oa prime : Bool) (ht0 : HT Slice) (ht0v : HT (List U8)) (es : List Event) (w' : World)
    (hnew : newHashTable np size seed extra pd oa prime = .ok ht0)
    (hnewv : newHashTable np size seed extra pd oa prime = .ok ht0v)
    (hrun : World.run H ⟨[], [], ht0⟩ es = .ok w') :
    insertAll (pureEnv H (fun _ => true)) () ht0v (keysInserted [] es) =
      .ok ((), w'.ht.map w'.heap.read) := by
  have h0 : ht0v = ht0.map (Heap.read []) := by
    simp only [newHashTable] at hnew hnewv
    split at hnew
    · rename_i hsz
      rw [if_pos hsz] at hnewv
      simp only [Except.ok.injEq] at hnew hnewv
      subst hnew; subst hnewv
      simp [HT.map]
    · cases hnew
  have hinv : HeapInv ⟨[], [], ht0⟩ := by
    refine ⟨?_, by simp, by simp⟩
    intro b hb s hs
    rw [(newHashTable_ok hnew).1] at hb
    rw [List.eq_of_mem_replicate hb] at hs
    simp at hs
  have := (run_refines H es _ _ hinv hrun).1
  rw [h0]
  exact this

/-- A caller that stays within its buffers: the run succeeds exactly when inserting the bytes passed succeeds and otherwise fails
the same way, whatever the caller does to its buffers; with chaining and at least one bucket it always succeeds. -/
theorem C10_same_outcome (H : List U8 → U64 → U64) (np : Int → Int) (size seed extra : Int)
    (pd oa prime : Bool) (ht0 : HT Slice) (ht0v : HT (List U8)) (es : List Event)
    (hnew : newHashTable np size seed extra pd oa prime = .ok ht0)
    (hnewv : newHashTable np size seed extra pd oa prime = .ok ht0v) (hlegal : Legal [] es) :
    ((∃ w', World.run H ⟨[], [], ht0⟩ es = .ok w') ↔
      ∃ ht, insertAll (pureEnv H (fun _ => true)) () ht0v (keysInserted [] es) = .ok ((), ht)) ∧
    (∀ f, World.run H ⟨[], [], ht0⟩ es = .error f ↔
      insertAll (pureEnv H (fun _ => true)) () ht0v (keysInserted [] es) = .error f) ∧
    (oa = false → 0 < ht0.buckets.length → ∃ w', World.run H ⟨[], [], ht0⟩ es = .ok w') := by
  have h0 : ht0v = ht0.map (Heap.read []) := by
    simp only [newHashTable] at hnew hnewv
    split at hnew
    · rename_i hsz
      rw [if_pos hsz] at hnewv
      simp only [Except.ok.injEq] at hnew hnewv
      subst hnew; subst hnewv
      simp [HT.map]
    · cases hnew
  have hinv : HeapInv ⟨[], [], ht0⟩ := by
    refine ⟨?_, by simp, by simp⟩
    intro b hb s hs
    rw [(newHashTable_ok hnew).1] at hb
    rw [List.eq_of_mem_replicate hb] at hs
    simp at hs
  obtain ⟨hp1, hp2⟩ := run_progress H es ⟨[], [], ht0⟩ hinv hlegal
  have hb : (⟨[], [], ht0⟩ : World).buffers = [] := rfl
  rw [hb] at hp1 hp2
  dsimp only at hp1 hp2
  rw [← h0] at hp1 hp2
  refine ⟨⟨fun ⟨w', h⟩ => ⟨_, C10_insert_copies H np size seed extra pd oa prime ht0 ht0v es w' hnew hnewv h⟩,
    fun ⟨ht, h⟩ => hp2 _ h⟩, fun f => ⟨fun h => ?_, hp1 f⟩, fun hoa hpos => ?_⟩
  · cases hr : insertAll (pureEnv H (fun _ => true)) () ht0v (keysInserted [] es) with
    | error g => rw [hp1 g hr] at h; cases h; rfl
    | ok r => obtain ⟨w', h'⟩ := hp2 _ hr; rw [h'] at h; exact nomatch h
  · have hposv : 0 < ht0v.buckets.length := by rw [h0]; simpa [HT.map] using hpos
    rcases C03_no_index_fault (pureEnv H (fun _ => true)) (fun _ => rfl) np size seed extra pd oa prime ht0v () (keysInserted [] es)
      hnewv hposv with ⟨w, ht, h⟩ | ⟨h, _⟩
    · exact hp2 _ h
    · rw [hoa] at h; exact nomatch h

example : Legal [] [.alloc [1, 2], .insert 0 0 2, .write 0 0 9, .insert 0 0 2] :=
  ⟨⟨_, rfl, by decide⟩, ⟨_, rfl, by decide⟩, ⟨_, rfl, by decide⟩, trivial⟩

/-- Concrete case: one buffer reused for two keys; both keys survive. -/
example : ∃ (ht0 : HT Slice) (w' : World), newHashTable id 3 0 0 false false false = .ok ht0 ∧
    World.run exH ⟨[], [], ht0⟩ [.alloc [1, 2], .insert 0 0 2, .write 0 0 9, .insert 0 0 2] = .ok w' ∧
    (w'.ht.map w'.heap.read).buckets = [[], [[1, 2], [9, 2]], [], []] :=
  ⟨_, _, rfl, rfl, by decide⟩

/-! ## C11 -/

theorem quality_fold (bs : List (List κ)) (a : Rat) :
    bs.foldl (fun (n : Rat) v => if v.isEmpty then n
      else n + (v.length : Rat) * ((v.length : Rat) + 1)) a =
    a + ((bs.map fun b => b.length * (b.length + 1)).sum : Nat) := by
  induction bs generalizing a with
  | nil => simp
  | cons b bs ih =>
    rw [List.foldl_cons, ih, List.map_cons, List.sum_cons]
    cases b with
    | nil => simp
    | cons x xs => simp only [List.isEmpty_cons, Bool.false_eq_true, if_false]; push_cast; ring

/-- Chaining: `HashQuality` is `Size * Σ c_i (c_i+1) / (n (n + 2 Size - 1))`, where `c_i` is the number
of inserted keys selecting bucket `i` (exact rational arithmetic; with float64 rounding in C105). -/
theorem C11_quality_chain (H : κ → U64 → U64) (np : Int → Int)
    (size seed extra : Int) (pd prime : Bool) (ht0 : HT κ) (ks : List κ)
    (hnew : newHashTable np size seed extra pd false prime = .ok ht0)
    (hpos : 0 < ht0.buckets.length) (hks : ks ≠ []) :
    ∃ ht, insertAll (pureEnv H (fun _ => true)) () ht0 ks = .ok ((), ht) ∧
      hashQuality ht =
        (ht0.buckets.length : Rat) *
          (((List.range ht0.buckets.length).map fun i =>
            (ks.countP fun k => homeOf prime ht0.buckets.length (H k ht0.seed) = i) *
            ((ks.countP fun k => homeOf prime ht0.buckets.length (H k ht0.seed) = i) + 1)).sum : Nat) /
        ((ks.length : Rat) * (ks.length + 2 * ht0.buckets.length - 1)) := by
  obtain ⟨ht, h1, h2⟩ := C04_chain_contents H np size seed extra pd prime ht0 ks hnew hpos
  obtain ⟨_, ht', h1', h3, _⟩ := C05_chain_stats (pureEnv H (fun _ => true)) (fun _ => rfl)
    np size seed extra pd prime ht0 () ks hnew hpos
  rw [h1] at h1'
  cases h1'
  have hsz : ht.size.toNat = ht0.buckets.length := by
    rcases insertAll_same (e := pureEnv H (fun _ => true)) (fun _ => rfl) ks () ht0
      (newHashTable_wf hnew hpos) _ h1 with ⟨_, _, ha, hb⟩ | ⟨_, hb⟩
    · cases ha; rw [hb.size, (newHashTable_wf hnew hpos).len]
    · cases hb
  refine ⟨ht, h1, ?_⟩
  have hne : ht.inserts ≠ 0 := by
    rw [h3]; exact fun h => hks (List.length_eq_zero_iff.1 h)
  rw [hashQuality, if_neg hne]
  simp only [quality_fold, h3, hsz]
  rw [h2, List.map_map]
  congr 1
  rw [zero_add, mul_comm]
  congr 3
  apply List.map_congr_left
  intro i _
  simp only [Function.comp_apply]
  rw [List.countP_eq_length_filter]

/-- C11_quality_chain at work: chains of lengths 2 and 1 in four buckets have quality 4·(2·3 + 1·2)/(3·(3+8-1)) = 32/30. -/
example : ∃ ht0 ht : HT (List U8), newHashTable id 3 0 0 false false false = .ok ht0 ∧
    insertAll (pureEnv (fun k s => BitVec.ofNat 64 (leNat k) + s) (fun _ => true)) () ht0 [[1], [5], [2]] = .ok ((), ht) ∧ hashQuality ht = 32 / 30 :=
  have ⟨ht, h1, h2⟩ := C11_quality_chain (fun k s => BitVec.ofNat 64 (leNat k) + s) id 3 0 0 false false _ [[1], [5], [2]] rfl (by decide) (by decide)
  ⟨_, ht, rfl, h1, h2.trans (by decide +kernel)⟩

/-- An empty table has quality 0. -/
theorem C11_quality_empty (np : Int → Int) (size seed extra : Int) (pd oa prime : Bool) (ht0 : HT κ)
    (hnew : newHashTable np size seed extra pd oa prime = .ok ht0) : hashQuality ht0 = 0 := by
  simp [hashQuality, (newHashTable_ok hnew).2.2.2.2.1]

/-- Open addressing: the metric depends only on the number of inserts and the size, so it says
nothing about the hash function. -/
theorem C11_quality_oa (H : κ → U64 → U64) (np : Int → Int)
    (size seed extra : Int) (pd prime : Bool) (ht0 : HT κ) (ks : List κ)
    (hnew : newHashTable np size seed extra pd true prime = .ok ht0)
    (hpos : 0 < ht0.buckets.length) (hroom : ks.length ≤ ht0.buckets.length) (hks : ks ≠ []) :
    ∃ ht, insertAll (pureEnv H (fun _ => true)) () ht0 ks = .ok ((), ht) ∧
      hashQuality ht = 2 * (ht0.buckets.length : Rat) / (ks.length + 2 * ht0.buckets.length - 1) := by
  obtain ⟨ht, h1, h2⟩ := oa_main H (fun _ => true) np size seed extra pd prime ht0 ks
    (fun _ _ => rfl) hnew hroom hpos
  refine ⟨ht, h1, ?_⟩
  have hlen : 0 < ks.length := List.length_pos_iff.2 hks
  have hne : ht.inserts ≠ 0 := by rw [h2.inserts]; omega
  have hsum : (ht.buckets.map fun b => b.length * (b.length + 1)).sum = 2 * ks.length := by
    rw [← h2.perm.length_eq]
    have hl := h2.len1
    generalize ht.buckets = bs at hl
    induction bs with
    | nil => simp
    | cons b bs ih =>
      have := ih (fun c hc => hl c (by simp [hc]))
      have hb := hl b (by simp)
      rw [List.map_cons, List.sum_cons, this, List.flatten_cons, List.length_append]
      rcases (by omega : b.length = 0 ∨ b.length = 1) with h | h <;> rw [h] <;> omega
  have hsz : ht.size.toNat = ht0.buckets.length := by
    rw [h2.hsize, (newHashTable_wf hnew hpos).len]
  rw [hashQuality, if_neg hne]
  simp only [quality_fold, h2.inserts, hsz, hsum]
  have hk : (ks.length : Rat) ≠ 0 := by exact_mod_cast (by omega : ks.length ≠ 0)
  have hd : (ks.length : Rat) + 2 * (ht0.buckets.length : Rat) - 1 ≠ 0 := by
    have h1 : (1 : Rat) ≤ (ks.length : Rat) := by exact_mod_cast hlen
    have h2 : (1 : Rat) ≤ (ht0.buckets.length : Rat) := by exact_mod_cast hpos
    intro h
    linarith
  push_cast
  field_simp
  ring

/-! ## C12 -/

/-- `diff` never panics and returns the numbers of 0 and 1 bits. -/
theorem C12_diff (d : U64) : diff d = .ok (64 - popcount d, popcount d) := diff_eq d

example : diff 0xF0F1 = .ok (55, 9) := by decide

end Verif.Props
