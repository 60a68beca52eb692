import Verif.Props.HashTable
import Verif.Props.Hashf

/-! Property C141: which bits of a hash value a table uses. -/

namespace Verif.Props.Bits
open Verif Verif.HashTable Verif.Spec.HashTable

variable {κ : Type}

/-- Two tables with the same keys in the same places and the same statistics; only `Dups` may differ. -/
def Alike (a b : HT κ) : Prop := ∃ d, b = { a with dups := d }

/-- Two calls that both return, with tables alike, or both fail in the same way. -/
def Matched : Go (Unit × HT κ) → Go (Unit × HT κ) → Prop
  | .ok (_, a), .ok (_, b) => Alike a b
  | .error f, .error f' => f = f'
  | _, _ => False


/-- Flipping one bit adds or subtracts its weight. -/
theorem xor_pow (i : Nat) : ∀ x : Nat, x = (x ^^^ 2 ^ i) + 2 ^ i ∨ (x ^^^ 2 ^ i) = x + 2 ^ i := by
  induction i with
  | zero =>
    intro x
    have h1 := Nat.xor_div_two (a := x) (b := 2 ^ 0)
    have h2 := Nat.xor_mod_two_eq (m := x) (n := 2 ^ 0)
    simp only [pow_zero] at *
    rw [show (1 : Nat) / 2 = 0 from rfl, Nat.xor_zero] at h1
    omega
  | succ i ih =>
    intro x
    have h1 := Nat.xor_div_two (a := x) (b := 2 ^ (i + 1))
    have h2 := Nat.xor_mod_two_eq (m := x) (n := 2 ^ (i + 1))
    have e : 2 ^ (i + 1) = 2 * 2 ^ i := by ring
    rw [e] at h1 h2 ⊢
    rw [Nat.mul_div_cancel_left _ (by norm_num : 0 < 2)] at h1
    have := ih (x / 2)
    omega

theorem loop_alike (H H' : κ → U64 → U64) (tr : κ → Bool) (k : κ) (h h' : U64) : ∀ (fuel : Nat) (ht : HT κ) (d : Nat) (idx : U64) (cnt pass : Nat),
    Matched (insertLoop (pureEnv H tr) k h fuel () ht idx cnt pass) (insertLoop (pureEnv H' tr) k h' fuel () { ht with dups := d } idx cnt pass) := by
  intro fuel
  induction fuel with
  | zero => intro ht d idx cnt pass; exact rfl
  | succ fuel ih =>
    intro ht d idx cnt pass
    have ht' : traceChk (pureEnv H tr) k = traceChk (pureEnv H' tr) k := rfl
    unfold insertLoop
    rw [ht']
    dsimp only [bind, Except.bind]
    cases hb : Go.idx ht.buckets idx.toNat with
    | error f => exact rfl
    | ok b =>
      dsimp only
      by_cases he : b.isEmpty = true
      · rw [if_pos he, if_pos he]
        cases Go.set ht.buckets idx.toNat [k] with
        | error f => exact rfl
        | ok bs =>
          dsimp only
          cases traceChk (pureEnv H' tr) k with
          | error f => exact rfl
          | ok u => exact ⟨d, rfl⟩
      · rw [if_neg he, if_neg he]
        by_cases ho : ht.oa = true
        · rw [if_pos ho, if_pos ho]
          cases traceChk (pureEnv H' tr) k with
          | error f => exact rfl
          | ok u =>
            dsimp only
            cases Go.idx b 0 with
            | error f => exact rfl
            | ok k0 =>
              dsimp only [pureEnv]
              have e1 : ∀ (bh bh' : U64) , ∃ d', HT.countDup (HT.countProbe { ht with dups := d } cnt) bh' h' = { (HT.countDup (HT.countProbe ht cnt) bh h) with dups := d' } := by
                intro bh bh'
                unfold HT.countDup HT.countProbe
                by_cases hc : cnt = 0 <;> by_cases h1 : bh = h <;> by_cases h2 : bh' = h' <;> simp only [hc, h1, h2, if_true, if_false] <;> exact ⟨_, rfl⟩
              have key : ∀ t t' : HT κ, (∃ d', t' = { t with dups := d' }) →
                  Matched (if idx + 1 > t.size - 1 then (if pass + 1 > 1 then Go.panic "Add: pass" else insertLoop (pureEnv H tr) k h fuel () t 0 (cnt + 1) (pass + 1)) else insertLoop (pureEnv H tr) k h fuel () t (idx + 1) (cnt + 1) pass)
                    (if idx + 1 > t'.size - 1 then (if pass + 1 > 1 then Go.panic "Add: pass" else insertLoop (pureEnv H' tr) k h' fuel () t' 0 (cnt + 1) (pass + 1)) else insertLoop (pureEnv H' tr) k h' fuel () t' (idx + 1) (cnt + 1) pass) := by
                rintro t t' ⟨d', rfl⟩
                dsimp only
                by_cases g1 : idx + 1 > t.size - 1
                · rw [if_pos g1, if_pos g1]
                  by_cases g2 : pass + 1 > 1
                  · rw [if_pos g2, if_pos g2]; exact rfl
                  · rw [if_neg g2, if_neg g2]; exact ih _ _ _ _ _
                · rw [if_neg g1, if_neg g1]; exact ih _ _ _ _ _
              exact key _ _ (e1 _ _)
        · rw [if_neg ho, if_neg ho]
          cases Go.set ht.buckets idx.toNat (b ++ [k]) with
          | error f => exact rfl
          | ok bs =>
            dsimp only
            cases traceChk (pureEnv H' tr) k with
            | error f => exact rfl
            | ok u => exact ⟨_, rfl⟩

theorem insert_alike (H H' : κ → U64 → U64) (tr : κ → Bool) (k : κ) (ht : HT κ) (d : Nat) (wf : WF ht)
    (hh : ht.home (H k ht.seed) = ht.home (H' k ht.seed)) :
    Matched (HashTable.insert (pureEnv H tr) () ht k) (HashTable.insert (pureEnv H' tr) () { ht with dups := d } k) := by
  obtain ⟨i, hi, e⟩ := insert_eq (e := pureEnv H tr) (w := ()) (k := k) wf
  obtain ⟨j, hj, e'⟩ := insert_eq (e := pureEnv H' tr) (w := ()) (k := k) (ht := { ht with dups := d }) ⟨wf.len, wf.mask, wf.pos⟩
  have : i = j := by
    apply BitVec.eq_of_toNat_eq
    rw [hi, hj]; exact hh
  subst this
  rw [e, e']
  exact loop_alike H H' tr k _ _ _ { ht with inserts := ht.inserts + 1 } d i 0 0

theorem all_alike (H H' : κ → U64 → U64) (ks : List κ) : ∀ (ht : HT κ) (d : Nat), WF ht →
    (∀ k ∈ ks, ht.home (H k ht.seed) = ht.home (H' k ht.seed)) →
    Matched (HashTable.insertAll (pureEnv H fun _ => true) () ht ks) (HashTable.insertAll (pureEnv H' fun _ => true) () { ht with dups := d } ks) := by
  induction ks with
  | nil => intro ht d _ _; exact ⟨d, rfl⟩
  | cons k ks ih =>
    intro ht d wf hh
    have m := insert_alike H H' (fun _ => true) k ht d wf (hh k (by simp))
    have c := insert_cases (e := pureEnv H fun _ => true) (w := ()) (k := k) wf rfl
    rw [HashTable.insertAll, HashTable.insertAll]
    cases h1 : HashTable.insert (pureEnv H fun _ => true) () ht k with
    | error f =>
      cases h2 : HashTable.insert (pureEnv H' fun _ => true) () { ht with dups := d } k with
      | error f' => rw [h1, h2] at m; exact m
      | ok r => rw [h1, h2] at m; exact m.elim
    | ok r =>
      cases h2 : HashTable.insert (pureEnv H' fun _ => true) () { ht with dups := d } k with
      | error f' => rw [h1, h2] at m; exact m.elim
      | ok r' =>
        rw [h1, h2] at m
        obtain ⟨⟨⟩, t⟩ := r
        obtain ⟨⟨⟩, t'⟩ := r'
        obtain ⟨d', rfl⟩ := m
        rcases c with ⟨_, _, hf⟩ | ⟨_, w1, ht1, he, hs⟩
        · rw [h1] at hf; cases hf
        · rw [h1] at he
          cases he
          refine ih t d' hs.wf fun k' hk' => ?_
          have := hh k' (by simp [hk'])
          unfold HT.home at this ⊢
          rw [hs.prime, hs.size, hs.seed]
          exact this

/-- From one new table, with either collision strategy: if two hash functions send every key of a history to the same bucket, the two histories end alike. -/
theorem C141_same_homes (H H' : κ → U64 → U64) (np : Int → Int) (size seed extra : Int) (pd oa prime : Bool) (ht0 : HT κ) (ks : List κ)
    (hnew : newHashTable np size seed extra pd oa prime = .ok ht0) (hpos : 0 < ht0.buckets.length)
    (hh : ∀ k ∈ ks, homeOf prime ht0.buckets.length (H k (BitVec.ofInt 64 seed)) = homeOf prime ht0.buckets.length (H' k (BitVec.ofInt 64 seed))) :
    Matched (HashTable.insertAll (pureEnv H fun _ => true) () ht0 ks) (HashTable.insertAll (pureEnv H' fun _ => true) () ht0 ks) := by
  have wf := newHashTable_wf hnew hpos
  have := all_alike H H' ks ht0 ht0.dups wf
  refine this fun k hk => ?_
  have := hh k hk
  have hp : ht0.prime = prime ∧ ht0.seed = BitVec.ofInt 64 seed := by
    unfold newHashTable at hnew
    dsimp only at hnew
    split at hnew
    · cases hnew; exact ⟨rfl, rfl⟩
    · cases hnew
  unfold HT.home
  rw [hp.1, hp.2, ← wf.len]
  exact this

/-- The mask of a table of at most `2^m` buckets looks at the low `m` bits only. -/
theorem C141_low_bits (size m : Nat) (hs : 0 < size) (hm : size ≤ 2 ^ m) (h h' : U64) (he : h.toNat % 2 ^ m = h'.toNat % 2 ^ m) :
    homeOf false size h = homeOf false size h' := by
  have key : ∀ x : Nat, x &&& (size - 1) = (x % 2 ^ m) &&& (size - 1) := by
    intro x
    apply Nat.eq_of_testBit_eq
    intro i
    rw [Nat.testBit_and, Nat.testBit_and, Nat.testBit_mod_two_pow]
    by_cases hi : i < m
    · simp [hi]
    · have : (size - 1).testBit i = false := by
        apply Nat.testBit_lt_two_pow
        exact lt_of_lt_of_le (by omega) (Nat.pow_le_pow_right (by norm_num) (not_lt.mp hi))
      simp [this]
  unfold homeOf
  simp only [Bool.false_eq_true, if_false]
  rw [key h.toNat, key h'.toNat, he]

/-- Power-of-two tables: changing bit `i` of the hash value moves the key exactly when `2^i` is below the number of buckets. -/
theorem C141_mask_flip (n i : Nat) (h : U64) (hi : i < 64) :
    homeOf false (2 ^ n) (h ^^^ (1#64 <<< i)) ≠ homeOf false (2 ^ n) h ↔ i < n := by
  have hb : ∀ j, (h ^^^ (1#64 <<< i)).toNat.testBit j = (h.toNat.testBit j ^^ decide (j = i)) := by
    intro j
    rw [BitVec.toNat_xor, Nat.testBit_xor]
    congr 1
    have : (1#64 <<< i).toNat = 2 ^ i := by
      rw [BitVec.toNat_shiftLeft, show (1#64).toNat = 1 from rfl, Nat.shiftLeft_eq, one_mul]
      exact Nat.mod_eq_of_lt (Nat.pow_lt_pow_right (by norm_num) hi)
    rw [this, Nat.testBit_two_pow]
    by_cases h : i = j
    · simp [h]
    · simp [h, Ne.symm h]
  unfold homeOf
  simp only [Bool.false_eq_true, if_false]
  rw [Nat.and_two_pow_sub_one_eq_mod, Nat.and_two_pow_sub_one_eq_mod]
  constructor
  · intro hne
    by_contra hn
    apply hne
    apply Nat.eq_of_testBit_eq
    intro j
    rw [Nat.testBit_mod_two_pow, Nat.testBit_mod_two_pow, hb]
    by_cases hj : j < n
    · have : j ≠ i := by omega
      simp [this]
    · simp [hj]
  · intro hlt he
    have := congrArg (·.testBit i) he
    simp only [Nat.testBit_mod_two_pow, hb, hlt, decide_true, Bool.true_and] at this
    cases hx : h.toNat.testBit i <;> rw [hx] at this <;> cases this

/-- Tables of odd size, such as those with a prime number of buckets above 2: changing any one bit of the hash value moves the key. -/
theorem C141_prime_flip (p i : Nat) (h : U64) (hi : i < 64) (hp : p % 2 = 1) (h1 : 1 < p) :
    homeOf true p (h ^^^ (1#64 <<< i)) ≠ homeOf true p h := by
  have hcop : ¬ p ∣ 2 ^ i := by
    intro hd
    have hc : Nat.Coprime p (2 ^ i) := by
      apply Nat.Coprime.pow_right
      rw [Nat.coprime_two_right, Nat.odd_iff]; exact hp
    have := Nat.Coprime.eq_one_of_dvd hc hd
    omega
  have hsh : (1#64 <<< i).toNat = 2 ^ i := by
    rw [BitVec.toNat_shiftLeft, show (1#64).toNat = 1 from rfl, Nat.shiftLeft_eq, one_mul]
    exact Nat.mod_eq_of_lt (Nat.pow_lt_pow_right (by norm_num) hi)
  have hor : h.toNat = (h ^^^ (1#64 <<< i)).toNat + 2 ^ i ∨ (h ^^^ (1#64 <<< i)).toNat = h.toNat + 2 ^ i := by
    rw [BitVec.toNat_xor, hsh]
    have hx := xor_pow i h.toNat
    exact hx
  unfold homeOf
  simp only [if_true]
  intro he
  rcases hor with hx | hx
  · apply hcop
    have : (h.toNat - (h ^^^ (1#64 <<< i)).toNat) % p = 0 := Nat.sub_mod_eq_zero_of_mod_eq he.symm
    rw [hx, Nat.add_sub_cancel_left] at this
    exact Nat.dvd_of_mod_eq_zero this
  · apply hcop
    have : ((h ^^^ (1#64 <<< i)).toNat - h.toNat) % p = 0 := Nat.sub_mod_eq_zero_of_mod_eq he
    rw [hx, Nat.add_sub_cancel_left] at this
    exact Nat.dvd_of_mod_eq_zero this

/-- Names "j264" and "j264l" of the dispatcher: a table of at most `2^32` buckets chosen by the mask cannot tell them apart, except in `Dups`. -/
theorem C141_j264l (e : Verif.Model.Hashf.Ext) (he : Verif.Spec.Hashf.Ok e) (hist : List (String × List U8 × U64)) (H H' : List U8 → U64 → U64)
    (h1 : ∀ k s, Verif.Spec.Hashf.resultAfter e hist "j264" k s = .ok (H k s))
    (h2 : ∀ k s, Verif.Spec.Hashf.resultAfter e hist "j264l" k s = .ok (H' k s))
    (np : Int → Int) (size seed extra : Int) (pd oa : Bool) (ht0 : HT (List U8)) (ks : List (List U8))
    (hnew : newHashTable np size seed extra pd oa false = .ok ht0) (hpos : 0 < ht0.buckets.length) (hsz : ht0.buckets.length ≤ 2 ^ 32) :
    Matched (HashTable.insertAll (pureEnv H fun _ => true) () ht0 ks) (HashTable.insertAll (pureEnv H' fun _ => true) () ht0 ks) := by
  refine C141_same_homes H H' np size seed extra pd oa false ht0 ks hnew hpos fun k _ => C141_low_bits _ 32 hpos hsz _ _ ?_
  obtain ⟨h, e1, e2, _⟩ := Verif.Props.C77_j264 e he hist k (BitVec.ofInt 64 seed)
  rw [h1] at e1
  rw [h2] at e2
  cases e1
  injection e2 with e2
  rw [e2]
  rw [BitVec.toNat_ofNat, Nat.mod_eq_of_lt (lt_trans (Nat.mod_lt _ (by norm_num)) (by norm_num) : (H k (BitVec.ofInt 64 seed)).toNat % 2 ^ 32 < 2 ^ 64), Nat.mod_mod]

/-- The hypotheses are met by a table of four buckets, and `Dups` really can differ: two keys whose hash values agree in the low byte only. -/
theorem C141_dups_may_differ : ∃ ht0 : HT (List U8), newHashTable id 4 0 0 false false false = .ok ht0 ∧ ht0.buckets.length = 4 ∧
    ∃ a b : HT (List U8), HashTable.insertAll (pureEnv (fun k _ => BitVec.ofNat 64 (leNat k)) fun _ => true) () ht0 [[5, 1], [5, 2]] = .ok ((), a) ∧
      HashTable.insertAll (pureEnv (fun k _ => BitVec.ofNat 64 (leNat k % 256)) fun _ => true) () ht0 [[5, 1], [5, 2]] = .ok ((), b) ∧
      Alike a b ∧ a.dups = 0 ∧ b.dups = 1 :=
  ⟨_, rfl, by decide, _, _, rfl, rfl, ⟨1, by decide⟩, by decide, by decide⟩

example : homeOf false 8 (0x104#64 ^^^ (1#64 <<< 2)) ≠ homeOf false 8 0x104#64 := (C141_mask_flip 3 2 _ (by norm_num)).2 (by norm_num)
example : homeOf false 8 (0x104#64 ^^^ (1#64 <<< 40)) = homeOf false 8 0x104#64 := by decide
example : homeOf true 7 (0x104#64 ^^^ (1#64 <<< 40)) ≠ homeOf true 7 0x104#64 := C141_prime_flip 7 40 _ (by norm_num) (by norm_num) (by norm_num)

end Verif.Props.Bits
