import Verif.Lemmas.Small

/-!
# C51-C54: packages sbox, crapwow, mahash, nullhash
-/

namespace Verif.Props
open Verif

section sbox
open Verif.Model.Sbox
open Verif.Spec.Sbox (T step mix acc sbox)

/-- C51. `Sbox` returns normally on every key and is the per-byte fold followed by the final mix. -/
theorem C51_fold (key : List U8) (seed : U32) : Sbox key seed = .ok (sbox key seed) := Lemmas.Sbox.Sbox_eq key seed

/-- C51. In any history of `Hash32` calls on one object, each call hashes its own key with the last seed passed by
this or any earlier call (else the one given to `New`). -/
theorem C51_sticky_seed (initial : U32) (calls : List (List U8 × List U32)) (i : Nat) (key : List U8) (seeds : List U32) (hi : calls[i]? = some (key, seeds)) :
    ∃ out, (New initial).run calls = .ok out ∧ out.length = calls.length ∧
      out[i]? = some (sbox key (Spec.Small.seedInForce initial (calls.take (i + 1)))) := by
  refine ⟨_, Lemmas.Sbox.run_eq (New initial) calls, by simp, ?_⟩
  have hl : i < calls.length := by
    rcases Nat.lt_or_ge i calls.length with h | h
    · exact h
    · rw [List.getElem?_eq_none h] at hi; exact nomatch hi
  rw [List.getElem?_map, List.getElem?_range hl]
  simp only [Option.map_some, List.getD_eq_getElem?_getD, hi, Option.getD_some]
  rfl

/-- C51. Before the final mix nothing is lost: for every key the accumulator is a bijection of the seed, and keys that
differ in exactly one byte have different accumulators under every seed. -/
theorem C51_accumulator (key : List U8) :
    Function.Bijective (acc key) ∧
    ∀ (p q : List U8) (x y : U8) (seed : U32), x ≠ y → acc (p ++ x :: q) seed ≠ acc (p ++ y :: q) seed := by
  refine ⟨Lemmas.Sbox.acc_bij key, fun p q x y seed hne e => hne ?_⟩
  simp only [acc, List.foldl_append, List.foldl_cons, List.length_append, List.length_cons] at e
  exact Lemmas.Sbox.T_inj (xor_left_inj' _ (mul_inj_of_odd (by decide) (Lemmas.Sbox.fold_inj q e)))

/-- C51. So every key reaches exactly the same set of hash values as the seed varies. -/
theorem C51_same_range (k1 k2 : List U8) (v : U32) : (∃ s, Sbox k1 s = .ok v) ↔ ∃ s, Sbox k2 s = .ok v := by
  have h : ∀ k1 k2 : List U8, (∃ s, Sbox k1 s = .ok v) → ∃ s, Sbox k2 s = .ok v := by
    intro k1 k2 ⟨s, hs⟩
    rw [C51_fold] at hs
    injection hs with hs
    obtain ⟨t, ht⟩ := (Lemmas.Sbox.acc_bij k2).2 (acc k1 s)
    exact ⟨t, by rw [C51_fold, sbox, ht]; exact congrArg _ hs⟩
  exact ⟨h k1 k2, h k2 k1⟩

/-- C51. But the final mix is not one-to-one, so on every key some two seeds collide, and on every key some value is
never returned. -/
theorem C51_seed_collision (key : List U8) :
    (∃ s t, s ≠ t ∧ Sbox key s = Sbox key t) ∧ ∃ v, ∀ s, Sbox key s ≠ .ok v := by
  have hmix : mix 268435460#32 = mix 15790321#32 := by decide
  constructor
  · obtain ⟨s, hs⟩ := (Lemmas.Sbox.acc_bij key).2 268435460#32
    obtain ⟨t, ht⟩ := (Lemmas.Sbox.acc_bij key).2 15790321#32
    refine ⟨s, t, ?_, ?_⟩
    · intro e
      rw [e, ht] at hs
      exact absurd hs (by decide)
    · rw [C51_fold, C51_fold, sbox, sbox, hs, ht, hmix]
  · apply Classical.byContradiction
    intro h
    have hsurj : Function.Surjective mix := by
      intro v
      apply Classical.byContradiction
      intro hv
      apply h
      refine ⟨v, fun s e => hv ⟨acc key s, ?_⟩⟩
      rw [C51_fold] at e
      injection e with e
    have hinj : Function.Injective mix := Finite.injective_iff_surjective.2 hsurj
    exact absurd (hinj hmix) (by decide)

/-- Not vacuous: a history in which the seed of the first call is used by the second. -/
example : ∃ out, (New 1#32).run [([1#8, 2#8, 3#8], [7#32]), ([9#8], [])] = .ok out ∧ out.length = 2 ∧ out[1]? = some (sbox [9#8] 7#32) :=
  C51_sticky_seed 1#32 [([1#8, 2#8, 3#8], [7#32]), ([9#8], [])] 1 [9#8] [] rfl
example : acc ([1#8] ++ 2#8 :: [3#8]) 5#32 ≠ acc ([1#8] ++ 4#8 :: [3#8]) 5#32 := (C51_accumulator []).2 _ _ _ _ _ (by decide)

end sbox

section crapwow
open Verif.Model.CrapWow
open Verif.Spec.CrapWow (plus block rest ofSum total crapwow)

/-- C52. `CrapWow` returns normally on every key and depends only on the length, the seed and the exclusive or of
what each 8-byte block and the rest contribute. -/
theorem C52_sum (key : List U8) (seed : U32) :
    CrapWow key seed = .ok (ofSum key.length (total key) seed) := Lemmas.CrapWow.CrapWow_eq key seed

/-- C52. The same seed rule as for sbox. -/
theorem C52_sticky_seed (initial : U32) (calls : List (List U8 × List U32)) (i : Nat) (key : List U8) (seeds : List U32) (hi : calls[i]? = some (key, seeds)) :
    ∃ out, (New initial).run calls = .ok out ∧ out.length = calls.length ∧
      out[i]? = some (crapwow key (Spec.Small.seedInForce initial (calls.take (i + 1)))) := by
  refine ⟨_, Lemmas.CrapWow.run_eq (New initial) calls, by simp, ?_⟩
  have hl : i < calls.length := by
    rcases Nat.lt_or_ge i calls.length with h | h
    · exact h
    · rw [List.getElem?_eq_none h] at hi; exact nomatch hi
  rw [List.getElem?_map, List.getElem?_range hl]
  simp only [Option.map_some, List.getD_eq_getElem?_getD, hi, Option.getD_some]
  rfl

/-- C52. So the order of the 8-byte blocks is irrelevant: keys whose blocks are a rearrangement of each other, with
the same rest, collide under every seed. -/
theorem C52_order_violated (bs cs : List (List U8)) (r : List U8) (seed : U32) (hb : ∀ b ∈ bs, b.length = 8) (hp : bs.Perm cs) :
    CrapWow (bs.flatten ++ r) seed = CrapWow (cs.flatten ++ r) seed := by
  have hc : ∀ b ∈ cs, b.length = 8 := fun b h => hb b (hp.mem_iff.2 h)
  have split : ∀ l : List (List U8), (∀ b ∈ l, b.length = 8) → blocks 8 (l.flatten ++ r) = l ++ blocks 8 r ∧ tailOf 8 (l.flatten ++ r) = tailOf 8 r := by
    intro l
    induction l with
    | nil => intro _; exact ⟨rfl, rfl⟩
    | cons a l ih =>
      intro h
      have ha := h a (by simp)
      obtain ⟨h1, h2⟩ := ih (fun b hb => h b (by simp [hb]))
      have hle : 8 ≤ ((a :: l).flatten ++ r).length := by simp; omega
      have hd : ((a :: l).flatten ++ r).drop 8 = l.flatten ++ r := by
        rw [List.flatten_cons, List.append_assoc, List.drop_append_of_le_length (by omega), List.drop_of_length_le (by omega), List.nil_append]
      have ht : ((a :: l).flatten ++ r).take 8 = a := by
        rw [List.flatten_cons, List.append_assoc, List.take_append_of_le_length (by omega), List.take_of_length_le (by omega)]
      rw [blocks_of_le (by decide) hle, tailOf_of_le (by decide) hle, hd, ht, h1, h2]
      exact ⟨rfl, rfl⟩
  have hlen : (bs.flatten ++ r).length = (cs.flatten ++ r).length := by
    rw [List.length_append, List.length_append, (hp.flatten).length_eq]
  rw [C52_sum, C52_sum, hlen, total, total, (split bs hb).1, (split bs hb).2, (split cs hc).1, (split cs hc).2,
    Lemmas.CrapWow.total_perm (hp.append_right (blocks 8 r))]

/-- C52. And a block occurring twice cancels out: replacing both occurrences by any other block changes nothing. -/
theorem C52_pairs_cancel (a b rest : List U8) (seed : U32) (ha : a.length = 8) (hb : b.length = 8) :
    CrapWow (a ++ a ++ rest) seed = CrapWow (b ++ b ++ rest) seed := by
  have key : ∀ a : List U8, a.length = 8 → total (a ++ a ++ rest) = total rest := by
    intro a ha
    have h1 : 8 ≤ (a ++ a ++ rest).length := by simp; omega
    have d1 : (a ++ a ++ rest).drop 8 = a ++ rest := by
      rw [List.append_assoc, List.drop_append_of_le_length (by omega), List.drop_of_length_le (by omega), List.nil_append]
    have t1 : (a ++ a ++ rest).take 8 = a := by
      rw [List.append_assoc, List.take_append_of_le_length (by omega), List.take_of_length_le (by omega)]
    have h2 : 8 ≤ (a ++ rest).length := by simp; omega
    have d2 : (a ++ rest).drop 8 = rest := by
      rw [List.drop_append_of_le_length (by omega), List.drop_of_length_le (by omega), List.nil_append]
    have t2 : (a ++ rest).take 8 = a := by
      rw [List.take_append_of_le_length (by omega), List.take_of_length_le (by omega)]
    rw [total, blocks_of_le (by decide) h1, tailOf_of_le (by decide) h1, d1, t1, blocks_of_le (by decide) h2, tailOf_of_le (by decide) h2, d2, t2, total]
    simp only [List.map_cons, List.foldl_cons]
    rw [Lemmas.CrapWow.zero_plus, Lemmas.CrapWow.plus_self]
  rw [C52_sum, C52_sum, key a ha, key b hb]
  simp only [List.length_append, ha, hb]

/-- C52. All-zero words contribute nothing (they only count in the length). -/
theorem C52_zero_block (key : List U8) : total (List.replicate 8 0#8 ++ key) = total key := by
  have h1 : 8 ≤ (List.replicate 8 0#8 ++ key).length := by simp
  rw [total, blocks_of_le (by decide) h1, tailOf_of_le (by decide) h1, List.drop_append_of_le_length (by simp), List.take_append_of_le_length (by simp)]
  simp only [List.drop_replicate, List.take_replicate, Nat.sub_self, Nat.min_self, List.replicate_zero, List.nil_append, List.map_cons, List.foldl_cons]
  rw [show block (List.replicate 8 0#8) = (0#32, 0#32) by decide, Lemmas.CrapWow.plus_zero, total]

/-- Two different 19-byte keys that collide under every seed. -/
example (seed : U32) : CrapWow ([1#8,2#8,3#8,4#8,5#8,6#8,7#8,8#8] ++ ([9#8,8#8,7#8,6#8,5#8,4#8,3#8,2#8] ++ []) ++ [1#8,2#8,3#8]) seed =
    CrapWow ([9#8,8#8,7#8,6#8,5#8,4#8,3#8,2#8] ++ ([1#8,2#8,3#8,4#8,5#8,6#8,7#8,8#8] ++ []) ++ [1#8,2#8,3#8]) seed :=
  C52_order_violated [[1#8,2#8,3#8,4#8,5#8,6#8,7#8,8#8], [9#8,8#8,7#8,6#8,5#8,4#8,3#8,2#8]] [[9#8,8#8,7#8,6#8,5#8,4#8,3#8,2#8], [1#8,2#8,3#8,4#8,5#8,6#8,7#8,8#8]] _ seed
    (by decide) (List.Perm.swap _ _ _)
/-- The order inside a block does matter. -/
example : CrapWow [1#8,2#8,3#8,4#8,5#8,6#8,7#8,8#8] 0#32 ≠ CrapWow [5#8,6#8,7#8,8#8,1#8,2#8,3#8,4#8] 0#32 := by decide +kernel

end crapwow

section mahash
open Verif.Model.MaHash
open Verif.Spec.MaHash (S spread exchange step join state)

/-- C53. `MaHash8v64` returns normally on every string: it folds the per-byte step over the string and mixes the two
halves. -/
theorem C53_fold (str : List U8) : MaHash8v64 str =
    .ok (join (state str) ^^^ LROT64 (join (state str) + (join (state str) <<< 13 ^^^ join (state str) >>> 23))) := Lemmas.MaHash.MaHash_eq str

/-- C53. `LROT14` and `RROT14` are rotations by 14 and inverse to each other. -/
theorem C53_rot14 (x : U32) :
    LROT14 x = x.rotateLeft 14 ∧ RROT14 x = x.rotateRight 14 ∧ RROT14 (LROT14 x) = x ∧ LROT14 (RROT14 x) = x := by
  rw [Lemmas.MaHash.lrot14, Lemmas.MaHash.rrot14, Lemmas.MaHash.rrot14, Lemmas.MaHash.lrot14]
  exact ⟨rfl, rfl, rotateRight_rotateLeft x (by decide), rotateLeft_rotateRight x (by decide)⟩

theorem LROT64_bit (x : U64) (i : Nat) (h : i < 64) : (LROT64 x).getLsbD i = ((decide (29 ≤ i) && x.getLsbD (i - 29)) || x.getLsbD (i + 34)) := by
  unfold LROT64
  rw [BitVec.getLsbD_or, BitVec.getLsbD_shiftLeft, BitVec.getLsbD_ushiftRight, Nat.add_comm 34 i]
  congr 2
  rw [decide_eq_true h, Bool.true_and]
  by_cases h' : i < 29
  · simp [h']
  · simp [h', Nat.le_of_not_lt h']

/-- C53. `LROT64` is not a rotation: exactly which words it merges. It merges `x` and `y` iff they agree on the 62 inner
bits and on whether one of the two outer bits is set. -/
theorem C53_lrot64_merges (x y : U64) :
    LROT64 x = LROT64 y ↔
      (∀ i, 1 ≤ i → i < 63 → x.getLsbD i = y.getLsbD i) ∧ (x.getLsbD 0 || x.getLsbD 63) = (y.getLsbD 0 || y.getLsbD 63) := by
  constructor
  · intro e
    have hb : ∀ i, i < 64 → ((decide (29 ≤ i) && x.getLsbD (i - 29)) || x.getLsbD (i + 34)) = ((decide (29 ≤ i) && y.getLsbD (i - 29)) || y.getLsbD (i + 34)) := by
      intro i hi
      rw [← LROT64_bit x i hi, ← LROT64_bit y i hi, e]
    refine ⟨fun i h1 h2 => ?_, by simpa using hb 29 (by decide)⟩
    by_cases h : i ≤ 34
    · have := hb (i + 29) (by omega)
      rw [BitVec.getLsbD_of_ge x (i + 29 + 34) (by omega), BitVec.getLsbD_of_ge y (i + 29 + 34) (by omega)] at this
      simpa using this
    · have := hb (i - 34) (by omega)
      rw [show i - 34 + 34 = i by omega, decide_eq_false (by omega)] at this
      simpa using this
  · intro ⟨h1, h2⟩
    apply BitVec.eq_of_getLsbD_eq
    intro i hi
    rw [LROT64_bit x i hi, LROT64_bit y i hi]
    by_cases h : i < 29
    · rw [decide_eq_false (by omega), Bool.false_and, Bool.false_and, Bool.false_or, Bool.false_or]
      exact h1 _ (by omega) (by omega)
    · rw [decide_eq_true (by omega), Bool.true_and, Bool.true_and]
      by_cases h29 : i = 29
      · subst h29; exact h2
      · rw [h1 (i - 29) (by omega) (by omega), BitVec.getLsbD_of_ge x (i + 34) (by omega), BitVec.getLsbD_of_ge y (i + 34) (by omega)]

/-- C53. Exactly what `LROT64` computes: output bit `i` is bit `i - 29` or bit `i + 34` of the argument, where these exist. -/
theorem C53_lrot64_bits (x : U64) (i : Nat) (hi : i < 64) :
    (LROT64 x).getLsbD i = ((decide (29 ≤ i) && x.getLsbD (i - 29)) || (decide (i < 30) && x.getLsbD (i + 34))) := by
  unfold LROT64
  rw [BitVec.getLsbD_or, BitVec.getLsbD_shiftLeft, BitVec.getLsbD_ushiftRight, Nat.add_comm 34 i]
  by_cases h1 : 29 ≤ i <;> by_cases h2 : i < 30
  · simp [hi, h2, show ¬ i < 29 by omega, h1]
  · simp [hi, h2, show ¬ i < 29 by omega, h1, BitVec.getLsbD_of_ge x (i + 34) (by omega)]
  · simp [hi, h2, show i < 29 by omega, h1]
  · omega

/-- C53. Its first and last output bits are always equal. -/
theorem C53_lrot64_range (x : U64) : (LROT64 x).getLsbD 0 = (LROT64 x).getLsbD 63 := by
  rw [LROT64_bit x 0 (by decide), LROT64_bit x 63 (by decide), BitVec.getLsbD_of_ge x (63 + 34) (by decide)]
  simp

/-- C53. So it is not a rotation, not one-to-one and not onto. -/
theorem C53_lrot64_violated :
    (¬ ∃ r, ∀ x, LROT64 x = x.rotateLeft r) ∧ ¬ Function.Injective LROT64 ∧ ¬ Function.Surjective LROT64 := by
  have hni : ¬ Function.Injective LROT64 := fun h => absurd (@h 1#64 0x8000000000000000#64 (by decide)) (by decide)
  refine ⟨fun ⟨r, h⟩ => hni ?_, hni, fun h => ?_⟩
  · intro x y e
    rw [h, h] at e
    have hm : ∀ z : U64, z.rotateLeft r = z.rotateLeft (r % 64) := fun z => (BitVec.rotateLeft_mod_eq_rotateLeft (x := z) (r := r)).symm
    rw [hm x, hm y] at e
    exact rotateLeft_inj (Nat.mod_lt _ (by decide)) e
  · obtain ⟨x, hx⟩ := h 1#64
    have := C53_lrot64_range x
    rw [hx] at this
    exact absurd this (by decide)

/-- C53. The per-byte step loses information too: for every byte and every second half there are two different states
that it maps to the same state. -/
theorem C53_step_merges (b : U8) (h2 : U32) : ∃ x y, x ≠ y ∧ step (x, h2) b = step (y, h2) b := by
  refine ⟨66077048#32 - S b, 384#32 - S b, ?_, ?_⟩
  · intro e
    have := congrArg (· + S b) e
    simp only [BitVec.sub_add_cancel] at this
    exact absurd this (by decide)
  · simp only [step, BitVec.sub_add_cancel]
    rw [show spread 66077048#32 = spread 384#32 by decide]

/-- C53. The exchange of halves in the step is lossless. -/
theorem C53_exchange_inj (p q : U32 × U32) (e : exchange p = exchange q) : p = q := by
  obtain ⟨a, b⟩ := p
  obtain ⟨c, d⟩ := q
  simp only [exchange, Prod.mk.injEq] at e
  have e1 := congrArg BitVec.toNat e.1
  have e2 := congrArg BitVec.toNat e.2
  have ha := a.isLt; have hb := b.isLt; have hc := c.isLt; have hd := d.isLt
  simp only [BitVec.toNat_ofNat] at e1 e2
  rw [BitVec.eq_of_toNat_eq (x := a) (y := c) (by omega), BitVec.eq_of_toNat_eq (x := b) (y := d) (by omega)]

example : LROT64 1#64 = LROT64 0x8000000000000000#64 := (C53_lrot64_merges _ _).2 ⟨by decide, by decide⟩
example : (MaHash8v64 [0x61#8, 0x62#8, 0x63#8]).isOk = true := by rw [C53_fold]; rfl

end mahash

section nullhash
open Verif.Model.NullHash

/-- The calls that return a number. -/
def asksValue : Call → Bool
  | .sum64 | .hash64 _ _ | .hash64S _ _ => true
  | _ => false

/-- C54. In every history, the `i`-th call returns: a number equal to how many numbers have been asked for so far (modulo
2^64), whatever the data, seeds, writes and resets; `Sum` appends eight zero bytes; `Write` reports the length. -/
theorem C54_counter (calls : List Call) (i : Nat) (c : Call) (hi : calls[i]? = some c) :
    (run New calls)[i]? = some (match c with
      | .write b => .wrote b.length
      | .sum b => .bytes (b ++ List.replicate 8 0#8)
      | .reset => .done
      | _ => .value (BitVec.ofNat 64 ((calls.take (i + 1)).countP asksValue))) := by
  have key : ∀ (calls : List Call) (i : Nat) (s : State) (k : Nat), s.ctr = BitVec.ofNat 64 k → calls[i]? = some c → (run s calls)[i]? = some (match c with
      | .write b => .wrote b.length
      | .sum b => .bytes (b ++ List.replicate 8 0#8)
      | .reset => .done
      | _ => .value (BitVec.ofNat 64 (k + (calls.take (i + 1)).countP asksValue))) := by
    intro calls
    induction calls with
    | nil => intro i s k _ h; exact nomatch h
    | cons d ds ih =>
      intro i s k hs h
      cases i with
      | zero =>
        simp only [List.getElem?_cons_zero, Option.some.injEq] at h
        subst h
        cases d <;> simp [run, call, hs, asksValue, BitVec.ofNat_add]
      | succ i =>
        rw [List.getElem?_cons_succ] at h
        rw [run, List.getElem?_cons_succ]
        have hs' : (call s d).1.ctr = BitVec.ofNat 64 (k + if asksValue d then 1 else 0) := by
          cases d <;> simp [call, hs, asksValue, BitVec.ofNat_add]
        rw [ih i _ _ hs' h, List.take_succ_cons, List.countP_cons]
        rw [show k + (if asksValue d = true then 1 else 0) + List.countP asksValue (List.take (i + 1) ds) =
          k + (List.countP asksValue (List.take (i + 1) ds) + if asksValue d = true then 1 else 0) by omega]
  simpa using key calls i New 0 rfl hi

/-- C54. So it is not a function of the key: hashing the same key twice with the same seed gives two different results,
from every state; and the result differs from the plain function `Nullhash`. -/
theorem C54_not_a_function (s : State) (b : List U8) (seed : U64) :
    (run s [.hash64S b seed, .hash64S b seed])[0]? ≠ (run s [.hash64S b seed, .hash64S b seed])[1]? ∧
    (run New [.hash64S b seed])[0]? ≠ some (.value (Nullhash b seed)) := by
  constructor
  · simp only [run, call, List.getElem?_cons_zero, List.getElem?_cons_succ]
    intro e
    simp only [Option.some.injEq, Ret.value.injEq] at e
    have := add_left_inj' (s.ctr + 1#64) ((BitVec.add_zero _).trans e)
    exact absurd this (by decide)
  · intro e
    simp only [run, call, New, Nullhash, List.getElem?_cons_zero, Option.some.injEq, Ret.value.injEq] at e
    exact absurd e (by decide)

example : (run New [.write [1#8], .sum64, .reset, .sum [5#8], .hash64 [1#8] []])[4]? = some (.value 2#64) :=
  C54_counter [.write [1#8], .sum64, .reset, .sum [5#8], .hash64 [1#8] []] 4 _ rfl

end nullhash

end Verif.Props
