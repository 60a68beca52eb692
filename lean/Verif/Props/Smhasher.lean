import Verif.Lemmas.Smhasher4
import Mathlib.Algebra.BigOperators.Group.Finset.Basic
import Mathlib.Data.Nat.Choose.Factorization

/-! # Properties of package smhasher -/

namespace Verif.Props
open Verif Verif.Model.Smhasher Verif.Spec.Smhasher Verif.Lemmas.Smhasher

/-! ## C75: the collision counter -/

/-- C75. After any sequence of additions, the number of additions minus the number of hashes held is the number of additions minus the number
of different hashes among them, and it is zero exactly when the added hashes are pairwise different. -/
theorem C75_collisions (hs : List U64) :
    let s := HashSet.new.addAll hs
    s.n = hs.length ∧ s.m.length = hs.toFinset.card ∧ s.m.length ≤ s.n ∧ (s.n - s.m.length = 0 ↔ hs.Nodup) := by
  dsimp only
  have h1 : (HashSet.new.addAll hs).n = hs.length := by rw [addAll_n]; simp [HashSet.new]
  have h2 := addAll_card hs
  have h3 := List.toFinset_card_le hs
  have h4 := card_eq_iff hs
  refine ⟨h1, h2, by omega, ?_⟩
  rw [h1, h2, ← h4]; omega

/-- C75. For up to 200 million additions (more than any of the tests makes), `check` reports exactly when two of the added hashes are equal: the slack
of thirty standard deviations never excuses a collision, and no report is ever made without one. -/
theorem C75_check (hs : List U64) (hn : hs.length ≤ 2 * 10 ^ 8) : (HashSet.new.addAll hs).check ↔ ¬ hs.Nodup := check_iff hs hn

example : (HashSet.new.addAll [1, 2, 1, 3, 1]).n = 5 ∧ (HashSet.new.addAll [1, 2, 1, 3, 1]).m.length = 3 := by decide
example : (HashSet.new.addAll [1, 2, 1]).check := (C75_check _ (by decide)).2 (by decide)
example : ¬ (HashSet.new.addAll [1, 2, 3]).check := fun h => (C75_check _ (by decide)).1 h (by decide)

/-- A set of different keys is reported exactly when two of them have the same hash. -/
theorem C75_checkKeys (H : List U8 → U64 → U64) (keys : List (List U8)) (hk : keys.Nodup) (hn : keys.length ≤ 2 * 10 ^ 8) :
    checkKeys H keys ↔ ∃ x ∈ keys, ∃ y ∈ keys, x ≠ y ∧ H x 0 = H y 0 := by
  unfold checkKeys
  rw [check_iff _ (by rw [List.length_map]; exact hn), not_nodup_map hk]
  rfl

/-- C75_checkKeys at work: the hash that returns the length merges `[1]` and `[2]`. -/
example : checkKeys (fun k _ => BitVec.ofNat 64 k.length) [[1], [2], [1, 2]] :=
  (C75_checkKeys _ _ (by decide) (by decide)).2 ⟨[1], by decide, [2], by decide, by decide, rfl⟩

/-! ## C71: sparse keys -/

theorem upto_sum (k m : Nat) : upto k m = ∑ j ∈ Finset.range (k + 1), m.choose j := by
  induction k with
  | zero => simp [upto]
  | succ k ih => rw [upto, ih, Finset.sum_range_succ _ (k + 1)]

theorem weight_eq (b : List U8) : weight b = wfrom b 0 := by
  unfold weight wfrom; rw [List.range_eq_range']; rfl

/-- C71, the recursion: on a buffer without set bits at `i` and above, `setbits` with budget `k` adds exactly the strings that agree with the
buffer below `i` and have at most `k` set bits from `i` on, each once, and leaves the buffer as it was. -/
theorem C71_setbits (k i : Nat) (b : List U8) (out : List (List U8)) (h : ∀ j, i ≤ j → bit b j = false) :
    ∃ keys, setbits k i (b, out) = .ok (b, out ++ keys) ∧ keys.Nodup ∧
      ∀ x, x ∈ keys ↔ x.length = b.length ∧ (∀ j, j < i → bit x j = bit b j) ∧ (List.range' i (8 * b.length - i)).countP (bit x) ≤ k := by
  refine ⟨subsets k i b, setbits_eq k i b out h, nodup_subsets k i b h, fun x => ?_⟩
  rw [mem_subsets k i b x h]
  constructor
  · rintro ⟨h1, h2, h3⟩; rw [← h1]; exact ⟨rfl, h2, h3⟩
  · rintro ⟨h1, h2, h3⟩; rw [← h1] at h3; exact ⟨h1, h2, h3⟩

/-- C71. The sparse test hashes exactly the `n/8`-byte keys with at most `k` set bits, each once, and leaves the buffer zero. -/
theorem C71_sparse (n k : Nat) :
    ∃ keys, sparse n k = .ok (List.replicate (n / 8) 0#8, keys) ∧ keys.Nodup ∧ (∀ x, x ∈ keys ↔ x.length = n / 8 ∧ weight x ≤ k) ∧
      keys.length = ∑ j ∈ Finset.range (k + 1), (8 * (n / 8)).choose j := by
  refine ⟨subsets k 0 (List.replicate (n / 8) 0#8), ?_, nodup_subsets _ _ _ (fun j _ => bit_zero _ j), fun x => ?_, ?_⟩
  · unfold sparse; rw [setbits_eq _ _ _ _ (fun j _ => bit_zero _ j)]; rfl
  · rw [mem_subsets _ _ _ _ (fun j _ => bit_zero _ j), weight_eq, List.length_replicate]
    constructor
    · rintro ⟨h1, _, h3⟩; exact ⟨h1, h3⟩
    · rintro ⟨h1, h3⟩; exact ⟨h1, by intro j hj; omega, h3⟩
  · rw [length_subsets, upto_sum]; simp

theorem choose_desc (n k : Nat) : n.choose k = n.descFactorial k / k.factorial := Nat.choose_eq_descFactorial_div_factorial n k

/-- C71. For the eight sizes the test runs, it reports exactly when two different keys with at most `k` set bits have the same hash. -/
theorem C71_reports (H : List U8 → U64 → U64) (p : Nat × Nat) (hp : p ∈ [(32, 6), (40, 6), (48, 5), (56, 5), (64, 5), (96, 4), (256, 3), (2048, 2)]) :
    p ∈ pairs ∧ pairs.length = 8 ∧ ∃ b keys, sparse p.1 p.2 = .ok (b, keys) ∧
      (checkKeys H keys ↔ ∃ x y : List U8, x.length = p.1 / 8 ∧ y.length = p.1 / 8 ∧ weight x ≤ p.2 ∧ weight y ≤ p.2 ∧ x ≠ y ∧ H x 0 = H y 0) := by
  obtain ⟨keys, h1, h2, h3, h4⟩ := C71_sparse p.1 p.2
  refine ⟨hp, rfl, _, keys, h1, ?_⟩
  rw [C75_checkKeys H keys h2]
  · constructor
    · rintro ⟨x, hx, y, hy, h5, h6⟩
      exact ⟨x, y, ((h3 x).1 hx).1, ((h3 y).1 hy).1, ((h3 x).1 hx).2, ((h3 y).1 hy).2, h5, h6⟩
    · rintro ⟨x, y, a, b, c, d, h5, h6⟩
      exact ⟨x, (h3 x).2 ⟨a, c⟩, y, (h3 y).2 ⟨b, d⟩, h5, h6⟩
  · rw [h4]
    have key : ∀ p ∈ pairs, ∑ j ∈ Finset.range (p.2 + 1), (8 * (p.1 / 8)).choose j ≤ 2 * 10 ^ 8 := by
      intro p hp
      simp only [choose_desc]
      revert p
      decide +kernel
    exact key p hp

example : weight [5#8, 128#8] = 3 := by decide
example : ∃ b keys, sparse 16 1 = .ok (b, keys) ∧ keys.length = 17 ∧ [0#8, 4#8] ∈ keys := by
  obtain ⟨keys, h1, _, h3, h4⟩ := C71_sparse 16 1
  exact ⟨_, keys, h1, by rw [h4]; decide, (h3 _).2 (by decide)⟩

/-! ## C72: at most two non-zero bytes -/

theorem length_twos (n : Nat) : (twos n).length = 255 ^ 2 * n.choose 2 := by
  unfold twos
  rw [List.length_flatMap]
  have h : ∀ i, ((List.range' 1 255).flatMap fun x => ones ((List.replicate n 0#8).set i (BitVec.ofNat 8 x)) (i + 1) (n - (i + 1))).length =
      255 ^ 2 * (n - (i + 1)) := by
    intro i
    rw [length_flatMap_const _ _ ((n - (i + 1)) * 255) (by intro a _; rw [length_ones]), List.length_range']
    generalize n - (i + 1) = m
    omega
  simp only [h]
  have e : (List.range n).map (fun i => 255 ^ 2 * (n - (i + 1))) = ((List.range n).map fun i => 255 ^ 2 * i).reverse := by
    apply List.ext_getElem (by simp)
    intro i h1 h2
    simp at h1
    simp
    omega
  rw [e, List.sum_reverse]
  induction n with
  | zero => rfl
  | succ n ih =>
    rw [List.range_succ, List.map_append, List.sum_append, ih (by
      intro i
      rw [length_flatMap_const _ _ ((n - (i + 1)) * 255) (by intro a _; rw [length_ones]), List.length_range']
      generalize n - (i + 1) = m
      omega) (by
      apply List.ext_getElem (by simp)
      intro i h1 h2
      simp at h1
      simp
      omega), Nat.choose_succ_succ n 1, Nat.choose_one_right]
    simp
    omega

/-- C72. `twoNonZero(h, n)` hashes exactly the `n`-byte strings with at most two non-zero bytes, each once, and leaves the buffer zero. -/
theorem C72_twoNonZero (n : Nat) :
    ∃ keys, twoNonZero n = .ok (List.replicate n 0#8, keys) ∧ keys.Nodup ∧ (∀ x, x ∈ keys ↔ x.length = n ∧ nonZeroBytes x ≤ 2) ∧
      keys.length = 1 + 255 * n + 255 ^ 2 * n.choose 2 :=
  ⟨_, twoNonZero_eq n, nodup_upto2 n, mem_upto2 n, by
    rw [List.length_cons, List.length_append, length_ones, length_twos]; omega⟩

/-- C72. The test puts the strings of 2 to 16 bytes with at most two non-zero bytes into one set, each once. -/
theorem C72_all :
    ∃ keys, twoNonZeroAll = .ok keys ∧ keys.Nodup ∧ (∀ x, x ∈ keys ↔ 2 ≤ x.length ∧ x.length ≤ 16 ∧ nonZeroBytes x ≤ 2) ∧
      keys.length = ∑ n ∈ Finset.Icc 2 16, (1 + 255 * n + 255 ^ 2 * n.choose 2) ∧ keys.length ≤ 2 * 10 ^ 8 := by
  unfold twoNonZeroAll
  obtain ⟨keys, h1, h2, h3, h4⟩ := forRange_inv
    (fun n (keys : List (List U8)) => keys.Nodup ∧ (∀ x, x ∈ keys ↔ 2 ≤ x.length ∧ x.length < n ∧ nonZeroBytes x ≤ 2) ∧
      keys.length = ∑ m ∈ Finset.Ico 2 n, (1 + 255 * m + 255 ^ 2 * m.choose 2)) 2 15
    (body := fun n out => do
      let q ← twoNonZero n
      return out ++ q.2)
    (by
      rintro n out h1 h2 ⟨hn, hm, hl⟩
      obtain ⟨keys, h3, h4, h5, h6⟩ := C72_twoNonZero n
      refine ⟨out ++ keys, ?_, ?_, ?_, ?_⟩
      · rw [h3, Go.bind_ok, Go.pure_ok]
      · rw [List.nodup_append]
        refine ⟨hn, h4, ?_⟩
        intro a ha b hb e
        have := (hm a).1 ha
        have := (h5 b).1 hb
        rw [e] at *; omega
      · intro x
        rw [List.mem_append, hm, h5]
        omega
      · rw [List.length_append, Finset.sum_Ico_succ_top (by omega), h6, hl])
    [] ⟨by simp, by intro x; simp; omega, by simp⟩
  have h5 : keys.length = ∑ n ∈ Finset.Icc 2 16, (1 + 255 * n + 255 ^ 2 * n.choose 2) := by
    rw [h4]; exact Finset.sum_congr (by ext; simp; omega) fun _ _ => rfl
  refine ⟨keys, h1, h2, fun x => ?_, h5, Nat.le_trans (Nat.le_of_eq h5) (by simp only [choose_desc]; decide +kernel)⟩
  rw [h3]; omega

/-- C72. The test reports exactly when two different such strings, of the same or of different length, have the same hash. -/
theorem C72_reports (H : List U8 → U64 → U64) :
    ∃ keys, twoNonZeroAll = .ok keys ∧
      (checkKeys H keys ↔ ∃ x y : List U8, (2 ≤ x.length ∧ x.length ≤ 16 ∧ nonZeroBytes x ≤ 2) ∧ (2 ≤ y.length ∧ y.length ≤ 16 ∧ nonZeroBytes y ≤ 2) ∧
        x ≠ y ∧ H x 0 = H y 0) := by
  obtain ⟨keys, h1, h2, h3, _, h4⟩ := C72_all
  refine ⟨keys, h1, ?_⟩
  rw [C75_checkKeys H keys h2 h4]
  constructor
  · rintro ⟨x, hx, y, hy, h5, h6⟩; exact ⟨x, y, (h3 x).1 hx, (h3 y).1 hy, h5, h6⟩
  · rintro ⟨x, y, a, b, h5, h6⟩; exact ⟨x, (h3 x).2 a, y, (h3 y).2 b, h5, h6⟩

example : ∃ b keys, twoNonZero 3 = .ok (b, keys) ∧ [7#8, 0#8, 9#8] ∈ keys ∧ [7#8, 1#8, 9#8] ∉ keys := by
  obtain ⟨keys, h1, _, h3, _⟩ := C72_twoNonZero 3
  exact ⟨_, keys, h1, (h3 _).2 (by decide), fun h => absurd ((h3 _).1 h) (by decide)⟩

/-! ## C73: block combinations -/

/-- C73. The permutation test hashes exactly the strings made of at most `n` blocks of four little-endian bytes drawn from `s`, each once if `s` has no repeats. -/
theorem C73_permutation (s : List U32) (n : Nat) :
    ∃ b keys, permutation s n = .ok (b, keys) ∧ (∀ x, x ∈ keys ↔ ∃ w : List U32, w.length ≤ n ∧ (∀ v ∈ w, v ∈ s) ∧ x = blockBytes w) ∧
      (s.Nodup → keys.Nodup) ∧ keys.length = ∑ j ∈ Finset.range (n + 1), s.length ^ j := by
  obtain ⟨r, h1, hr⟩ := genPerm_eq s n (n * 4 + 1) (by omega) [] (List.replicate (n * 4) 0#8) (by simp; omega) []
  refine ⟨_, _, h1, fun x => ?_, fun hs => ?_, ?_⟩
  · simp only [List.nil_append, List.mem_map, mem_seqs]
    constructor
    · rintro ⟨w, ⟨h1, h2⟩, rfl⟩; exact ⟨w, h1, h2, rfl⟩
    · rintro ⟨w, h1, h2, rfl⟩; exact ⟨w, ⟨h1, h2⟩, rfl⟩
  · simp only [List.nil_append]
    exact (nodup_seqs hs n).map blockBytes_inj
  · simp only [List.nil_append, List.length_map]
    clear h1 hr
    induction n with
    | zero => simp [seqs]
    | succ n ih =>
      rw [length_seqs, ih, Finset.sum_range_succ' _ (n + 1), Finset.mul_sum]
      simp only [Nat.pow_succ, Nat.pow_zero, Nat.mul_comm]
      omega

/-- C73. For the five sets the test runs, it computes a report exactly when two different combinations have the same hash. -/
theorem C73_reports (H : List U8 → U64 → U64) (p : Nat × List U32)
    (hp : p ∈ [(8, (List.range 8).map (BitVec.ofNat 32)), (8, (List.range 8).map fun i => BitVec.ofNat 32 (i * 2 ^ 29)), (20, [0#32, 1#32]),
      (20, [0#32, BitVec.ofNat 32 (2 ^ 31)]), (6, (List.range 8).map (BitVec.ofNat 32) ++ (List.range 7).map fun i => BitVec.ofNat 32 ((i + 1) * 2 ^ 29))]) :
    p ∈ Permutations ∧ Permutations.length = 5 ∧ ∃ b keys, permutation p.2 p.1 = .ok (b, keys) ∧
      (checkKeys H keys ↔ ∃ v w : List U32, (v.length ≤ p.1 ∧ ∀ u ∈ v, u ∈ p.2) ∧ (w.length ≤ p.1 ∧ ∀ u ∈ w, u ∈ p.2) ∧ v ≠ w ∧
        H (blockBytes v) 0 = H (blockBytes w) 0) := by
  have hp : p ∈ Permutations := hp
  obtain ⟨b, keys, h1, h2, h3, h4⟩ := C73_permutation p.2 p.1
  refine ⟨hp, rfl, b, keys, h1, ?_⟩
  have hn : ∀ p ∈ Permutations, p.2.Nodup := by decide
  have hl : ∀ p ∈ Permutations, ∑ j ∈ Finset.range (p.1 + 1), p.2.length ^ j ≤ 2 * 10 ^ 8 := by decide +kernel
  rw [C75_checkKeys H keys (h3 (hn p hp)) (by rw [h4]; exact hl p hp)]
  constructor
  · rintro ⟨x, hx, y, hy, h5, h6⟩
    obtain ⟨v, v1, v2, rfl⟩ := (h2 x).1 hx
    obtain ⟨w, w1, w2, rfl⟩ := (h2 y).1 hy
    exact ⟨v, w, ⟨v1, v2⟩, ⟨w1, w2⟩, fun e => h5 (by rw [e]), h6⟩
  · rintro ⟨v, w, ⟨v1, v2⟩, ⟨w1, w2⟩, h5, h6⟩
    exact ⟨_, (h2 _).2 ⟨v, v1, v2, rfl⟩, _, (h2 _).2 ⟨w, w1, w2, rfl⟩, fun e => h5 (blockBytes_inj e), h6⟩

example : ∃ b keys, permutation [1, 0x80000000] 2 = .ok (b, keys) ∧ keys.length = 7 ∧ [0#8, 0#8, 0#8, 128#8, 1#8, 0#8, 0#8, 0#8] ∈ keys := by
  obtain ⟨b, keys, h1, h2, _, h4⟩ := C73_permutation [1, 0x80000000] 2
  exact ⟨b, keys, h1, by rw [h4]; rfl, (h2 _).2 ⟨[0x80000000, 1], by decide, by simp, by decide +kernel⟩⟩

/-! ## C74: integer, string and byte keys -/

/-- C74. Integers are hashed as their little-endian bytes and strings as their bytes, whatever the hash function. -/
theorem C74_hash (H : List U8 → U64 → U64) (seed : U64) :
    (∀ i : U32, Int32Hash H i seed = BytesHash H (leBytes 4 i.toNat) seed) ∧ (∀ i : U64, Int64Hash H i seed = BytesHash H (leBytes 8 i.toNat) seed) ∧
      ∀ s : List U8, StringHash H s seed = BytesHash H s seed := by
  refine ⟨fun i => Int32Hash_eq H i seed, fun i => Int64Hash_eq H i seed, fun s => ?_⟩
  unfold StringHash BytesHash
  simp

/-- C74. `flipBit(i)` inverts bit `i` of the key's little-endian bytes and no other, for the three kinds of key alike; doing it twice restores the key;
and the key is hashed as those bytes. -/
theorem C74_flipBit (H : List U8 → U64 → U64) (k : Key) (i : Nat) (hi : i < k.bits) :
    ∃ k', k.flipBit i = .ok k' ∧ keyBytes k' = flipped (keyBytes k) i ∧ (∀ j, bit (keyBytes k') j = (bit (keyBytes k) j ^^ decide (j = i))) ∧
      k'.flipBit i = .ok k ∧ k'.bits = k.bits ∧ k.hash H = H (keyBytes k) 0 ∧ k'.hash H = H (flipped (keyBytes k) i) 0 := by
  obtain ⟨k', h1, h2, h3⟩ := flipBit_eq k i hi
  refine ⟨k', h1, h3, fun j => ?_, flipBit_flipBit k i hi h1, (clear_length h2).2, hash_keyBytes H k, ?_⟩
  · rw [h3, bit_flipped _ _ _ (by rw [keyBytes_length]; exact hi)]
  · rw [hash_keyBytes, h3]

example : (Key.int32 0x01020304).flipBit 9 = .ok (.int32 0x01020104) ∧ keyBytes (.int32 0x01020304) = [4#8, 3#8, 2#8, 1#8] := by decide
example : (Key.bytes [4, 3]).flipBit 9 = .ok (.bytes [4, 1]) := by decide
/-- A byte key has no bit beyond its end. -/
example : (Key.bytes [4, 3]).flipBit 16 = .error .index := by decide

/-! ## C85: small keys -/

/-- C85. `TestSmhasherSmallKeys` hashes exactly the strings of one to three bytes, each once. -/
theorem C85_smallKeys : ∃ b keys, smallKeys = .ok (b, keys) ∧ keys.Nodup ∧ (∀ x, x ∈ keys ↔ 1 ≤ x.length ∧ x.length ≤ 3) ∧ keys.length = 16843008 := by
  obtain ⟨b, h⟩ := smallKeys_eq
  exact ⟨b, _, h, nodup_small 256 (by omega), mem_small, by rw [length_small]⟩

/-- C85. The test reports exactly when two different strings of one to three bytes have the same hash. -/
theorem C85_reports (H : List U8 → U64 → U64) :
    ∃ b keys, smallKeys = .ok (b, keys) ∧
      (checkKeys H keys ↔ ∃ x y : List U8, (1 ≤ x.length ∧ x.length ≤ 3) ∧ (1 ≤ y.length ∧ y.length ≤ 3) ∧ x ≠ y ∧ H x 0 = H y 0) := by
  obtain ⟨b, keys, h1, h2, h3, h4⟩ := C85_smallKeys
  refine ⟨b, keys, h1, ?_⟩
  rw [C75_checkKeys H keys h2 (by rw [h4]; norm_num)]
  constructor
  · rintro ⟨x, hx, y, hy, h5, h6⟩; exact ⟨x, y, (h3 x).1 hx, (h3 y).1 hy, h5, h6⟩
  · rintro ⟨x, y, a, b, h5, h6⟩; exact ⟨x, (h3 x).2 a, y, (h3 y).2 b, h5, h6⟩

/-- C85. The comment "all 0-3 byte strings" is refuted: the empty string is not hashed. -/
theorem C85_empty_violated : ∃ b keys, smallKeys = .ok (b, keys) ∧ [] ∉ keys := by
  obtain ⟨b, keys, h1, _, h3, _⟩ := C85_smallKeys
  exact ⟨b, keys, h1, fun h => absurd ((h3 _).1 h) (by decide)⟩

/-! ## C86: appended zeros -/

/-- C86. `TestSmhasherAppendedZeros` hashes exactly the prefixes of "hello" followed by 256 zeros, each once; `TestSmhasherZeros` would hash exactly the
strings of at most `N` zeros, each once. -/
theorem C86_prefixes (N : Nat) :
    (∃ b keys, appendedZeros = .ok (b, keys) ∧ keys.Nodup ∧ (∀ x, x ∈ keys ↔ x <+: [104#8, 101#8, 108#8, 108#8, 111#8] ++ List.replicate 256 0#8) ∧
      keys.length = 262) ∧
    ∃ b keys, zeros N = .ok (b, keys) ∧ keys.Nodup ∧ (∀ x, x ∈ keys ↔ ∃ n, n ≤ N ∧ x = List.replicate n 0#8) ∧ keys.length = N + 1 := by
  constructor
  · unfold appendedZeros
    dsimp only
    generalize hs : [104#8, 101#8, 108#8, 108#8, 111#8] ++ List.replicate 256 0#8 = s
    have hl : s.length = 261 := by rw [← hs, List.length_append, List.length_replicate]; rfl
    exact ⟨_, _, prefixes_eq s, nodup_prefixes s, mem_prefixes s, by rw [List.length_map, List.length_range, hl]⟩
  · have h := prefixes_eq (List.replicate N 0#8)
    have h2 := nodup_prefixes (List.replicate N 0#8)
    have h3 := mem_prefixes (List.replicate N 0#8)
    rw [List.length_replicate] at h h2 h3
    refine ⟨_, _, h, h2, fun x => ?_, by simp⟩
    rw [h3]
    constructor
    · intro hp
      refine ⟨x.length, by have := hp.length_le; simpa using this, ?_⟩
      obtain ⟨t, ht⟩ := hp
      exact (List.append_eq_replicate_iff.1 ht).2.1
    · rintro ⟨n, hn, rfl⟩
      exact ⟨List.replicate (N - n) 0#8, by rw [List.replicate_append_replicate]; congr 1; omega⟩

/-- C86. The appended-zeros test reports exactly when two different such prefixes have the same hash. -/
theorem C86_reports (H : List U8 → U64 → U64) :
    ∃ b keys, appendedZeros = .ok (b, keys) ∧
      (checkKeys H keys ↔ ∃ x y : List U8, x <+: [104#8, 101#8, 108#8, 108#8, 111#8] ++ List.replicate 256 0#8 ∧
        y <+: [104#8, 101#8, 108#8, 108#8, 111#8] ++ List.replicate 256 0#8 ∧ x ≠ y ∧ H x 0 = H y 0) := by
  obtain ⟨⟨b, keys, h1, h2, h3, h4⟩, _⟩ := C86_prefixes 0
  refine ⟨b, keys, h1, ?_⟩
  rw [C75_checkKeys H keys h2 (by rw [h4]; norm_num)]
  constructor
  · rintro ⟨x, hx, y, hy, h5, h6⟩; exact ⟨x, y, (h3 x).1 hx, (h3 y).1 hy, h5, h6⟩
  · rintro ⟨x, y, a, b, h5, h6⟩; exact ⟨x, (h3 x).2 a, y, (h3 y).2 b, h5, h6⟩

/-- C86. The all-zeros test is in no entry of the table of tests; two entries run a test other than the one they name. -/
theorem C86_zeros_never_run :
    (∀ e ∈ tests, e.1 ≠ TestFn.Zeros) ∧ tests.filter (fun e => e.1 ≠ e.2) = [(TestFn.TwoNonzero, TestFn.SmallKeys), (TestFn.SmallKeys, TestFn.Zeros)] := by
  decide

/-! ## C87: text keys -/

/-- C87. The text test hashes exactly the strings prefix, four of the letters, suffix, each once when no letter is repeated; the fifty letters of the code are
different, so there are 50^4 keys. -/
theorem C87_text (S pre suf : List U8) :
    ∃ b keys, text S pre suf = .ok (b, keys) ∧ (S.Nodup → keys.Nodup) ∧
      (∀ x, x ∈ keys ↔ ∃ w : List U8, w.length = 4 ∧ (∀ v ∈ w, v ∈ S) ∧ x = pre ++ w ++ suf) ∧ keys.length = S.length ^ 4 := by
  obtain ⟨b, h⟩ := text_eq S pre suf
  refine ⟨b, _, h, fun hS => nodup_textKeys hS pre suf, mem_textKeys S pre suf, ?_⟩
  rw [length_textKeys]
  simp only [Nat.pow_succ, Nat.pow_zero, Nat.one_mul, Nat.mul_assoc]

/-- C87. With the letters of the code it computes a report exactly when two different such strings have the same hash. -/
theorem C87_reports (H : List U8 → U64 → U64) (pre suf : List U8) :
    ∃ b keys, text textS pre suf = .ok (b, keys) ∧ keys.length = 6250000 ∧
      (checkKeys H keys ↔ ∃ v w : List U8, (v.length = 4 ∧ ∀ u ∈ v, u ∈ textS) ∧ (w.length = 4 ∧ ∀ u ∈ w, u ∈ textS) ∧ v ≠ w ∧
        H (pre ++ v ++ suf) 0 = H (pre ++ w ++ suf) 0) := by
  obtain ⟨b, keys, h1, h2, h3, h4⟩ := C87_text textS pre suf
  refine ⟨b, keys, h1, by rw [h4]; decide, ?_⟩
  rw [C75_checkKeys H keys (h2 (by decide)) (by rw [h4]; decide +kernel)]
  constructor
  · rintro ⟨x, hx, y, hy, h5, h6⟩
    obtain ⟨v, v1, v2, rfl⟩ := (h3 x).1 hx
    obtain ⟨w, w1, w2, rfl⟩ := (h3 y).1 hy
    exact ⟨v, w, ⟨v1, v2⟩, ⟨w1, w2⟩, fun e => h5 (by rw [e]), h6⟩
  · rintro ⟨v, w, ⟨v1, v2⟩, ⟨w1, w2⟩, h5, h6⟩
    exact ⟨_, (h3 _).2 ⟨v, v1, v2, rfl⟩, _, (h3 _).2 ⟨w, w1, w2, rfl⟩, fun e => h5 (List.append_cancel_left (List.append_cancel_right e)), h6⟩

/-- C87. The comment "prefix + [A-Za-z0-9]*N + suffix" is refuted: a key with the letter `Z` (or any of U-Z, u-z) in it is not hashed; exactly the fifty letters A-T, a-t
and 0-9 are used. -/
theorem C87_letters_violated :
    (∀ v : U8, v ∈ textS ↔ (65 ≤ v.toNat ∧ v.toNat ≤ 84) ∨ (97 ≤ v.toNat ∧ v.toNat ≤ 116) ∨ (48 ≤ v.toNat ∧ v.toNat ≤ 57)) ∧
      ∃ b keys, text textS [] [] = .ok (b, keys) ∧ [65#8, 65#8, 65#8, 90#8] ∉ keys := by
  refine ⟨by decide +kernel, ?_⟩
  obtain ⟨b, keys, h1, _, h3, _⟩ := C87_text textS [] []
  refine ⟨b, keys, h1, fun h => ?_⟩
  obtain ⟨w, _, h5, h6⟩ := (h3 _).1 h
  simp at h6
  subst h6
  exact absurd (h5 90#8 (by simp)) (by decide)

example : ∃ b keys, text textS [70] [66] = .ok (b, keys) ∧ [70#8, 65#8, 116#8, 57#8, 48#8, 66#8] ∈ keys := by
  obtain ⟨b, keys, h1, _, h3, _⟩ := C87_text textS [70] [66]
  exact ⟨b, keys, h1, (h3 _).2 ⟨[65, 116, 57, 48], rfl, by decide, rfl⟩⟩

/-! ## C88: cyclic keys -/

/-- C88. For a period of at least four bytes the cyclic test hashes one key per iteration, of eight periods, each byte equal to the one a period earlier, and whatever
the random bytes are the keys of the first 657101183 iterations (the test makes a million) are all different. A shorter period panics. -/
theorem C88_cyclic (N n : Nat) (rnd : Nat → Nat → U8) :
    (4 ≤ n → ∃ b keys, cyclic N n rnd = .ok (b, keys) ∧ keys.length = N ∧
      (∀ x ∈ keys, x.length = 8 * n ∧ ∀ p, p < 8 * n → x[p]? = x[p % n]?) ∧ (N ≤ 97 * 137 * 197 * 251 → keys.Nodup)) ∧
    (n < 4 → cyclic N n rnd = .error .slice) := by
  constructor
  · intro hn
    obtain ⟨b, h⟩ := cyclic_eq hn N rnd
    refine ⟨b, _, h, by simp, ?_, ?_⟩
    · intro x hx
      obtain ⟨i, _, rfl⟩ := List.mem_map.1 hx
      refine ⟨tab_length _ _, fun p hp => ?_⟩
      rw [cycKey, tab_getElem? _ hp, tab_getElem? _ (by have := Nat.mod_lt p (show n > 0 by omega); omega), Nat.mod_mod]
    · intro hN
      rw [show 97 * 137 * 197 * 251 = 657101183 by norm_num] at hN
      rw [List.nodup_map_iff_inj_on List.nodup_range]
      intro i hi j hj h
      rw [List.mem_range] at hi hj
      rcases Nat.lt_trichotomy i j with hlt | heq | hlt
      · exact absurd h (cycKey_inj hn rnd hlt (Nat.lt_of_lt_of_le hj hN))
      · exact heq
      · exact absurd h.symm (cycKey_inj hn rnd hlt (Nat.lt_of_lt_of_le hi hN))
  · intro hn
    unfold cyclic
    rw [if_neg (by omega)]

/-- C88. For each of the periods 4 to 12 of the test and its million iterations, it reports exactly when two of the (different) keys have the same hash. -/
theorem C88_reports (H : List U8 → U64 → U64) (n : Nat) (hn : 4 ≤ n) (rnd : Nat → Nat → U8) :
    ∃ b keys, cyclic 1000000 n rnd = .ok (b, keys) ∧ (checkKeys H keys ↔ ∃ x ∈ keys, ∃ y ∈ keys, x ≠ y ∧ H x 0 = H y 0) := by
  obtain ⟨b, keys, h1, h2, _, h4⟩ := (C88_cyclic 1000000 n rnd).1 hn
  exact ⟨b, keys, h1, C75_checkKeys H keys (h4 (by norm_num)) (by rw [h2]; norm_num)⟩

example : ∃ b, cyclic 2 4 (fun _ _ => 0) = .ok (b, [List.replicate 32 0#8, (List.replicate 8 [79#8, 43#8, 151#8, 199#8]).flatten]) := ⟨_, rfl⟩

/-! ## C89: windows -/

/-- C89. For a key of at least 16 bits, the windowed test makes one set per bit position `r`, of 2^16 different keys: exactly the keys of that size whose set bits all lie among the
16 positions from `r` on, counted modulo the key size. It computes a report for a position exactly when two of these keys have the same hash. -/
theorem C89_windowed (H : List U8 → U64 → U64) (k : Key) (hk : 16 ≤ k.bits) :
    ∃ k' sets, windowed k = .ok (k', sets) ∧ sets.length = k.bits ∧ ∀ r, r < k.bits → ∃ keys : List Key, sets[r]? = some keys ∧ keys.Nodup ∧ keys.length = 2 ^ 16 ∧
      (∀ x, x ∈ keys ↔ x.clear = k.clear ∧ ∀ p, bit (keyBytes x) p = true → inWindow k.bits r p) ∧
      ((HashSet.new.addAll (keys.map fun x => x.hash H)).check ↔ ∃ x ∈ keys, ∃ y ∈ keys, x ≠ y ∧ H (keyBytes x) 0 = H (keyBytes y) 0) := by
  have one : ∀ r (s : Key), s.clear = k.clear → ∃ s' keys, window r s = .ok (s', keys) ∧ s'.clear = k.clear ∧ keys.Nodup ∧ keys.length = 2 ^ 16 ∧
      (∀ x, x ∈ keys ↔ x.clear = k.clear ∧ ∀ p, bit (keyBytes x) p = true → inWindow k.bits r p) := by
    intro r s hs
    obtain ⟨k', f, h1, h2, h3⟩ := window_eq s (by rw [(clear_length hs).2]; exact hk) r
    rw [(clear_length hs).2, hs] at h3
    refine ⟨k', _, h1, h2.trans hs, ?_, by rw [List.length_map, List.length_range], fun x => ?_⟩
    · rw [List.nodup_map_iff_inj_on List.nodup_range]
      intro i hi j hj h
      rw [List.mem_range] at hi hj
      exact window_inj hk h3 hi hj h
    · rw [List.mem_map]
      constructor
      · rintro ⟨i, _, rfl⟩
        refine ⟨(h3 i).1, fun p hp => ?_⟩
        obtain ⟨t, h4, _, h5⟩ := ((h3 i).2 p).1 hp
        exact ⟨t, h4, h5⟩
      · rintro ⟨hc, hp⟩
        obtain ⟨i, h4, h5⟩ := exists_bits (fun t => bit (keyBytes x) ((t + r) % k.bits))
        refine ⟨i, List.mem_range.2 h4, ?_⟩
        apply keyBytes_inj ((h3 i).1.trans hc.symm)
        apply bit_ext ((clear_length ((h3 i).1.trans hc.symm)).1)
        intro p _
        rw [Bool.eq_iff_iff, (h3 i).2]
        constructor
        · rintro ⟨t, h6, h7, rfl⟩
          rw [h5 t h6] at h7; exact h7
        · intro h6
          obtain ⟨t, h7, h8⟩ := hp p h6
          exact ⟨t, h7, by rw [h5 t h7, ← h8]; exact h6, h8⟩
  unfold windowed
  obtain ⟨q, h1, h2, h3, h4⟩ := forRange_inv
    (fun m (q : Key × List (List Key)) => q.1.clear = k.clear ∧ q.2.length = m ∧ ∀ r, r < m → ∃ keys : List Key, q.2[r]? = some keys ∧ keys.Nodup ∧ keys.length = 2 ^ 16 ∧
      (∀ x, x ∈ keys ↔ x.clear = k.clear ∧ ∀ p, bit (keyBytes x) p = true → inWindow k.bits r p)) 0 k.bits
    (body := fun r q => do
      let w ← window r q.1
      return (w.1, q.2 ++ [w.2]))
    (by
      rintro r ⟨s, sets⟩ _ _ ⟨h1, h2, h3⟩
      obtain ⟨s', keys, h4, h5, h6⟩ := one r s h1
      refine ⟨(s', sets ++ [keys]), ?_, h5, by simpa using h2, fun r' hr' => ?_⟩
      · rw [h4, Go.bind_ok, Go.pure_ok]
      · simp only at h2
        rcases Nat.lt_or_ge r' r with h | h
        · obtain ⟨keys', h7, h8⟩ := h3 r' h
          exact ⟨keys', by rw [List.getElem?_append_left (by omega)]; exact h7, h8⟩
        · obtain rfl : r' = r := by omega
          refine ⟨keys, ?_, h6⟩
          rw [List.getElem?_append_right (by omega)]; simp [h2])
    (k, []) ⟨rfl, rfl, by intro r hr; omega⟩
  refine ⟨q.1, q.2, h1, by rw [h3]; omega, fun r hr => ?_⟩
  obtain ⟨keys, h5, h6, h7, h8⟩ := h4 r (by omega)
  refine ⟨keys, h5, h6, h7, h8, ?_⟩
  rw [check_iff _ (by rw [List.length_map, h7]; norm_num), not_nodup_map h6]
  simp only [hash_keyBytes]

example : (Key.int32 5).bits = 32 ∧ (Key.int32 0x80000001).clear = (Key.int32 5).clear ∧ inWindow 32 31 0 ∧ inWindow 32 31 31 :=
  ⟨rfl, rfl, ⟨1, by decide, by decide⟩, ⟨0, by decide, by decide⟩⟩

/-! ## C90: avalanche counts -/

/-- C90. After any sequence of random keys of `n` bits, entry (i, j) of the grid is the number of keys for which inverting bit `i` of the key changes bit `j` of the hash; no index is
out of range, and each key is back to what it was before the next bit is tried. -/
theorem C90_avalanche (H : List U8 → U64 → U64) (n : Nat) (ks : List Key) (hk : ∀ k ∈ ks, k.bits = n) :
    ∃ grid, avalanche H n ks = .ok grid ∧ grid.length = n ∧ ∀ i, i < n → ∃ row : List Nat, grid[i]? = some row ∧ row.length = 64 ∧
      ∀ j, j < 64 → row[j]? = some (ks.countP fun k => (H (keyBytes k) 0).getLsbD j ≠ (H (flipped (keyBytes k) i) 0).getLsbD j) := by
  refine ⟨_, avalanche_eq H n ks hk, tab_length _ _, fun i hi => ⟨_, tab_getElem? _ hi, tab_length _ _, fun j hj => ?_⟩⟩
  rw [tab_getElem? _ hj]
  congr 1
  dsimp only
  congr 1
  funext k
  rw [affects, BitVec.getLsbD_xor]
  cases BitVec.getLsbD (H (keyBytes k) 0) j <;> cases BitVec.getLsbD (H (flipped (keyBytes k) i) 0) j <;> rfl

/-- For a hash that only sees the first byte's lowest bit, flipping bit 0 changes output bit 0 in every round and flipping another bit changes nothing. -/
example : ∃ grid, avalanche (fun b _ => (b.getD 0 0 &&& 1).setWidth 64) 8 [.bytes [3], .bytes [4]] = .ok grid ∧
    grid.map (·.take 2) = [[2, 0], [0, 0], [0, 0], [0, 0], [0, 0], [0, 0], [0, 0], [0, 0]] := ⟨_, rfl, by decide +kernel⟩

/-! ## C91: sanity and seeds -/

/-- C91. In every iteration of the sanity test (any random arrays of 176 bytes, any key length below 128, any offset below 16) the slices are in range and the two keys compared
have the same bytes, so a hash that is a function of the bytes of its key and the seed is never reported. -/
theorem C91_sanity (H : List U8 → U64 → U64) (b c : List U8) (hb : b.length = 176) (hc : c.length = 176) (n i : Nat) (hn : n < 128) (hi : i < 16) :
    ∃ x, sanityStep b c n i = .ok (x, x) ∧ x = (b.drop 16).take n ∧ x.length = n ∧ ∀ p, sanityStep b c n i = .ok p → BytesHash H p.1 0 = BytesHash H p.2 0 := by
  have h : sanityStep b c n i = .ok ((b.drop 16).take n, (b.drop 16).take n) := by
    unfold sanityStep
    rw [Go.slice, if_pos ⟨by omega, by omega⟩, Go.bind_ok, Go.slice, if_pos ⟨by omega, by omega⟩, Go.bind_ok]
    dsimp only
    rw [Go.bind_ok, Go.slice, if_pos ⟨by omega, by simp; omega⟩, Go.bind_ok, Go.pure_ok]
    have e : (b.take (16 + n)).drop 16 = (b.drop 16).take n := by rw [List.drop_take]; congr 1; omega
    have l1 : (c.take (16 + i)).length = 16 + i := by simp; omega
    have l2 : ((b.drop 16).take n).length = n := by simp; omega
    rw [e]
    congr 2
    rw [List.append_assoc, List.drop_take, List.drop_left' l1, List.take_left' (by rw [l2]; omega)]
  refine ⟨_, h, rfl, by simp; omega, fun p hp => ?_⟩
  rw [h] at hp
  obtain rfl := Except.ok.inj hp
  rfl

/-- C91. The seed test reports exactly when two of the seeds below `N` (100000 in the test) give "hello" the same hash; so it reports for every hash function that ignores its seed. -/
theorem C91_seeds (H : List U8 → U64 → U64) (N : Nat) (hN : N ≤ 100000) :
    ((seedTest H N).check ↔ ∃ i j : Nat, i < j ∧ j < N ∧
      H [104#8, 101#8, 108#8, 108#8, 111#8] (BitVec.ofNat 64 i) = H [104#8, 101#8, 108#8, 108#8, 111#8] (BitVec.ofNat 64 j)) ∧
    ((∀ b s t, H b s = H b t) → 2 ≤ N → (seedTest H N).check) := by
  have h : (seedTest H N).check ↔ ∃ i j : Nat, i < j ∧ j < N ∧
      H [104#8, 101#8, 108#8, 108#8, 111#8] (BitVec.ofNat 64 i) = H [104#8, 101#8, 108#8, 108#8, 111#8] (BitVec.ofNat 64 j) := by
    have e : seedTest H N = HashSet.new.addAll ((List.range N).map fun i => StringHash H [104#8, 101#8, 108#8, 108#8, 111#8] (BitVec.ofNat 64 i)) := by
      unfold seedTest HashSet.addAll
      rw [List.foldl_map]
    rw [e, check_iff _ (by rw [List.length_map, List.length_range]; omega), not_nodup_map List.nodup_range]
    simp only [List.mem_range]
    constructor
    · rintro ⟨i, hi, j, hj, hne, heq⟩
      rcases Nat.lt_or_gt_of_ne hne with hlt | hlt
      · exact ⟨i, j, hlt, hj, heq⟩
      · exact ⟨j, i, hlt, hi, heq.symm⟩
    · rintro ⟨i, j, hlt, hj, heq⟩
      exact ⟨i, by omega, j, hj, by omega, heq⟩
  exact ⟨h, fun hs h2 => h.2 ⟨0, 1, by omega, by omega, hs _ _ _⟩⟩

example : ¬ (seedTest (fun _ s => s) 100).check := fun h => by
  obtain ⟨i, j, h1, h2, h3⟩ := (C91_seeds (fun _ s => s) 100 (by omega)).1.1 h
  have := congrArg BitVec.toNat h3
  simp at this; omega

end Verif.Props
