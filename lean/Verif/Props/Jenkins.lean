import Verif.Lemmas.Jenkins3
import Verif.Lemmas.Murmur3

/-! # Properties of package jenkins (C27-C39) -/

namespace Verif.Props
open Verif Verif.Model.Jenkins Verif.Lemmas.Jenkins
open Function (Bijective)

/-! ## C27, C28: mixers -/

/-- C27. Every mixer is a bijection of its three-word state. -/
theorem C27_mixers_bijective :
    Bijective mix32 ∧ Bijective mix64 ∧ Bijective mix64alt ∧ Bijective mix1 ∧ Bijective mix2 ∧
    Bijective final1 ∧ Bijective final2 :=
  ⟨bijective_of_injective mix32_inj, bijective_of_injective mix64_inj, bijective_of_injective mix64alt_inj,
   bijective_of_injective mix1_inj, bijective_of_injective mix2_inj, bijective_of_injective final1_inj,
   bijective_of_injective final2_inj⟩

/-- The three words of a state as a tuple. -/
def tuple (s : S3 w) : BitVec w × BitVec w × BitVec w := (s.a, s.b, s.c)

/-- C27. The mixers are the published ones (written as step lists in `Spec.Jenkins`). -/
theorem C27_mixers_are_published (s : S3 32) (t : S3 64) :
    tuple (mix32 s) = Spec.Jenkins.mix32 (tuple s) ∧ tuple (mix64 t) = Spec.Jenkins.mix64 (tuple t) ∧
    tuple (mix2 (mix1 s)) = Spec.Jenkins.mix (tuple s) ∧ tuple (final2 (final1 s)) = Spec.Jenkins.final (tuple s) :=
  ⟨(mix32_spec s).symm, (mix64_spec t).symm, (mix_spec s).symm, (final_spec s).symm⟩

/-- C28. `mix32a` is `mix32`, and the six inlinable pieces compose to `mix64alt`. -/
theorem C28_restatements (s : S3 32) (t : S3 64) :
    mix32a s = mix32 s ∧ mix64f (mix64e (mix64d (mix64c (mix64b (mix64a t))))) = mix64alt t :=
  ⟨rfl, mix64split t⟩

/-- C28 (refutation). `mix64alt`, documented as a restatement of `mix64`, is a different function
(`a -= b - c ^ x` subtracts `(b - c) ^ x`). -/
theorem C28_mix64alt_violated : ¬ ∀ t, mix64alt t = mix64 t := by
  intro h
  exact absurd (h ⟨0#64, 1#64, 0#64⟩) (by decide +kernel)

/-! ## C29, C31: block hashes -/

/-- C29. For every key and seed `Hash232` returns normally; the word-slice path and the byte path agree
and both compute the block specification of the first `len mod 2^32` bytes. -/
theorem C29_hash232 (fast : Bool) (k : List U8) (seed : U32) :
    Hash232' fast k seed = .ok (Spec.Jenkins.hash232 (k.take (k.length % 2 ^ 32)) seed) := Hash232'_eq fast k seed

/-- C29. Keys shorter than 4 GiB: the whole key is hashed. -/
theorem C29_hash232_short (fast : Bool) (k : List U8) (hk : k.length < 2 ^ 32) (seed : U32) :
    Hash232' fast k seed = .ok (Spec.Jenkins.hash232 k seed) ∧ Hash232 k seed = Hash232' false k seed := by
  have h : ∀ f, Hash232' f k seed = .ok (Spec.Jenkins.hash232 k seed) := by
    intro f; rw [Hash232'_eq, Nat.mod_eq_of_lt hk, List.take_of_length_le (Nat.le_refl _)]
  exact ⟨h fast, (h true).trans (h false).symm⟩

example : Hash232 [0x61#8, 0x62#8, 0x63#8, 0x64#8, 0x65#8, 0x66#8, 0x67#8, 0x68#8, 0x69#8, 0x6a#8, 0x6b#8, 0x6c#8, 0x6d#8] 7#32 =
    Hash232' false [0x61#8, 0x62#8, 0x63#8, 0x64#8, 0x65#8, 0x66#8, 0x67#8, 0x68#8, 0x69#8, 0x6a#8, 0x6b#8, 0x6c#8, 0x6d#8] 7#32 :=
  (C29_hash232_short true _ (by decide) 7#32).2

/-- C31. For every key and seed `Hash264` returns normally, and the fast path, the slow path and the block
specification agree. -/
theorem C31_hash264 (fast : Bool) (k : List U8) (seed : U64) :
    Hash264' fast k seed = .ok (Spec.Jenkins.hash264 k seed) ∧ Hash264 k seed = Hash264' false k seed :=
  ⟨Hash264'_eq fast k seed, by rw [Hash264, Hash264'_eq, Hash264'_eq]⟩

/-! ## C30: short keys -/

/-- C30. What a key of one to three bytes contributes to `Hash232`: only the sum `k[0] + len(k)` and the
bytes `k[1]`, `k[2]` (zero when absent), through the (bijective) mixer. -/
theorem C30_short_keys (k : List U8) (h0 : 0 < k.length) (h3 : k.length ≤ 3) (seed : U32) :
    Hash232 k seed = .ok (mix32 ⟨0x9e3779b9#32 + ((k.getD 1 0#8).setWidth 32 <<< 8 + (k.getD 2 0#8).setWidth 32 <<< 16), 0x9e3779b9#32,
      seed + (BitVec.ofNat 32 k.length + (k.getD 0 0#8).setWidth 32)⟩).c := by
  rw [Hash232, (C29_hash232_short true k (by omega) seed).1, Spec.Jenkins.hash232, blocks_of_lt (by omega), tailOf_of_lt (by omega), mix32_c]
  refine congrArg Except.ok (congrArg (fun t : Spec.Jenkins.T 32 => (Spec.Jenkins.mix32 t).2.2) ?_)
  simp only [List.foldl_nil]
  have w1 : ∀ x : U8, Spec.Jenkins.word 32 [x] = x.setWidth 32 := by
    intro x; simp [Spec.Jenkins.word, leNat]
  have w2 : ∀ x y : U8, 256#32 * Spec.Jenkins.word 32 [x, y] = x.setWidth 32 <<< 8 + y.setWidth 32 <<< 16 := by
    intro x y
    have e1 := word256_succ (w := 32) (t := [x, y]) (d := 0) (k := 1) (by simp)
    have e2 := word256_one (w := 32) (t := [x, y]) (d := 0) (by simp)
    have e1' : 256#32 * Spec.Jenkins.word 32 [x, y] = 256#32 * Spec.Jenkins.word 32 (([x, y].drop 0).take 1) + y.setWidth 32 <<< 16 := e1
    rw [e1', e2]; rfl
  have w3 : ∀ x : U8, 256#32 * x.setWidth 32 = x.setWidth 32 <<< 8 := by
    intro x
    have e : 256#32 * Spec.Jenkins.word 32 [x] = x.setWidth 32 <<< 8 := word256_one (w := 32) (t := [x]) (d := 0) (by simp)
    rw [w1] at e
    exact e
  have z8 : (0#8 : U8).setWidth 32 <<< 8 = 0#32 := by decide
  have z16 : (0#8 : U8).setWidth 32 <<< 16 = 0#32 := by decide
  rcases (by omega : k.length = 1 ∨ k.length = 2 ∨ k.length = 3) with h | h | h
  · obtain ⟨x, rfl⟩ := List.length_eq_one_iff.1 h
    simp only [List.take_succ_cons, List.take_nil, List.take_zero, List.drop_succ_cons, List.drop_nil, List.drop_zero, List.length_singleton,
      List.getD_cons_zero, List.getD_cons_succ, List.getD_nil, w1, word_nil, z8, z16, BitVec.add_zero, BitVec.mul_zero, BitVec.add_assoc]
  · obtain ⟨x, y, rfl⟩ := List.length_eq_two.1 h
    simp only [List.take_succ_cons, List.take_nil, List.take_zero, List.drop_succ_cons, List.drop_nil, List.drop_zero, List.length_cons, List.length_nil, Nat.zero_add, Nat.reduceAdd,
      List.getD_cons_zero, List.getD_cons_succ, List.getD_nil, w1, w3, word_nil, z8, z16, BitVec.add_zero, BitVec.mul_zero, BitVec.add_assoc]
  · obtain ⟨x, y, z, rfl⟩ := List.length_eq_three.1 h
    simp only [List.take_succ_cons, List.take_nil, List.take_zero, List.drop_succ_cons, List.drop_nil, List.drop_zero, List.length_cons, List.length_nil, Nat.zero_add, Nat.reduceAdd,
      List.getD_cons_zero, List.getD_cons_succ, List.getD_nil, w1, w2, word_nil, BitVec.add_zero, BitVec.mul_zero, BitVec.add_assoc]

/-- C30 (refutation, for every seed). The one-byte key `[x+1]` and the two-byte key `[x, 0]` always
collide, whatever the seed. -/
theorem C30_short_keys_violated (x : U8) (hx : x.toNat < 255) (seed : U32) :
    [x + 1#8] ≠ [x, 0#8] ∧ Hash232 [x + 1#8] seed = Hash232 [x, 0#8] seed := by
  refine ⟨by simp, ?_⟩
  rw [C30_short_keys [x + 1#8] (by simp) (by simp), C30_short_keys [x, 0#8] (by simp) (by simp)]
  have e : BitVec.ofNat 32 1 + (x + 1#8).setWidth 32 = BitVec.ofNat 32 2 + x.setWidth 32 := by
    apply BitVec.eq_of_toNat_eq
    simp; omega
  simp only [List.length_cons, List.length_nil, List.getD_cons_zero, List.getD_cons_succ, List.getD_nil, Nat.zero_add, Nat.reduceAdd]
  rw [e]

example : Hash232 [5#8] 99#32 = Hash232 [4#8, 0#8] 99#32 := (C30_short_keys_violated 4#8 (by decide) 99#32).2

/-! ## C32-C34: lookup3 -/

/-- C33. With `length = len(k)` or `length = 0`, `Jenkins364` never faults (no `unsafe` load leaves the key)
and is lookup3's `hashlittle2`. -/
theorem C33_jenkins364 (k : List U8) (pc pb : U32) :
    Jenkins364 k k.length pc pb = .ok (Spec.Jenkins.hashlittle2 pc pb k) ∧
    Jenkins364 k 0 pc pb = .ok (Spec.Jenkins.hashlittle2 pc pb k) ∧
    HashString k pc pb = .ok (Spec.Jenkins.hashlittle2 pc pb k) := by
  refine ⟨Jenkins364_full k pc pb, ?_, Jenkins364_full k pc pb⟩
  rw [Jenkins364_zero, Jenkins364_full]

/-- C33, against published lookup3 vectors (driver5 of lookup3.c): the specification is the real one. -/
example : Spec.Jenkins.hashlittle2 0#32 0#32 [] = (0xdeadbeef#32, 0xdeadbeef#32) ∧
    Spec.Jenkins.hashlittle2 0#32 0xdeadbeef#32 [] = (0xbd5b7dde#32, 0xdeadbeef#32) ∧
    Spec.Jenkins.hashlittle2 0#32 0#32 ("Four score and seven years ago".toUTF8.toList.map fun b => BitVec.ofNat 8 b.toNat) = (0x17770551#32, 0xce7226e6#32) := by
  decide +kernel

/-- C32. The word hashes agree with each other and with the byte hash of the little-endian bytes. -/
theorem C32_words_bytes (k : List U32) (hk : k.length < 2 ^ 32) (n : Int) (seed : U32) :
    HashWords332 k seed = HashWordsLen k k.length seed ∧
    HashWords332 k seed = XHashWords k n seed ∧
    HashWords332 k seed = (do let (c, _) ← Jenkins364 (k.flatMap fun x => leBytes 4 x.toNat) ((4 * k.length : Nat) : Int) seed 0#32; return c) ∧
    HashWords332 k seed = .ok (Spec.Jenkins.hashlittle2 seed 0#32 (k.flatMap fun x => leBytes 4 x.toNat)).1 := by
  have e : HashWords332 k seed = .ok (Spec.Jenkins.hashlittle2 seed 0#32 (bytesOf k)).1 := by
    rw [HashWords332_eq k hk, hashlittle2_bytesOf]
  refine ⟨?_, ?_, ?_, e⟩
  · rw [HashWords332_eq k hk, HashWordsLen_eq k k.length (Nat.le_refl _), List.take_of_length_le (Nat.le_refl _)]
  · rw [HashWords332_eq k hk, XHashWords_eq]
  · rw [e, ← bytesOf_length]
    show _ = (Jenkins364 (bytesOf k) ((bytesOf k).length : Int) seed 0#32 >>= _)
    rw [Jenkins364_full]; rfl

example : HashWords332 [1#32, 2#32, 3#32, 4#32, 5#32] 9#32 = XHashWords [1#32, 2#32, 3#32, 4#32, 5#32] 0 9#32 :=
  (C32_words_bytes _ (by decide) 0 9#32).2.1

/-- C34. `HashBytesLength` panics exactly when `n > len(k)`. -/
theorem C34_panics_iff (k : List U8) (n : Int) (seed : U32) :
    HashBytesLength k n seed = .error (.explicit "HashBytesLength") ↔ n > k.length := by
  constructor
  · intro h
    by_cases hn : n > k.length
    · exact hn
    · exfalso
      rw [HashBytesLength, if_neg hn] at h
      have hcase : ∃ r, Jenkins364 k n seed 0#32 = .ok r := by
        rcases Int.lt_trichotomy n 0 with h1 | h1 | h1
        · have : n.toNat = 0 := by omega
          have hc : decide ((12 : Int) < n) = false := decide_eq_false (by omega)
          have ht : ∀ s, ∃ r, j364tail k n s = .ok r := by
            intro s
            rw [j364tail, if_neg (by omega)]
            split <;> first | omega | exact ⟨_, rfl⟩
          rw [Jenkins364, if_neg (by omega)]
          simp only [this]
          rw [Go.while_]
          simp only [hc, Bool.false_eq_true, if_false, Go.bind_ok]
          generalize hs : S3.mk _ _ _ = s
          obtain ⟨r, hr⟩ := ht s
          rw [hr]
          exact ⟨_, rfl⟩
        · subst h1; exact ⟨_, (C33_jenkins364 k seed 0#32).2.1⟩
        · have : n = ((n.toNat : Nat) : Int) := by omega
          rw [this]
          exact ⟨_, Jenkins364_prefix k n.toNat (by omega) (by omega) seed 0#32⟩
      obtain ⟨r, hr⟩ := hcase
      rw [hr] at h
      cases h
  · intro h
    rw [HashBytesLength, if_pos h]; rfl

/-- C34. For `0 < n ≤ len(k)` the result depends only on `k[:n]` and on `len(k)` modulo 2^32: it is lookup3 of
the prefix started from the length of the whole slice. -/
theorem C34_prefix (k : List U8) (n : Nat) (h0 : 0 < n) (hn : n ≤ k.length) (seed : U32) :
    HashBytesLength k n seed = .ok (Spec.Jenkins.lookup3 (BitVec.ofNat 32 k.length) seed 0#32 (k.take n)).1 := by
  rw [HashBytesLength, if_neg (by omega), Jenkins364_prefix k n h0 hn]; rfl

/-- C34. So the intended equality holds at least when the whole slice is hashed. -/
theorem C34_whole (k : List U8) (seed : U32) :
    HashBytesLength k k.length seed = .ok (Spec.Jenkins.hashlittle2 seed 0#32 k).1 := by
  rw [HashBytesLength, if_neg (by omega), Jenkins364_full]; rfl

/-- C34. A negative length hashes nothing of the key: only the final mixing is applied to the initial state, so all keys of one length get the
same hash. -/
theorem C34_negative (k : List U8) (n : Int) (h : n < 0) (seed : U32) :
    HashBytesLength k n seed =
      .ok (Spec.Jenkins.final (0xdeadbeef#32 + BitVec.ofNat 32 k.length + seed, 0xdeadbeef#32 + BitVec.ofNat 32 k.length + seed,
        0xdeadbeef#32 + BitVec.ofNat 32 k.length + seed)).2.2 := by
  have hn : n.toNat = 0 := by omega
  have hc : decide ((12 : Int) < n) = false := decide_eq_false (by omega)
  rw [HashBytesLength, if_neg (by omega), Jenkins364, if_neg (by omega)]
  simp only [hn]
  rw [Go.while_]
  simp only [hc, Bool.false_eq_true, if_false, Go.bind_ok]
  generalize 0xdeadbeef#32 + BitVec.ofNat 32 k.length + seed = a
  have ht : j364tail k n ⟨a, a, a + 0#32⟩ = .ok ((final2 (final1 ⟨a, a, a⟩)).c, (final2 (final1 ⟨a, a, a⟩)).b) := by
    rw [j364tail, if_neg (by omega), BitVec.add_zero]
    split <;> first | omega | rfl
  rw [ht]
  rfl

example : HashBytesLength [1#8, 2#8] (-1) 5#32 = HashBytesLength [7#8, 9#8] (-4) 5#32 := by
  rw [C34_negative _ _ (by decide), C34_negative _ _ (by decide)]; rfl

/-- C34 (refutation). Hashing a proper prefix through the `length` argument is not hashing that prefix, and
`length = 0` hashes everything. -/
theorem C34_prefix_violated :
    (¬ ∀ (k : List U8) (n : Nat) (seed : U32), 0 < n → n ≤ k.length → HashBytesLength k n seed = HashBytesLength (k.take n) n seed) ∧
    (∀ (k : List U8) (seed : U32), HashBytesLength k 0 seed = HashBytesLength k k.length seed) ∧
    (¬ ∀ (k : List U8) (seed : U32), HashBytesLength k 0 seed = HashBytesLength [] 0 seed) := by
  refine ⟨?_, ?_, ?_⟩
  · intro h
    exact absurd (h [1#8, 2#8] 1 0#32 (by decide) (by decide)) (by decide +kernel)
  · intro k seed
    rw [HashBytesLength, HashBytesLength, if_neg (by omega), if_neg (by omega), Jenkins364_zero]
  · intro h
    exact absurd (h [1#8] 0#32) (by decide +kernel)

/-! ## C39: the guard of HashWordsLen -/

theorem idx_cases (k : List U32) (i : Nat) : (∃ x, Go.idx k i = .ok x ∧ i < k.length) ∨ (Go.idx k i = .error .index ∧ k.length ≤ i) := by
  rcases Nat.lt_or_ge i k.length with h | h
  · exact .inl ⟨_, Go.idx_eq h, h⟩
  · exact .inr ⟨Go.idx_none h, h⟩

theorem wordsTail_fault (k : List U32) (i : Nat) (l : Int) (s : S3 32) (h1 : 1 ≤ l) (h3 : l ≤ 3) (hk : (k.length : Int) < i + l) :
    wordsTail k i l s = .error .index := by
  have c1 : ∀ s, k.length ≤ i → wordsC1 k i s = .error .index := by
    intro s h; unfold wordsC1; rw [Go.idx_none (by omega), Go.bind_error]
  have c2 : ∀ s, k.length ≤ i + 1 → wordsC2 k i s = .error .index := by
    intro s h; unfold wordsC2
    rcases idx_cases k (i + 1) with ⟨x, e, h'⟩ | ⟨e, h'⟩
    · omega
    · rw [e, Go.bind_error]
  have c3 : ∀ s, k.length ≤ i + 2 → wordsC3 k i s = .error .index := by
    intro s h; unfold wordsC3
    rcases idx_cases k (i + 2) with ⟨x, e, h'⟩ | ⟨e, h'⟩
    · omega
    · rw [e, Go.bind_error]
  unfold wordsTail
  rcases (by omega : l = 3 ∨ l = 2 ∨ l = 1) with rfl | rfl | rfl
  · rw [if_pos rfl]; exact c3 s (by omega)
  · rw [if_neg (by decide), if_pos rfl]; exact c2 s (by omega)
  · rw [if_neg (by decide), if_neg (by decide), if_pos rfl]; exact c1 s (by omega)

theorem words_fault (k : List U32) (fuel : Nat) : ∀ (s : S3 32) (i : Nat) (l : Int), l ≤ fuel → 1 ≤ l → (k.length : Int) < i + l →
    (Go.while_ fuel (fun x => decide ((3 : Int) < x.2.2)) (wordsBody k) (s, i, l) >>= fun x => wordsTail k x.2.1 x.2.2 x.1) = .error .index := by
  induction fuel with
  | zero => intro s i l h h1 hk; omega
  | succ f ih =>
    intro s i l h h1 hk
    rw [Go.while_]
    by_cases hc : (3 : Int) < l
    · rw [if_pos (by simpa using hc)]
      rcases idx_cases k (i + 0) with ⟨x, e0, h0⟩ | ⟨e0, h0⟩
      · rcases idx_cases k (i + 1) with ⟨y, e1, h1'⟩ | ⟨e1, h1'⟩
        · rcases idx_cases k (i + 2) with ⟨z, e2, h2⟩ | ⟨e2, h2⟩
          · have eb : wordsBody k (s, i, l) = .ok (mix2 (mix1 ⟨s.a + x, s.b + y, s.c + z⟩), i + 3, l - 3) := by
              unfold wordsBody; simp only [e0, e1, e2, Go.bind_ok]; rfl
            rw [eb]
            exact ih _ (i + 3) (l - 3) (by omega) (by omega) (by omega)
          · have eb : wordsBody k (s, i, l) = .error .index := by
              unfold wordsBody; simp only [e0, e1, e2, Go.bind_ok, Go.bind_error]
            rw [eb]; rfl
        · have eb : wordsBody k (s, i, l) = .error .index := by
            unfold wordsBody; simp only [e0, e1, Go.bind_ok, Go.bind_error]
          rw [eb]; rfl
      · have eb : wordsBody k (s, i, l) = .error .index := by
          unfold wordsBody; simp only [e0, Go.bind_error]
        rw [eb]; rfl
    · rw [if_neg (by simpa using hc), Go.bind_ok]
      exact wordsTail_fault k i l s h1 (by omega) hk

/-- C39. Exactly what `HashWordsLen` does with a non-negative length: up to `len(k)` words it reads inside
`k`; strictly between `len(k)` and `4*len(k)` it dies on an out-of-range index; beyond that its guard fires. -/
theorem C39_guard (k : List U32) (n : Nat) (seed : U32) :
    (n ≤ k.length → ∃ r, HashWordsLen k n seed = .ok r) ∧
    (k.length < n → n ≤ 4 * k.length → HashWordsLen k n seed = .error .index) ∧
    (4 * k.length < n → HashWordsLen k n seed = .error (.explicit "HashWords")) := by
  refine ⟨?_, ?_, ?_⟩
  · intro hn
    exact ⟨_, HashWordsLen_eq k n hn seed⟩
  · intro h1 h4
    rw [HashWordsLen, if_neg (by omega)]
    exact words_fault k _ _ 0 n (by omega) (by omega) (by omega)
  · intro h
    rw [HashWordsLen, if_pos (by omega)]; rfl

example : (HashWordsLen [1#32, 2#32] 2 7#32).isOk = true ∧ HashWordsLen [1#32, 2#32] 5 7#32 = .error .index ∧
    HashWordsLen [1#32, 2#32] 9 7#32 = .error (.explicit "HashWords") := by decide +kernel

/-- C39. What it returns: lookup3 of the first `n` words, started from the length of the whole slice; for a negative length the unmixed
initial value, whatever the words are. -/
theorem C39_value (k : List U32) (seed : U32) :
    (∀ n : Nat, n ≤ k.length → HashWordsLen k n seed =
      .ok (Spec.Jenkins.lookup3 (BitVec.ofNat 32 (4 * k.length)) seed 0#32 ((k.take n).flatMap fun x => leBytes 4 x.toNat)).1) ∧
    (∀ n : Int, n < 0 → HashWordsLen k n seed = .ok (0xdeadbeef#32 + BitVec.ofNat 32 (4 * k.length) + seed)) := by
  have hlen : BitVec.ofNat 32 (4 * k.length) = BitVec.ofNat 32 k.length <<< 2 := by
    apply BitVec.eq_of_toNat_eq
    rw [BitVec.toNat_shiftLeft, BitVec.toNat_ofNat, BitVec.toNat_ofNat, Nat.shiftLeft_eq]
    omega
  rw [hlen]
  constructor
  · intro n hn
    rw [HashWordsLen_eq k n hn]
    exact congrArg Except.ok (lookup3_bytesOf (k.take n) _ seed).symm
  · intro n hn
    have h0 : n.toNat = 0 := by omega
    have hc : decide ((3 : Int) < n) = false := decide_eq_false (by omega)
    rw [HashWordsLen, if_neg (by omega)]
    simp only [h0]
    rw [Go.while_]
    simp only [hc, Bool.false_eq_true, if_false, Go.bind_ok]
    rw [wordsTail, if_neg (by omega), if_neg (by omega), if_neg (by omega)]

/-- C39 (refutation). A length that passes the guard can run off the end of the slice (witness: one word, length 2). -/
theorem C39_guard_violated :
    ¬ ∀ (k : List U32) (length : Int) (seed : U32), 0 ≤ length →
      (∃ r, HashWordsLen k length seed = .ok r) ∨ HashWordsLen k length seed = .error (.explicit "HashWords") := by
  intro h
  have : HashWordsLen [1#32] 2 0#32 = .error .index := by decide +kernel
  rcases h [1#32] 2 0#32 (by decide) with ⟨r, hr⟩ | hr
  · rw [this] at hr; cases hr
  · rw [this] at hr; cases hr

/-! ## C35-C38: objects -/

theorem be4_eq (h : U32) : be4 h = beBytes 4 h.toNat := Lemmas.Murmur3.be32_eq h
theorem be8_eq (h : U64) : be8 h = beBytes 8 h.toNat := Lemmas.Murmur3.be64_eq h

/-- The behaviour of a lazily hashing object that feeds every sum back into its seeds: `m` is what was
written since the last reset, `(pc, pb)` the current seeds; `show_` turns the two words of a sum into the
bytes of `Sum`, `val` into the number of `Sum32`/`Sum64`. -/
def feedback (pc0 pb0 : U32) (digest : U32 × U32 → List U8) (val : U32 × U32 → List U64) :
    List U8 → U32 → U32 → List HOp → List HOut
  | _, _, _, [] => []
  | m, pc, pb, .write p :: ops => .wrote p.length :: feedback pc0 pb0 digest val (m ++ p) pc pb ops
  | _, _, _, .reset :: ops => .done :: feedback pc0 pb0 digest val [] pc0 pb0 ops
  | m, pc, pb, .sum b :: ops =>
    let r := Spec.Jenkins.hashlittle2 pc pb m
    .bytes (b ++ digest r) :: feedback pc0 pb0 digest val m r.1 r.2 ops
  | m, pc, pb, .value :: ops =>
    let r := Spec.Jenkins.hashlittle2 pc pb m
    .value (val r) :: feedback pc0 pb0 digest val m r.1 r.2 ops

theorem run332c (seed : U32) (ops : List HOp) (d : State332c) (hs : d.seed = seed) :
    hasher332c.run d ops = .ok (feedback seed seed (fun r => beBytes 4 r.1.toNat) (fun r => [r.1.setWidth 64]) d.tail d.pc d.pb ops) := by
  induction ops generalizing d with
  | nil => rfl
  | cons op ops ih =>
    cases op with
    | write p =>
      have := ih (d.write p).1 hs
      rw [Hasher.run]
      show (hasher332c.run (d.write p).1 ops >>= _) = _
      rw [this]; rfl
    | reset =>
      have := ih d.reset hs
      rw [Hasher.run]
      show (hasher332c.run d.reset ops >>= _) = _
      rw [this]
      subst hs; rfl
    | sum b =>
      have e : hasher332c.sum d b = .ok ({ d with pc := (Spec.Jenkins.hashlittle2 d.pc d.pb d.tail).1, pb := (Spec.Jenkins.hashlittle2 d.pc d.pb d.tail).2, hash := (Spec.Jenkins.hashlittle2 d.pc d.pb d.tail).1 }, b ++ beBytes 4 (Spec.Jenkins.hashlittle2 d.pc d.pb d.tail).1.toNat) := by
        simp only [hasher332c, State332c.sum, Jenkins364_full, Go.bind_ok, Go.pure_ok, be4_eq]
      simp only [Hasher.run, e, Go.bind_ok]
      rw [ih]
      · rfl
      · exact hs
    | value =>
      have e : hasher332c.value d = .ok ({ d with pc := (Spec.Jenkins.hashlittle2 d.pc d.pb d.tail).1, pb := (Spec.Jenkins.hashlittle2 d.pc d.pb d.tail).2, hash := (Spec.Jenkins.hashlittle2 d.pc d.pb d.tail).1 }, [(Spec.Jenkins.hashlittle2 d.pc d.pb d.tail).1.setWidth 64]) := by
        simp only [hasher332c, State332c.sum32, Jenkins364_full, Go.bind_ok, Go.pure_ok]
      simp only [Hasher.run, e, Go.bind_ok]
      rw [ih]
      · rfl
      · exact hs

theorem run364 (seed : U64) (ops : List HOp) (d : State364) (hs : d.seed = seed) :
    hasher364.run d ops = .ok (feedback (seed.setWidth 32) ((seed >>> 32).setWidth 32)
      (fun r => [0#8, 0#8, 0#8, 0#8] ++ beBytes 4 r.1.toNat)
      (fun r => [r.2.setWidth 64 <<< 32 ||| r.1.setWidth 64]) d.tail d.pc d.pb ops) := by
  have hb : ∀ pc pb : U32, be8 ((pb <<< 32).setWidth 64 ||| pc.setWidth 64) = [0#8, 0#8, 0#8, 0#8] ++ beBytes 4 pc.toNat := by
    intro pc pb
    have e : pb <<< 32 = 0#32 := by apply BitVec.eq_of_toNat_eq; simp [Nat.shiftLeft_eq]
    have e0 : (0#32 : U32).setWidth 64 = 0#64 := by decide
    rw [e, e0, BitVec.zero_or, be8_eq]
    have h := pc.isLt
    have e1 : (pc.setWidth 64).toNat = pc.toNat := by simp; omega
    rw [e1]
    generalize pc.toNat = n at h
    have hz : n / 256 / 256 / 256 / 256 = 0 := by omega
    simp only [beBytes, leBytes, hz, List.reverse_cons, List.reverse_nil, List.nil_append, List.cons_append]
  induction ops generalizing d with
  | nil => rfl
  | cons op ops ih =>
    cases op with
    | write p =>
      have := ih (d.write p).1 hs
      rw [Hasher.run]
      show (hasher364.run (d.write p).1 ops >>= _) = _
      rw [this]; rfl
    | reset =>
      have := ih d.reset hs
      rw [Hasher.run]
      show (hasher364.run d.reset ops >>= _) = _
      rw [this]
      subst hs; rfl
    | sum b =>
      have e : hasher364.sum d b = .ok ({ d with pc := (Spec.Jenkins.hashlittle2 d.pc d.pb d.tail).1, pb := (Spec.Jenkins.hashlittle2 d.pc d.pb d.tail).2, hash := ((Spec.Jenkins.hashlittle2 d.pc d.pb d.tail).2 <<< 32).setWidth 64 ||| (Spec.Jenkins.hashlittle2 d.pc d.pb d.tail).1.setWidth 64 }, b ++ ([0#8, 0#8, 0#8, 0#8] ++ beBytes 4 (Spec.Jenkins.hashlittle2 d.pc d.pb d.tail).1.toNat)) := by
        simp only [hasher364, State364.sum, Jenkins364_full, Go.bind_ok, Go.pure_ok, hb]
      simp only [Hasher.run, e, Go.bind_ok]
      rw [ih]
      · rfl
      · exact hs
    | value =>
      have e : hasher364.value d = .ok ({ d with pc := (Spec.Jenkins.hashlittle2 d.pc d.pb d.tail).1, pb := (Spec.Jenkins.hashlittle2 d.pc d.pb d.tail).2, hash := pack64 (Spec.Jenkins.hashlittle2 d.pc d.pb d.tail).1 (Spec.Jenkins.hashlittle2 d.pc d.pb d.tail).2 }, [(Spec.Jenkins.hashlittle2 d.pc d.pb d.tail).2.setWidth 64 <<< 32 ||| (Spec.Jenkins.hashlittle2 d.pc d.pb d.tail).1.setWidth 64]) := by
        simp only [hasher364, State364.sum64, Jenkins364_full, Go.bind_ok, Go.pure_ok, pack64]
      simp only [Hasher.run, e, Go.bind_ok]
      rw [ih]
      · rfl
      · exact hs

/-- C36. Complete behaviour of `New(seed)` under every sequence of calls: no fault, and each sum is
lookup3 of the bytes written since the last reset, seeded with the two words of the previous sum since
that reset (with `seed, seed` if there was none). -/
theorem C36_history332c (seed : U32) (ops : List HOp) :
    hasher332c.run (new332c seed) ops =
      .ok (feedback seed seed (fun r => beBytes 4 r.1.toNat) (fun r => [r.1.setWidth 64]) [] seed seed ops) :=
  run332c seed ops (new332c seed) rfl

/-- C36. The same for `New364(seed)`; its `Sum` shows four zero bytes and the first word. -/
theorem C36_history364 (seed : U64) (ops : List HOp) :
    hasher364.run (new364 seed) ops = .ok (feedback (seed.setWidth 32) ((seed >>> 32).setWidth 32)
      (fun r => [0#8, 0#8, 0#8, 0#8] ++ beBytes 4 r.1.toNat)
      (fun r => [r.2.setWidth 64 <<< 32 ||| r.1.setWidth 64]) [] (seed.setWidth 32) ((seed >>> 32).setWidth 32) ops) :=
  run364 seed ops (new364 seed) rfl

/-- C36 (refutation). Asking twice gives different answers, for both objects; so they do not implement the
`hash.Hash` contract for any digest and value function. -/
theorem C36_sum_violated :
    (¬ ∃ (digest : U32 → List U8 → List U8) (value : U32 → List U8 → List U64), ∀ seed ops, hasher332c.run (new332c seed) ops = .ok (contract (digest seed) (value seed) [] ops)) ∧
    (¬ ∃ (digest : U64 → List U8 → List U8) (value : U64 → List U8 → List U64), ∀ seed ops, hasher364.run (new364 seed) ops = .ok (contract (digest seed) (value seed) [] ops)) := by
  constructor
  · rintro ⟨digest, value, h⟩
    have h1 := h 0#32 [.write [1#8], .value, .value]
    have h2 : hasher332c.run (new332c 0#32) [.write [1#8], .value, .value] ≠ .ok (contract (digest 0#32) (fun _ => value 0#32 [1#8]) [] [.write [1#8], .value, .value]) := by
      intro hc
      have e : hasher332c.run (new332c 0#32) [.write [1#8], .value, .value] =
        .ok [.wrote 1, .value [(Spec.Jenkins.hashlittle2 0#32 0#32 [1#8]).1.setWidth 64],
          .value [(Spec.Jenkins.hashlittle2 (Spec.Jenkins.hashlittle2 0#32 0#32 [1#8]).1 (Spec.Jenkins.hashlittle2 0#32 0#32 [1#8]).2 [1#8]).1.setWidth 64]] :=
        C36_history332c 0#32 _
      rw [e] at hc
      simp only [contract, Except.ok.injEq, List.cons.injEq, HOut.value.injEq] at hc
      obtain ⟨-, a, b, -⟩ := hc
      rw [← b] at a
      exact absurd a (by decide +kernel)
    exact h2 h1
  · rintro ⟨digest, value, h⟩
    have h1 := h 0#64 [.write [1#8], .value, .value]
    have e : hasher364.run (new364 0#64) [.write [1#8], .value, .value] =
        .ok (feedback 0#32 0#32 (fun r => [0#8, 0#8, 0#8, 0#8] ++ beBytes 4 r.1.toNat) (fun r => [r.2.setWidth 64 <<< 32 ||| r.1.setWidth 64]) [] 0#32 0#32 [.write [1#8], .value, .value]) :=
      C36_history364 0#64 _
    rw [e] at h1
    simp only [contract, feedback, Except.ok.injEq, List.cons.injEq, HOut.value.injEq, List.nil_append] at h1
    obtain ⟨-, a, b, -⟩ := h1
    rw [← b] at a
    exact absurd a (by decide +kernel)

theorem feedback_reset (pc0 pb0 : U32) (dg : U32 × U32 → List U8) (val : U32 × U32 → List U64) (hist rest : List HOp) (m : List U8) (pc pb : U32) :
    ∃ o, o.length = hist.length ∧
      feedback pc0 pb0 dg val m pc pb (hist ++ .reset :: rest) = o ++ .done :: feedback pc0 pb0 dg val [] pc0 pb0 rest := by
  induction hist generalizing m pc pb with
  | nil => exact ⟨[], rfl, rfl⟩
  | cons op hist ih =>
    cases op with
    | write p => obtain ⟨o, h, e⟩ := ih (m ++ p) pc pb; exact ⟨_ :: o, by simp [h], by simp only [List.cons_append, feedback, e]; rfl⟩
    | reset => obtain ⟨o, h, e⟩ := ih [] pc0 pb0; exact ⟨_ :: o, by simp [h], by simp only [List.cons_append, feedback, e]; rfl⟩
    | sum b => obtain ⟨o, h, e⟩ := ih m (Spec.Jenkins.hashlittle2 pc pb m).1 (Spec.Jenkins.hashlittle2 pc pb m).2
               exact ⟨_ :: o, by simp [h], by simp only [List.cons_append, feedback, e]; rfl⟩
    | value => obtain ⟨o, h, e⟩ := ih m (Spec.Jenkins.hashlittle2 pc pb m).1 (Spec.Jenkins.hashlittle2 pc pb m).2
               exact ⟨_ :: o, by simp [h], by simp only [List.cons_append, feedback, e]; rfl⟩

theorem feedback_writes (pc0 pb0 : U32) (dg : U32 × U32 → List U8) (val : U32 × U32 → List U64) (ps : List (List U8)) (rest : List HOp) (m : List U8) (pc pb : U32) :
    feedback pc0 pb0 dg val m pc pb (ps.map .write ++ rest) =
      ps.map (fun p => .wrote p.length) ++ feedback pc0 pb0 dg val (m ++ ps.flatten) pc pb rest := by
  induction ps generalizing m with
  | nil => simp
  | cons p ps ih => simp only [List.map_cons, List.cons_append, feedback, ih, List.flatten_cons, List.append_assoc]

/-- C35. `New(seed)`, any writes, `Sum32` (or `Sum`) is the one-shot `Sum32(concatenation, seed)`; the same
holds after a `Reset` that follows an arbitrary history of calls. -/
theorem C35_stream332c (seed : U32) (ps : List (List U8)) :
    ∃ v, Sum32 ps.flatten seed = .ok v ∧
      hasher332c.run (new332c seed) (ps.map .write ++ [.value]) = .ok (ps.map (fun p => .wrote p.length) ++ [.value [v.setWidth 64]]) ∧
      (∀ b, hasher332c.run (new332c seed) (ps.map .write ++ [.sum b]) = .ok (ps.map (fun p => .wrote p.length) ++ [.bytes (b ++ beBytes 4 v.toNat)])) ∧
      (∀ hist, ∃ o, o.length = hist.length ∧
        hasher332c.run (new332c seed) (hist ++ .reset :: (ps.map .write ++ [.value])) =
          .ok (o ++ .done :: (ps.map (fun p => .wrote p.length) ++ [.value [v.setWidth 64]]))) := by
  refine ⟨(Spec.Jenkins.hashlittle2 seed seed ps.flatten).1, ?_, ?_, ?_, ?_⟩
  · rw [Sum32, Jenkins364_full]; rfl
  · rw [C36_history332c, feedback_writes]; rfl
  · intro b; rw [C36_history332c, feedback_writes]; rfl
  · intro hist
    obtain ⟨o, h, e⟩ := feedback_reset seed seed (fun r => beBytes 4 r.1.toNat) (fun r => [r.1.setWidth 64]) hist (ps.map .write ++ [.value]) [] seed seed
    refine ⟨o, h, ?_⟩
    rw [C36_history332c, e, feedback_writes]; rfl

/-- C35. `New364(seed)`, any writes, `Sum64` is `Jenkins364` of the concatenation with the two halves of the
seed, also after a `Reset`. -/
theorem C35_stream364 (seed : U64) (ps : List (List U8)) :
    ∃ pc pb, Jenkins364 ps.flatten ps.flatten.length (seed.setWidth 32) ((seed >>> 32).setWidth 32) = .ok (pc, pb) ∧
      hasher364.run (new364 seed) (ps.map .write ++ [.value]) = .ok (ps.map (fun p => .wrote p.length) ++ [.value [pb.setWidth 64 <<< 32 ||| pc.setWidth 64]]) ∧
      (∀ hist, ∃ o, o.length = hist.length ∧
        hasher364.run (new364 seed) (hist ++ .reset :: (ps.map .write ++ [.value])) =
          .ok (o ++ .done :: (ps.map (fun p => .wrote p.length) ++ [.value [pb.setWidth 64 <<< 32 ||| pc.setWidth 64]]))) := by
  refine ⟨(Spec.Jenkins.hashlittle2 (seed.setWidth 32) ((seed >>> 32).setWidth 32) ps.flatten).1, (Spec.Jenkins.hashlittle2 (seed.setWidth 32) ((seed >>> 32).setWidth 32) ps.flatten).2, ?_, ?_, ?_⟩
  · rw [Jenkins364_full]
  · rw [C36_history364, feedback_writes]; rfl
  · intro hist
    obtain ⟨o, h, e⟩ := feedback_reset (seed.setWidth 32) ((seed >>> 32).setWidth 32) (fun r => [0#8, 0#8, 0#8, 0#8] ++ beBytes 4 r.1.toNat)
      (fun r => [r.2.setWidth 64 <<< 32 ||| r.1.setWidth 64]) hist (ps.map .write ++ [.value]) [] (seed.setWidth 32) ((seed >>> 32).setWidth 32)
    refine ⟨o, h, ?_⟩
    rw [C36_history364, e, feedback_writes]; rfl

/-- C37. `Write64(h)` leaves the object exactly as `Write` of the eight big-endian bytes of `h`. -/
theorem C37_write64 (d : State364) (h : U64) : d.write64 h = (d.write (beBytes 8 h.toNat)).1 := by
  rw [State364.write64, State364.write, be8_eq]; rfl

/-- C37. What `Sum(b)` appends, in every state: four zero bytes, then the big-endian low half of what `Sum64`
would return. -/
theorem C37_sum (d : State364) (b : List U8) :
    ∃ d1 d2 v, d.sum64 = .ok (d1, v) ∧ d.sum b = .ok (d2, b ++ [0#8, 0#8, 0#8, 0#8] ++ (beBytes 8 v.toNat).drop 4) := by
  have hb : ∀ pc pb : U32, be8 ((pb <<< 32).setWidth 64 ||| pc.setWidth 64) = [0#8, 0#8, 0#8, 0#8] ++ (beBytes 8 (pack64 pc pb).toNat).drop 4 := by
    intro pc pb
    have e : pb <<< 32 = 0#32 := by apply BitVec.eq_of_toNat_eq; simp [Nat.shiftLeft_eq]
    have e0 : (0#32 : U32).setWidth 64 = 0#64 := by decide
    have hpc := pc.isLt
    have hpb := pb.isLt
    have e1 : (pc.setWidth 64).toNat = pc.toNat := by simp; omega
    have e2 : (pack64 pc pb).toNat = pc.toNat + 2 ^ 32 * pb.toNat := by
      have h1 : (pb.setWidth 64 <<< 32).toNat = pb.toNat <<< 32 := by
        rw [BitVec.toNat_shiftLeft, BitVec.toNat_setWidth, Nat.shiftLeft_eq, Nat.shiftLeft_eq]; omega
      rw [pack64, BitVec.toNat_or, h1, e1, ← Nat.shiftLeft_add_eq_or_of_lt hpc, Nat.shiftLeft_eq]
      omega
    rw [e, e0, BitVec.zero_or, be8_eq, e1, e2]
    generalize pc.toNat = n at hpc
    generalize pb.toNat = m at hpb
    have hz : n / 256 / 256 / 256 / 256 = 0 := by omega
    have hz1 : BitVec.ofNat 8 (n + 2 ^ 32 * m) = BitVec.ofNat 8 n := by apply BitVec.eq_of_toNat_eq; simp; omega
    have hz2 : BitVec.ofNat 8 ((n + 2 ^ 32 * m) / 256) = BitVec.ofNat 8 (n / 256) := by apply BitVec.eq_of_toNat_eq; simp; omega
    have hz3 : BitVec.ofNat 8 ((n + 2 ^ 32 * m) / 256 / 256) = BitVec.ofNat 8 (n / 256 / 256) := by apply BitVec.eq_of_toNat_eq; simp; omega
    have hz4 : BitVec.ofNat 8 ((n + 2 ^ 32 * m) / 256 / 256 / 256) = BitVec.ofNat 8 (n / 256 / 256 / 256) := by apply BitVec.eq_of_toNat_eq; simp; omega
    simp only [beBytes, leBytes, hz, hz1, hz2, hz3, hz4, List.reverse_cons, List.reverse_nil, List.nil_append, List.cons_append,
      List.drop_succ_cons, List.drop_zero]
  have e1 : ∃ d1, d.sum64 = .ok (d1, pack64 (Spec.Jenkins.hashlittle2 d.pc d.pb d.tail).1 (Spec.Jenkins.hashlittle2 d.pc d.pb d.tail).2) := by
    refine ⟨?_, ?_⟩
    rotate_left
    · rw [State364.sum64, Jenkins364_full]; rfl
  obtain ⟨d1, e1⟩ := e1
  refine ⟨d1, { d with pc := (Spec.Jenkins.hashlittle2 d.pc d.pb d.tail).1, pb := (Spec.Jenkins.hashlittle2 d.pc d.pb d.tail).2, hash := ((Spec.Jenkins.hashlittle2 d.pc d.pb d.tail).2 <<< 32).setWidth 64 ||| (Spec.Jenkins.hashlittle2 d.pc d.pb d.tail).1.setWidth 64 }, _, e1, ?_⟩
  simp only [State364.sum, Jenkins364_full, Go.bind_ok, Go.pure_ok, hb, List.append_assoc]

/-- C37 (refutation). `Sum` does not append the bytes of `Sum64`. -/
theorem C37_sum_violated :
    ¬ ∀ (d : State364) (b : List U8), (do let (_, r) ← d.sum b; return r) = (do let (_, v) ← d.sum64; return b ++ beBytes 8 v.toNat) := by
  intro h
  exact absurd (h (new364 0#64) []) (by decide +kernel)

/-- C38 (refutation, all inputs). The 32-bit interfaces ignore every seed: `Hash32` of a `New332c(seed)` is
lookup3 with seeds 0, and `Hash32` of a `New232(seed)` is `Hash232` with seed 0, whatever seeds are given at
construction or at the call. -/
theorem C38_seeds_ignored (seed : U32) (seeds : List U32) (b : List U8) :
    (do let (_, v) ← (new332c seed).hash32 b seeds; return v) = .ok (Spec.Jenkins.hashlittle2 0#32 0#32 b).1 ∧
    (do let (_, v) ← (new232 seed).hash32 b seeds; return v) = Hash232 b 0#32 := by
  constructor
  · rw [State332c.hash32, Jenkins364_full]; rfl
  · rw [State232.hash32]
    have : (if seeds.length > 0 then { new232 seed with seed := 0#32 } else new232 seed) = new232 0#32 := by
      split <;> rfl
    rw [this]
    show (Hash232 b 0#32 >>= _) >>= _ = _
    cases Hash232 b 0#32 <;> rfl

/-- The 64-bit value of lookup3 with initial values `pc`, `pb`: `b` in the high half, `c` in the low half. -/
def lookup3Value (pc pb : U32) (k : List U8) : U64 :=
  (Spec.Jenkins.hashlittle2 pc pb k).2.setWidth 64 <<< 32 ||| (Spec.Jenkins.hashlittle2 pc pb k).1.setWidth 64

/-- C38. `New364` honours its seed and the seeds of the call: two seeds (their low halves), one 64-bit seed (its low and high halves),
or none (then the seed given at construction). `Hash64S` takes its one seed the same way. -/
theorem C38_seeds364 (seed s0 s1 : U64) (b : List U8) :
    (do let (_, v) ← (new364 seed).hash64 b []; return v) = .ok (lookup3Value (seed.setWidth 32) ((seed >>> 32).setWidth 32) b) ∧
    (do let (_, v) ← (new364 seed).hash64 b [s0]; return v) = .ok (lookup3Value (s0.setWidth 32) ((s0 >>> 32).setWidth 32) b) ∧
    (do let (_, v) ← (new364 seed).hash64 b [s0, s1]; return v) = .ok (lookup3Value (s0.setWidth 32) (s1.setWidth 32) b) ∧
    (do let (_, v) ← (new364 seed).hash64S b s0; return v) = .ok (lookup3Value (s0.setWidth 32) ((s0 >>> 32).setWidth 32) b) := by
  refine ⟨?_, ?_, ?_, ?_⟩
  · show (Jenkins364 b b.length (seed.setWidth 32) ((seed >>> 32).setWidth 32) >>= _) >>= _ = _
    rw [Jenkins364_full]
    rfl
  · rw [State364.hash64]
    simp only [Jenkins364_full]
    rfl
  · rw [State364.hash64]
    simp only [Jenkins364_full]
    rfl
  · rw [State364.hash64S]
    simp only [Jenkins364_full]
    rfl

/-- C35/C38. `New232(seed)` obeys the streaming contract for every history of calls - with seed 0, because
`Reset` clears the seed: every sum is `Hash232(bytes since the last reset, 0)`. -/
theorem C35_history232 (seed : U32) (ops : List HOp) :
    hasher232.run (new232 seed) ops = .ok (contract
      (fun m => beBytes 4 (Spec.Jenkins.hash232 (m.take (m.length % 2 ^ 32)) 0#32).toNat)
      (fun m => [(Spec.Jenkins.hash232 (m.take (m.length % 2 ^ 32)) 0#32).setWidth 64]) [] ops) := by
  apply Hasher.run_eq_contract (I := fun s m => s.tail = m ∧ s.seed = 0#32)
  · rintro s m p ⟨rfl, h⟩; exact ⟨_, rfl, rfl, h⟩
  · rintro s m ⟨rfl, h⟩; exact ⟨_, rfl, rfl, rfl⟩
  · rintro s m b ⟨rfl, h⟩
    refine ⟨{ s with hash := Spec.Jenkins.hash232 (s.tail.take (s.tail.length % 2 ^ 32)) 0#32 }, ?_, rfl, h⟩
    simp only [hasher232, State232.sum, Hash232, h, Hash232'_eq, Go.bind_ok, Go.pure_ok, be4_eq]
  · rintro s m ⟨rfl, h⟩
    refine ⟨{ s with hash := Spec.Jenkins.hash232 (s.tail.take (s.tail.length % 2 ^ 32)) 0#32 }, ?_, rfl, h⟩
    simp only [hasher232, State232.sum32, Hash232, h, Hash232'_eq, Go.bind_ok, Go.pure_ok]
  · exact ⟨rfl, rfl⟩

/-- A history with sums, resets and empty writes, to show the theorems are not vacuous. -/
example : (hasher232.run (new232 77#32) [.write [1#8, 2#8], .value, .write [], .sum [9#8], .reset, .value]).isOk = true := by
  rw [C35_history232]; rfl

end Verif.Props
