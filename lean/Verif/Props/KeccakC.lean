import Verif.Lemmas.KeccakCHash
import Verif.Spec.KeccakC
import Verif.Props.Keccak

/-!
# C93-C98: package keccak (Go wrapper and C code)
-/

namespace Verif.Props
open Verif Verif.Model.KeccakC
open Verif.Spec.Keccak (sponge keccakf xorInto State)
open Verif.Spec.KeccakC

/-! ## C93 -/

theorem decode_eq (st : List U64) : decode st = Lemmas.KeccakC.lanesC st := by
  funext x y
  unfold decode Lemmas.KeccakC.lanesC Lemmas.KeccakC.wordC word
  generalize x.val + 5 * y.val = i
  by_cases h : i ∈ [1, 2, 8, 12, 17, 20]
  · rw [if_pos h, if_pos (by simpa [Lemmas.KeccakC.flipped] using h)]
  · rw [if_neg h, if_neg (by simpa [Lemmas.KeccakC.flipped] using h)]

/-- C93. The unrolled, lane-complemented C permutation is Keccak-f[1600]. -/
theorem C93_permutation (st : List U64) : decode (KeccakPermutation st) = keccakf 24 (decode st) := by
  rw [decode_eq, decode_eq]
  exact Lemmas.KeccakC.permutation_ok st

/-- C93. At every rate of `n` lanes, through the specialised or the general entry point, absorbing the bytes at `off` is exclusive-or followed by Keccak-f[1600];
exactly `8 n` bytes of the input are read. -/
theorem C93_absorb (n : Nat) (hn : n ≤ 25) (st : List U64) (hs : st.length = 25) (data : List U8) (off : Nat) (h : off + 8 * n ≤ data.length) :
    ∃ st', absorbBlock (BitVec.ofNat 32 (64 * n)) st data off = .ok st' ∧ st'.length = 25 ∧ decode st' = keccakf 24 (xorInto (decode st) ((data.drop off).take (8 * n))) := by
  simp only [decode_eq]
  exact Lemmas.KeccakC.absorbBlock_ok (by rw [BitVec.toNat_ofNat, Nat.mod_eq_of_lt (by omega)]) hn st hs data off h

/-- C93_absorb at work: the block of Keccak-256 at offset 3 of 200 bytes. -/
example : ∃ st', absorbBlock 1088 (List.replicate 25 7#64) (List.replicate 200 1#8) 3 = .ok st' ∧ st'.length = 25 ∧
    decode st' = keccakf 24 (xorInto (decode (List.replicate 25 7#64)) (((List.replicate 200 1#8).drop 3).take 136)) :=
  C93_absorb 17 (by decide) _ List.length_replicate _ 3 (by rw [List.length_replicate]; decide)

/-- C93. Nothing but the words of the state matters: different stored states stand for different Keccak states. -/
theorem C93_decode_injective (st st' : List U64) (h1 : st.length = 25) (h2 : st'.length = 25) (h : decode st = decode st') : st = st' := by
  apply List.ext_getElem (by omega)
  intro i hi hi'
  have e := congrFun (congrFun h (Fin.ofNat 5 i)) (Fin.ofNat 5 (i / 5))
  unfold decode at e
  rw [Fin.val_ofNat, Fin.val_ofNat, show i % 5 + 5 * (i / 5 % 5) = i by omega] at e
  have g : st.getD i 0#64 = st'.getD i 0#64 := by
    split at e
    · exact BitVec.not_inj.1 e
    · exact e
  rw [List.getD_eq_getElem?_getD, List.getD_eq_getElem?_getD, List.getElem?_eq_getElem hi, List.getElem?_eq_getElem hi'] at g
  exact g

/-! ## C94 -/

theorem run_sound {n size : Nat} (hk : Lemmas.KeccakC.Known n size) (ops : List HOp) : ∀ (k : Keccak) (m : List U8), Lemmas.KeccakC.Inv k n size m → k.bitlen = BitVec.ofNat 32 (8 * size) → AllSound (8 * n) m ops →
    hasher.run k ops = .ok (contract (sponge 24 (8 * n) size) (fun _ => []) m ops) ∧
    ∃ k', Lemmas.KeccakC.Inv k' n size (written m ops) ∧ k'.bitlen = BitVec.ofNat 32 (8 * size) ∧ ∀ p, (∀ x, k'.Write p = .error x → hasher.run k (ops ++ [.write p]) = .error x) := by
  induction ops with
  | nil =>
    intro k m hi hb _
    refine ⟨rfl, k, hi, hb, fun p x hx => ?_⟩
    show (hasher.write k p).bind _ = _
    simp only [hasher]
    rw [hx]
    rfl
  | cons op ops ih =>
    intro k m hi hb ha
    cases op with
    | write p =>
      obtain ⟨a1, a2, a3⟩ := ha
      obtain ⟨k1, e1, e2, e3⟩ := Lemmas.KeccakC.write_fits hi p a1 a2
      obtain ⟨r1, k', r2, r3, r4⟩ := ih k1 (m ++ p) e2 (by rw [e3, hb]) a3
      have hw : hasher.write k p = .ok (k1, p.length) := by simp only [hasher]; rw [e1]; rfl
      refine ⟨?_, k', r2, r3, fun q x hx => ?_⟩
      · show (hasher.write k p).bind _ = _
        rw [hw]
        show (hasher.run k1 ops).bind _ = _
        rw [r1]; rfl
      · show (hasher.write k p).bind _ = _
        rw [hw]
        show (hasher.run k1 (ops ++ [.write q])).bind _ = _
        rw [r4 q x hx]; rfl
    | reset =>
      obtain ⟨r1, k', r2, r3, r4⟩ := ih k.Reset [] (Lemmas.KeccakC.reset_inv hk hb) hb ha
      refine ⟨?_, k', r2, r3, fun q x hx => ?_⟩
      · show (hasher.run k.Reset ops).bind _ = _
        rw [r1]; rfl
      · show (hasher.run k.Reset (ops ++ [.write q])).bind _ = _
        rw [r4 q x hx]; rfl
    | sum b =>
      have hs := Lemmas.KeccakC.sum_ok hi b
      obtain ⟨r1, k', r2, r3, r4⟩ := ih k m hi hb ha
      refine ⟨?_, k', r2, r3, fun q x hx => ?_⟩
      · show (k.Sum b).bind _ = _
        rw [hs]
        show (hasher.run k ops).bind _ = _
        rw [r1]; rfl
      · show (k.Sum b).bind _ = _
        rw [hs]
        show (hasher.run k (ops ++ [.write q])).bind _ = _
        rw [r4 q x hx]; rfl
    | value =>
      obtain ⟨r1, k', r2, r3, r4⟩ := ih k m hi hb ha
      refine ⟨?_, k', r2, r3, fun q x hx => ?_⟩
      · show (hasher.run k ops).bind _ = _
        rw [r1]; rfl
      · show (hasher.run k (ops ++ [.write q])).bind _ = _
        rw [r4 q x hx]; rfl

theorem known224 : Lemmas.KeccakC.Known 18 28 := Or.inl ⟨rfl, rfl⟩
theorem known256 : Lemmas.KeccakC.Known 17 32 := Or.inr (Or.inl ⟨rfl, rfl⟩)
theorem known384 : Lemmas.KeccakC.Known 13 48 := Or.inr (Or.inr (Or.inl ⟨rfl, rfl⟩))
theorem known512 : Lemmas.KeccakC.Known 9 64 := Or.inr (Or.inr (Or.inr ⟨rfl, rfl⟩))

/-- C94. Every history of sound writes, resets and sums on the four constructors sees the Keccak sponge of the bytes written since the last reset. -/
theorem C94_history (ops : List HOp) :
    (AllSound 144 [] ops → hasher.run New224 ops = .ok (contract (sponge 24 144 28) (fun _ => []) [] ops)) ∧
    (AllSound 136 [] ops → hasher.run New256 ops = .ok (contract (sponge 24 136 32) (fun _ => []) [] ops)) ∧
    (AllSound 104 [] ops → hasher.run New384 ops = .ok (contract (sponge 24 104 48) (fun _ => []) [] ops)) ∧
    (AllSound 72 [] ops → hasher.run New512 ops = .ok (contract (sponge 24 72 64) (fun _ => []) [] ops)) :=
  ⟨fun h => (run_sound known224 ops _ [] (Lemmas.KeccakC.new_inv known224).1 rfl h).1, fun h => (run_sound known256 ops _ [] (Lemmas.KeccakC.new_inv known256).1 rfl h).1,
    fun h => (run_sound known384 ops _ [] (Lemmas.KeccakC.new_inv known384).1 rfl h).1, fun h => (run_sound known512 ops _ [] (Lemmas.KeccakC.new_inv known512).1 rfl h).1⟩

/-- Writes of at most 2^29 - 200 bytes are always sound. -/
theorem allSound_of_short (r : Nat) (h0 : 0 < r) (hr : r ≤ 200) (ops : List HOp) (h : ∀ p, HOp.write p ∈ ops → p.length ≤ 2 ^ 29 - 200) : ∀ m, AllSound r m ops := by
  induction ops with
  | nil => intro m; trivial
  | cons op ops ih =>
    intro m
    have ih := ih fun p hp => h p (List.mem_cons_of_mem _ hp)
    cases op with
    | write p =>
      have hp := h p List.mem_cons_self
      refine ⟨by omega, ?_, ih _⟩
      have hq := Nat.mod_lt m.length h0
      unfold Sound
      rw [Nat.mod_eq_of_lt (show p.length < 2 ^ 29 by omega)]
      omega
    | reset => exact ih _
    | sum b => exact ih _
    | value => exact ih _

/-- C94. In particular for every history whose writes are shorter than half a gigabyte. -/
theorem C94_short_writes (ops : List HOp) (h : ∀ p, HOp.write p ∈ ops → p.length ≤ 2 ^ 29 - 200) :
    hasher.run New224 ops = .ok (contract (sponge 24 144 28) (fun _ => []) [] ops) ∧
    hasher.run New256 ops = .ok (contract (sponge 24 136 32) (fun _ => []) [] ops) ∧
    hasher.run New384 ops = .ok (contract (sponge 24 104 48) (fun _ => []) [] ops) ∧
    hasher.run New512 ops = .ok (contract (sponge 24 72 64) (fun _ => []) [] ops) :=
  ⟨(C94_history ops).1 (allSound_of_short 144 (by decide) (by decide) ops h []), (C94_history ops).2.1 (allSound_of_short 136 (by decide) (by decide) ops h []),
    (C94_history ops).2.2.1 (allSound_of_short 104 (by decide) (by decide) ops h []), (C94_history ops).2.2.2 (allSound_of_short 72 (by decide) (by decide) ops h [])⟩

/-- C94. A whole message in one `Write` on a fresh or freshly reset object is hashed correctly whatever its length below 2^61. -/
theorem C94_one_shot (p b : List U8) (hp : p.length < 2 ^ 61) :
    hasher.run New224 [.write p, .sum b] = .ok [.wrote p.length, .bytes (b ++ sponge 24 144 28 p)] ∧
    hasher.run New256 [.write p, .sum b] = .ok [.wrote p.length, .bytes (b ++ sponge 24 136 32 p)] ∧
    hasher.run New384 [.write p, .sum b] = .ok [.wrote p.length, .bytes (b ++ sponge 24 104 48 p)] ∧
    hasher.run New512 [.write p, .sum b] = .ok [.wrote p.length, .bytes (b ++ sponge 24 72 64 p)] :=
  ⟨(C94_history _).1 ⟨hp, Or.inl rfl, trivial⟩, (C94_history _).2.1 ⟨hp, Or.inl rfl, trivial⟩, (C94_history _).2.2.1 ⟨hp, Or.inl rfl, trivial⟩, (C94_history _).2.2.2 ⟨hp, Or.inl rfl, trivial⟩⟩

/-- C94_one_shot and C95 at work. -/
example : hasher.run New256 [.write [1#8, 2#8], .sum []] = .ok [.wrote 2, .bytes ([] ++ sponge 24 136 32 [1#8, 2#8])] := (C94_one_shot [1#8, 2#8] [] (by decide)).2.1

/-- The history of three chunks that cross the block boundary meets the hypotheses. -/
example : AllSound 136 [] [.write (List.replicate 100 1#8), .sum [], .write (List.replicate 100 2#8), .reset, .write [3#8], .sum [7#8]] :=
  allSound_of_short 136 (by decide) (by decide) _ (by
    intro p hp
    simp only [List.mem_cons, HOp.write.injEq, reduceCtorEq, List.not_mem_nil, or_false, false_or] at hp
    rcases hp with rfl | rfl | rfl <;> decide) []

/-! ## C95 -/

/-- C95. Packages keccak and keccakpg are interchangeable at 224, 256, 384 and 512 bits. -/
theorem C95_packages_agree (ops : List HOp) (h : ∀ p, HOp.write p ∈ ops → p.length ≤ 2 ^ 29 - 200) :
    hasher.run New224 ops = Model.Keccak.hasher.run Model.Keccak.New224 ops ∧
    hasher.run New256 ops = Model.Keccak.hasher.run Model.Keccak.New256 ops ∧
    hasher.run New384 ops = Model.Keccak.hasher.run Model.Keccak.New384 ops ∧
    hasher.run New512 ops = Model.Keccak.hasher.run Model.Keccak.New512 ops := by
  obtain ⟨a, b, c, d⟩ := C94_short_writes ops h
  obtain ⟨-, a', b', c', d'⟩ := C55_standard ops
  exact ⟨a.trans a'.symm, b.trans b'.symm, c.trans c'.symm, d.trans d'.symm⟩

/-! ## C96 -/

/-- What a `Write` of `p` does after the history `ops` on `k`, rate `r`. -/
def WriteOutcome (k : Keccak) (r : Nat) (ops : List HOp) (p : List U8) : Prop :=
  let q := (written [] ops).length % r
  (Sound r q p.length → ∃ out, hasher.run k (ops ++ [.write p]) = .ok (out ++ [.wrote p.length])) ∧
  (¬ Sound r q p.length → 2 ^ 29 ≤ p.length % 2 ^ 29 + q → hasher.run k (ops ++ [.write p]) = .error .unsafeOOB) ∧
  (¬ Sound r q p.length → p.length % 2 ^ 29 + q < 2 ^ 29 → hasher.run k (ops ++ [.write p]) = .error .diverge)

theorem contract_snoc (d : List U8 → List U8) (p : List U8) (ops : List HOp) : ∀ m, contract d (fun _ => []) m (ops ++ [.write p]) = contract d (fun _ => []) m ops ++ [.wrote p.length] := by
  induction ops with
  | nil => intro m; rfl
  | cons op ops ih => intro m; cases op <;> simp only [List.cons_append, contract, ih]

theorem allSound_snoc (r : Nat) (p : List U8) (hp : p.length < 2 ^ 61) (ops : List HOp) : ∀ m, AllSound r m ops → Sound r ((written m ops).length % r) p.length → AllSound r m (ops ++ [.write p]) := by
  induction ops with
  | nil => intro m _ h; exact ⟨hp, h, trivial⟩
  | cons op ops ih =>
    intro m ha h
    cases op with
    | write q => exact ⟨ha.1, ha.2.1, ih _ ha.2.2 h⟩
    | reset => exact ih _ ha h
    | sum b => exact ih _ ha h
    | value => exact ih _ ha h

theorem outcome {n size : Nat} (hk : Lemmas.KeccakC.Known n size) (ops : List HOp) (ha : AllSound (8 * n) [] ops) (p : List U8) (hp : p.length < 2 ^ 61) :
    WriteOutcome (newKeccak (BitVec.ofNat 32 (8 * size))) (8 * n) ops p := by
  have hi := (Lemmas.KeccakC.new_inv hk).1
  obtain ⟨-, k', i', -, he⟩ := run_sound hk ops _ [] hi rfl ha
  have hpos : 0 < 8 * n := by unfold Lemmas.KeccakC.Known at hk; omega
  have hlt := Nat.mod_lt (written [] ops).length hpos
  have hml := Nat.mod_lt p.length (show 2 ^ 29 > 0 by decide)
  refine ⟨fun hs => ?_, fun hs h => ?_, fun hs h => ?_⟩
  · refine ⟨contract (sponge 24 (8 * n) size) (fun _ => []) [] ops, ?_⟩
    rw [(run_sound hk _ _ [] hi rfl (allSound_snoc _ p hp ops [] ha hs)).1, contract_snoc]
  · refine he p _ (Lemmas.KeccakC.write_overflow i' p hp ?_ h)
    unfold Sound at hs
    omega
  · unfold Sound at hs
    refine he p _ (Lemmas.KeccakC.write_stuck i' p hp (by omega) ?_ (by omega)).2
    rcases Nat.lt_or_ge p.length (2 ^ 29) with h' | h'
    · rw [Nat.mod_eq_of_lt h'] at hs; omega
    · exact h'

/-- C96. What every `Write` does, after every history of sound writes: a sound one succeeds; one that is not overruns the 192-byte queue or never returns. -/
theorem C96_write_outcomes (ops : List HOp) (p : List U8) (hp : p.length < 2 ^ 61) :
    (AllSound 144 [] ops → WriteOutcome New224 144 ops p) ∧ (AllSound 136 [] ops → WriteOutcome New256 136 ops p) ∧
    (AllSound 104 [] ops → WriteOutcome New384 104 ops p) ∧ (AllSound 72 [] ops → WriteOutcome New512 72 ops p) :=
  ⟨fun h => outcome known224 ops h p hp, fun h => outcome known256 ops h p hp, fun h => outcome known384 ops h p hp, fun h => outcome known512 ops h p hp⟩

/-- C96. The loop that does not end does not end for any number of rounds. -/
theorem C96_never_returns (x : U8) (p : List U8) (hp : p.length = 2 ^ 29) :
    ∃ k, New256.Write [x] = .ok (k, 1, false) ∧ ∀ fuel, absorbLoop fuel p (BitVec.ofNat 64 (p.length * 8)) k.hashState 0#64 = .error .diverge := by
  obtain ⟨k, e1, e2, -⟩ := Lemmas.KeccakC.write_fits (Lemmas.KeccakC.new_inv known256).1 [x] (by simp) (Or.inl rfl)
  refine ⟨k, e1, (Lemmas.KeccakC.write_stuck e2 p (by rw [hp]; decide) (by show 0 < 1 % 136; decide) (by rw [hp]) (by rw [hp]; show 2 ^ 29 % 2 ^ 29 + 1 % 136 < 136; decide)).1⟩

/-- C96. Refuted: `Write` accepts every slice (`hash.Hash`: "It never returns an error"). One byte and then 2^29 bytes hang, one byte and then 2^29 - 1 bytes overrun the queue. -/
theorem C96_write_total_violated (x : U8) (p : List U8) :
    (p.length = 2 ^ 29 → hasher.run New256 [.write [x], .write p] = .error .diverge) ∧
    (p.length = 2 ^ 29 - 1 → hasher.run New256 [.write [x], .write p] = .error .unsafeOOB) := by
  have hs : AllSound 136 [] [.write [x]] := ⟨by simp, Or.inl rfl, trivial⟩
  refine ⟨fun hp => ?_, fun hp => ?_⟩
  · refine ((C96_write_outcomes [.write [x]] p (by rw [hp]; decide)).2.1 hs).2.2 ?_ ?_
    · rw [hp]
      show ¬ Sound 136 1 (2 ^ 29)
      unfold Sound
      omega
    · rw [hp]
      show 2 ^ 29 % 2 ^ 29 + 1 < 2 ^ 29
      decide
  · refine ((C96_write_outcomes [.write [x]] p (by rw [hp]; decide)).2.1 hs).2.1 ?_ ?_
    · rw [hp]
      show ¬ Sound 136 1 (2 ^ 29 - 1)
      unfold Sound
      omega
    · rw [hp]
      show 2 ^ 29 ≤ (2 ^ 29 - 1) % 2 ^ 29 + 1
      decide

/-- There is such a slice, and a longer one that is sound again. -/
example : ∃ p : List U8, p.length = 2 ^ 29 := ⟨List.replicate _ 0#8, List.length_replicate⟩
example : Sound 136 1 (2 ^ 29 + 135) ∧ Sound 136 1 (2 ^ 29 - 2) ∧ ¬ Sound 136 1 (2 ^ 29 + 134) := by
  unfold Sound; omega

/-! ## C97 -/

/-- C97. Sizes: the digest length, and the block size the sponge really uses. -/
theorem C97_sizes : New224.Size = 28 ∧ New256.Size = 32 ∧ New384.Size = 48 ∧ New512.Size = 64 ∧
    New224.BlockSize = 144 ∧ New256.BlockSize = 136 ∧ New384.BlockSize = 104 ∧ New512.BlockSize = 72 := by decide

/-- C97. `Reset` on an object of any contents (whatever happened to it) gives an object that behaves like a new one. -/
theorem C97_reset (s : Sponge) (ops : List HOp) :
    hasher.run (Keccak.Reset ⟨s, 224#32⟩) ops = hasher.run New224 ops ∧ hasher.run (Keccak.Reset ⟨s, 256#32⟩) ops = hasher.run New256 ops ∧
    hasher.run (Keccak.Reset ⟨s, 384#32⟩) ops = hasher.run New384 ops ∧ hasher.run (Keccak.Reset ⟨s, 512#32⟩) ops = hasher.run New512 ops := ⟨rfl, rfl, rfl, rfl⟩

/-- C97. `Sum` never changes the object, whatever its state. -/
theorem C97_sum_pure (k k' : Keccak) (b d : List U8) (h : k.Sum b = .ok (k', d)) : k' = k := by
  unfold Keccak.Sum at h
  dsimp only at h
  cases e : Final k.hashState (List.replicate k.Size 0#8) with
  | error x => rw [e] at h; exact nomatch h
  | ok r =>
    rw [e, Go.bind_ok] at h
    split at h
    · exact nomatch h
    · exact (congrArg Prod.fst (Except.ok.inj h)).symm

/-- C97. A `Write` that returns an error reports 0 of a non-empty slice: so no `Write` of a history covered by C94 returns an error. -/
theorem C97_error_visible (k k' : Keccak) (p : List U8) (n : Nat) (err : Bool) (h : k.Write p = .ok (k', n, err)) : (err = true → n ≠ p.length) ∧ (err = false → n = p.length) := by
  unfold Keccak.Write at h
  dsimp only at h
  by_cases h0 : p.length = 0
  · rw [if_pos h0, Go.pure_ok] at h
    have h := Except.ok.inj h
    simp only [Prod.mk.injEq] at h
    refine ⟨fun c => ?_, fun _ => by omega⟩
    rw [← h.2.2] at c
    exact nomatch c
  · rw [if_neg h0] at h
    cases e : Update k.hashState p (BitVec.ofNat 64 (p.length * 8)) with
    | error x => rw [e] at h; exact nomatch h
    | ok r =>
      rw [e, Go.bind_ok] at h
      split at h
      · have h := Except.ok.inj h
        simp only [Prod.mk.injEq] at h
        refine ⟨fun _ => by omega, fun c => ?_⟩
        rw [← h.2.2] at c
        exact nomatch c
      · have h := Except.ok.inj h
        simp only [Prod.mk.injEq] at h
        refine ⟨fun c => ?_, fun _ => by omega⟩
        rw [← h.2.2] at c
        exact nomatch c

/-- C97. What `hashf` does with its keccak224 object (Reset, Write the key, Sum), from any earlier contents. -/
theorem C97_keyed_use (s : Sponge) (key fp : List U8) (h : key.length < 2 ^ 61) :
    hasher.run ⟨s, 224#32⟩ [.reset, .write key, .sum fp] = .ok [.done, .wrote key.length, .bytes (fp ++ sponge 24 144 28 key)] := by
  show (hasher.run (Keccak.Reset ⟨s, 224#32⟩) [.write key, .sum fp]).bind _ = _
  rw [(C97_reset s _).1, (C94_one_shot key fp h).1]
  rfl

/-- C97_keyed_use at work, for a sponge left in any state. -/
example (s : Sponge) : hasher.run ⟨s, 224#32⟩ [.reset, .write [1#8], .sum []] = .ok [.done, .wrote 1, .bytes ([] ++ sponge 24 144 28 [1#8])] := C97_keyed_use s [1#8] [] (by decide)

end Verif.Props
