import Verif.Lemmas.Murmur3Inj

/-! # Properties of package murmur3 (C21-C26) -/

namespace Verif.Props
open Verif Verif.Model.Murmur3 Verif.Lemmas.Murmur3

/-- C21. The one-shot `Sum32` is MurmurHash3_x86_32 with seed 0, for every input; it never faults
(so no `unsafe` load leaves the slice). -/
theorem C21_sum32_is_murmur3 (data : List U8) : Sum32 data = .ok (Spec.Murmur3.x86_32 0#32 data) := Sum32_eq data

/-- Any sequence of `Write`s. -/
def murmurWrites (x : Mixer σ) : Digest σ → List (List U8) → Go (Digest σ)
  | d, [] => .ok d
  | d, p :: ps => do
    let (d, _) ← d.write x p
    murmurWrites x d ps

theorem murmurWrites_ok {x : Mixer σ} {step : σ → List U8 → σ} (f : Folds x step) (ps : List (List U8))
    {d : Digest σ} {m : List U8} (j : J x step d m) :
    ∃ d', murmurWrites x d ps = .ok d' ∧ J x step d' (m ++ ps.flatten) := by
  induction ps generalizing d m with
  | nil => exact ⟨d, rfl, by simpa using j⟩
  | cons p ps ih =>
    obtain ⟨d1, e, j1⟩ := write_ok f j p
    obtain ⟨d2, e2, j2⟩ := ih j1
    refine ⟨d2, ?_, ?_⟩
    · simp only [murmurWrites, e]; exact e2
    · simpa [List.append_assoc] using j2

/-- C22. Whatever way a message is cut into `Write`s, `New32` … `Sum32` gives the one-shot `Sum32` of
the concatenation. (`sum32` is a function of the digest that returns no new digest, as in the source,
where `Sum32` assigns only local variables; see C26 for interleaved calls.) -/
theorem C22_stream32 (ps : List (List U8)) :
    (do let d ← murmurWrites mixer32 (new mixer32) ps; d.sum32) = Sum32 ps.flatten := by
  obtain ⟨d, e, j⟩ := murmurWrites_ok folds32 ps (new_J mixer32 step32)
  rw [e, Sum32_eq]
  exact sum32_ok j

/-- C23. One-shot `Sum128` is MurmurHash3_x64_128 with seed 0; `Sum64` is its first half. -/
theorem C23_sum128_is_murmur3 (data : List U8) :
    Sum128 data = .ok (Spec.Murmur3.x64_128 0#64 data) ∧ Sum64 data = .ok (Spec.Murmur3.x64_128 0#64 data).1 := by
  refine ⟨Sum128_eq data, ?_⟩
  simp only [Sum64, Sum128_eq]; rfl

/-- C23. Streaming with any chunking equals one-shot, for both accessors. -/
theorem C23_stream128 (ps : List (List U8)) :
    (do let d ← murmurWrites mixer128 (new mixer128) ps; d.sum128) = Sum128 ps.flatten ∧
    (do let d ← murmurWrites mixer128 (new mixer128) ps; d.sum64) = Sum64 ps.flatten := by
  obtain ⟨d, e, j⟩ := murmurWrites_ok folds128 ps (new_J mixer128 step128)
  rw [e]
  constructor
  · rw [Sum128_eq]; exact sum128_ok j
  · rw [Sum64, Sum128_eq]
    have := sum128_ok j
    simp only [bind, Except.bind, Digest.sum64, List.nil_append] at this ⊢
    rw [this]

/-- Streams cut inside blocks, at block boundaries and with an exactly filling chunk. -/
example : (do let d ← murmurWrites mixer32 (new mixer32) [[0x68#8, 0x65#8], [0x6c#8, 0x6c#8], [0x6f#8]]; d.sum32) =
    .ok 0x248bfa47#32 := by decide +kernel

example : (do let d ← murmurWrites mixer128 (new mixer128) [[0x68#8, 0x65#8], [], [0x6c#8, 0x6c#8, 0x6f#8]]; d.sum128) =
    .ok (0xcbd8a7b341bd9b02#64, 0x5b1e906a48ae1d19#64) := by decide +kernel

/-! ## C24, C26: full call histories -/

/-- The calls a user can make on `New32()`, in any order: every `Write` reports the length of its
argument, `Sum32` is the MurmurHash3 of the bytes written since the last `Reset`, a `Reset` object
behaves like a new one - and `Sum(b)` appends the bytes of the *unfinalised* running value of the
complete blocks. C26 is the part about `Write`, `Reset` and `Sum32`. -/
theorem C26_history32 (ops : List HOp) :
    hasher32.run (new mixer32) ops = .ok (contract (fun m => beBytes 4 (Spec.Murmur3.body32 0#32 m).toNat)
      (fun m => [(Spec.Murmur3.x86_32 0#32 m).setWidth 64]) [] ops) := by
  apply Hasher.run_eq_contract (I := J mixer32 step32)
  · intro s m p j; exact write_ok folds32 j p
  · intro s m j; exact ⟨_, rfl, reset_J j.blen⟩
  · intro s m b j
    refine ⟨s, ?_, j⟩
    simp only [hasher32, Digest.sumBytes32, j.h, be32_eq]; rfl
  · intro s m j
    refine ⟨s, ?_, j⟩
    simp only [hasher32, sum32_ok j]; rfl
  · exact new_J _ _

theorem C26_history64 (ops : List HOp) :
    hasher64.run (new mixer128) ops = .ok (contract (fun m => beBytes 8 (Spec.Murmur3.body128 (0#64, 0#64) m).1.toNat)
      (fun m => [(Spec.Murmur3.x64_128 0#64 m).1]) [] ops) := by
  apply Hasher.run_eq_contract (I := J mixer128 step128)
  · intro s m p j; exact write_ok folds128 j p
  · intro s m j; exact ⟨_, rfl, reset_J j.blen⟩
  · intro s m b j
    refine ⟨s, ?_, j⟩
    simp only [hasher64, Digest.sumBytes64, j.h, be64_eq]; rfl
  · intro s m j
    refine ⟨s, ?_, j⟩
    simp only [hasher64, Digest.sum64, sum128_ok j]; rfl
  · exact new_J _ _

theorem C26_history128 (ops : List HOp) :
    hasher128.run (new mixer128) ops = .ok (contract
      (fun m => beBytes 8 (Spec.Murmur3.body128 (0#64, 0#64) m).1.toNat ++ beBytes 8 (Spec.Murmur3.body128 (0#64, 0#64) m).2.toNat)
      (fun m => [(Spec.Murmur3.x64_128 0#64 m).1, (Spec.Murmur3.x64_128 0#64 m).2]) [] ops) := by
  apply Hasher.run_eq_contract (I := J mixer128 step128)
  · intro s m p j; exact write_ok folds128 j p
  · intro s m j; exact ⟨_, rfl, reset_J j.blen⟩
  · intro s m b j
    refine ⟨s, ?_, j⟩
    simp only [hasher128, Digest.sumBytes128, j.h, be64_eq, List.append_assoc]; rfl
  · intro s m j
    refine ⟨s, ?_, j⟩
    simp only [hasher128, sum128_ok j]; rfl
  · exact new_J _ _

/-- C26. The internal bookkeeping: after any writes fewer bytes than a block are pending, they are the
last bytes of the message, and `clen` is the message length (as a 64-bit word). -/
theorem C26_pending (ps : List (List U8)) :
    (∃ d, murmurWrites mixer32 (new mixer32) ps = .ok d ∧ d.tail.length < 4 ∧ d.tail <:+ ps.flatten ∧
      d.tail.length = ps.flatten.length % 4 ∧ d.clen = BitVec.ofNat 64 ps.flatten.length) ∧
    (∃ d, murmurWrites mixer128 (new mixer128) ps = .ok d ∧ d.tail.length < 16 ∧ d.tail <:+ ps.flatten ∧
      d.tail.length = ps.flatten.length % 16 ∧ d.clen = BitVec.ofNat 64 ps.flatten.length) := by
  constructor
  · obtain ⟨d, e, j⟩ := murmurWrites_ok folds32 ps (new_J mixer32 step32)
    refine ⟨d, e, ?_, ?_, ?_, j.clen⟩
    · rw [j.tail]; exact tailOf_length_lt (by decide) _
    · rw [j.tail]; exact List.drop_suffix _ _
    · rw [j.tail]; exact tailOf_length _ _
  · obtain ⟨d, e, j⟩ := murmurWrites_ok folds128 ps (new_J mixer128 step128)
    refine ⟨d, e, ?_, ?_, ?_, j.clen⟩
    · rw [j.tail]; exact tailOf_length_lt (by decide) _
    · rw [j.tail]; exact List.drop_suffix _ _
    · rw [j.tail]; exact tailOf_length _ _

/-- C24 is false of the code: `Sum` does not satisfy the `hash.Hash` contract (append the big-endian bytes of
`Sum32`, `Sum64`, `Sum128`). Witness: one written byte, for which all three append only zero bytes. -/
theorem C24_violated :
    (¬ ∀ ops, hasher32.run (new mixer32) ops = .ok (contract (fun m => beBytes 4 (Spec.Murmur3.x86_32 0#32 m).toNat)
      (fun m => [(Spec.Murmur3.x86_32 0#32 m).setWidth 64]) [] ops)) ∧
    (¬ ∀ ops, hasher64.run (new mixer128) ops = .ok (contract (fun m => beBytes 8 (Spec.Murmur3.x64_128 0#64 m).1.toNat)
      (fun m => [(Spec.Murmur3.x64_128 0#64 m).1]) [] ops)) ∧
    (¬ ∀ ops, hasher128.run (new mixer128) ops = .ok (contract
      (fun m => beBytes 8 (Spec.Murmur3.x64_128 0#64 m).1.toNat ++ beBytes 8 (Spec.Murmur3.x64_128 0#64 m).2.toNat)
      (fun m => [(Spec.Murmur3.x64_128 0#64 m).1, (Spec.Murmur3.x64_128 0#64 m).2]) [] ops)) := by
  refine ⟨fun h => ?_, fun h => ?_, fun h => ?_⟩ <;>
  · have := h [.write [1#8], .sum []]
    revert this
    decide +kernel

/-- C24, what holds instead (32 bit): pending bytes `t` do not influence `Sum`; it appends four bytes
that depend on the complete blocks alone. -/
theorem C24_sum32 (m t b : List U8) (hm : m.length % 4 = 0) (ht : t.length < 4) :
    hasher32.run (new mixer32) [.write m, .write t, .sum b] =
      .ok [.wrote m.length, .wrote t.length, .bytes (b ++ beBytes 4 (Spec.Murmur3.body32 0#32 m).toNat)] := by
  have e : Spec.Murmur3.body32 0#32 (m ++ t) = Spec.Murmur3.body32 0#32 m := by
    rw [(body32_append _ _ _ (by omega)).1]
    generalize Spec.Murmur3.body32 0#32 m = q
    rw [Spec.Murmur3.body32, blocks_of_lt ht]; rfl
  rw [C26_history32]
  simp only [contract, List.nil_append, e]

/-- C24_sum32 at work: of "hello" the last letter does not reach `Sum`. -/
example : hasher32.run (new mixer32) [.write [0x68#8, 0x65#8, 0x6c#8, 0x6c#8], .write [0x6f#8], .sum [7#8]] =
    .ok [.wrote 4, .wrote 1, .bytes ([7#8] ++ beBytes 4 (Spec.Murmur3.body32 0#32 [0x68#8, 0x65#8, 0x6c#8, 0x6c#8]).toNat)] :=
  C24_sum32 _ _ _ rfl (by decide)

/-- C24, what holds instead (128 bit). -/
theorem C24_sum128 (m t b : List U8) (hm : m.length % 16 = 0) (ht : t.length < 16) :
    hasher128.run (new mixer128) [.write m, .write t, .sum b] =
      .ok [.wrote m.length, .wrote t.length, .bytes (b ++ (beBytes 8 (Spec.Murmur3.body128 (0#64, 0#64) m).1.toNat ++
        beBytes 8 (Spec.Murmur3.body128 (0#64, 0#64) m).2.toNat))] := by
  have e : Spec.Murmur3.body128 (0#64, 0#64) (m ++ t) = Spec.Murmur3.body128 (0#64, 0#64) m := by
    rw [(body128_append _ _ _ (by omega)).1]
    generalize Spec.Murmur3.body128 (0#64, 0#64) m = q
    rw [Spec.Murmur3.body128, blocks_of_lt ht]; rfl
  rw [C26_history128]
  simp only [contract, List.nil_append, e]

/-- C24_sum128 at work. -/
example : hasher128.run (new mixer128) [.write (List.replicate 16 1#8), .write [0x6f#8], .sum [7#8]] =
    .ok [.wrote 16, .wrote 1, .bytes ([7#8] ++ (beBytes 8 (Spec.Murmur3.body128 (0#64, 0#64) (List.replicate 16 1#8)).1.toNat ++
      beBytes 8 (Spec.Murmur3.body128 (0#64, 0#64) (List.replicate 16 1#8)).2.toNat))] :=
  C24_sum128 _ _ _ rfl (by decide)

/-! ## C25: collisions -/

/-- C25. Two equal-length messages that differ only inside one aligned 4-byte block (or only inside the
final incomplete block) never collide under `Sum32`. -/
theorem C25_one_block32 (x u v y : List U8) (hx : x.length % 4 = 0) (hl : u.length = v.length)
    (hu : u.length = 4 ∨ (u.length < 4 ∧ y = [])) (h : Sum32 (x ++ u ++ y) = Sum32 (x ++ v ++ y)) : u = v := by
  rw [Sum32_eq, Sum32_eq] at h
  exact x86_32_one_block _ x u v y hx hl hu (Except.ok.inj h)

/-- C25. Appending the same bytes to two keys of whole blocks neither makes nor breaks a collision. -/
theorem C25_extend32 (x y z : List U8) (hx : x.length % 4 = 0) (hl : x.length = y.length) :
    Sum32 (x ++ z) = Sum32 (y ++ z) ↔ Sum32 x = Sum32 y := by
  have key : ∀ w, Sum32 (x ++ w) = Sum32 (y ++ w) ↔ Spec.Murmur3.body32 0#32 x = Spec.Murmur3.body32 0#32 y := by
    intro w
    have hlen : (x ++ w).length = (y ++ w).length := by simp [hl]
    have hX := body32_append 0#32 x w hx
    have hY := body32_append 0#32 y w (hl ▸ hx)
    rw [Sum32_eq, Sum32_eq]
    simp only [Spec.Murmur3.x86_32]
    rw [hlen, hX.1, hX.2, hY.1, hY.2]
    constructor
    · intro h
      have := xor_right_inj' _ (xor_right_inj' _ (fmix32_inj (Except.ok.inj h)))
      simp only [Spec.Murmur3.body32] at this ⊢
      exact foldl_inj (fun b s s' => block32_inj_h (le32 b)) _ this
    · intro h
      rw [h]
  have h0 := key []
  rw [List.append_nil, List.append_nil] at h0
  exact (key z).trans h0.symm

/-- C25. The same for `Sum128`. -/
theorem C25_extend128 (x y z : List U8) (hx : x.length % 16 = 0) (hl : x.length = y.length) :
    Sum128 (x ++ z) = Sum128 (y ++ z) ↔ Sum128 x = Sum128 y := by
  have key : ∀ w, Sum128 (x ++ w) = Sum128 (y ++ w) ↔ Spec.Murmur3.body128 (0#64, 0#64) x = Spec.Murmur3.body128 (0#64, 0#64) y := by
    intro w
    have hlen : (x ++ w).length = (y ++ w).length := by simp [hl]
    have hX := body128_append (0#64, 0#64) x w hx
    have hY := body128_append (0#64, 0#64) y w (hl ▸ hx)
    rw [Sum128_eq, Sum128_eq]
    simp only [Spec.Murmur3.x64_128]
    rw [hlen, hX.1, hX.2, hY.1, hY.2]
    constructor
    · intro h
      have h1 := final128_inj (Except.ok.inj h)
      have ha := xor_right_inj' _ (xor_right_inj' _ (congrArg Prod.fst h1))
      have hb := xor_right_inj' _ (xor_right_inj' _ (congrArg Prod.snd h1))
      have := Prod.ext ha hb
      simp only [Spec.Murmur3.body128] at this ⊢
      exact foldl_inj (fun b s s' => block128_inj_h (le64 b) (le64 (b.drop 8))) _ this
    · intro h
      rw [h]
  have h0 := key []
  rw [List.append_nil, List.append_nil] at h0
  exact (key z).trans h0.symm

/-- C25_extend32 at work: two 4-byte keys that do not collide still do not after a common suffix. -/
example : Sum32 ([1#8, 2#8, 3#8, 4#8] ++ [9#8, 9#8, 9#8, 9#8, 9#8]) ≠ Sum32 ([1#8, 2#8, 3#8, 5#8] ++ [9#8, 9#8, 9#8, 9#8, 9#8]) := fun h =>
  absurd ((C25_extend32 [1#8, 2#8, 3#8, 4#8] [1#8, 2#8, 3#8, 5#8] _ rfl rfl).1 h) (by decide +kernel)

/-- C25. `Sum32` is injective on keys of one length up to 4. -/
theorem C25_injective32 (u v : List U8) (hl : u.length = v.length) (hu : u.length ≤ 4) (h : Sum32 u = Sum32 v) : u = v := by
  apply C25_one_block32 [] u v [] rfl hl (by simp; omega)
  simpa using h

/-- C25. The same for `Sum128` with 16-byte blocks. -/
theorem C25_one_block128 (x u v y : List U8) (hx : x.length % 16 = 0) (hl : u.length = v.length)
    (hu : u.length = 16 ∨ (u.length < 16 ∧ y = [])) (h : Sum128 (x ++ u ++ y) = Sum128 (x ++ v ++ y)) : u = v := by
  rw [Sum128_eq, Sum128_eq] at h
  exact x64_128_one_block _ x u v y hx hl hu (Except.ok.inj h)

/-- C25. `Sum128` is injective on keys of one length up to 16. -/
theorem C25_injective128 (u v : List U8) (hl : u.length = v.length) (hu : u.length ≤ 16) (h : Sum128 u = Sum128 v) : u = v := by
  apply C25_one_block128 [] u v [] rfl hl (by simp; omega)
  simpa using h

/-- Case for C25: a prefix of one block, a differing block, a suffix. -/
example : ([1#8, 2#8, 3#8, 4#8] : List U8).length % 4 = 0 ∧
    Sum32 ([1#8, 2#8, 3#8, 4#8] ++ [0#8, 0#8, 0#8, 0#8] ++ [9#8]) ≠ Sum32 ([1#8, 2#8, 3#8, 4#8] ++ [0#8, 0#8, 0#8, 1#8] ++ [9#8]) := by
  decide +kernel

end Verif.Props
