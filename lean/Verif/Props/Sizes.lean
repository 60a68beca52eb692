import Verif.Model.Accessors
import Verif.Spec.Sizes
import Verif.Props.SipHash
import Verif.Props.Murmur3
import Verif.Props.Jenkins
import Verif.Props.Keccak
import Verif.Props.KeccakC
import Verif.Props.Small
import Verif.Lemmas.Hashf

/-! # C98: `Size()` and what `Sum` appends -/

namespace Verif.Props
open Verif Verif.Spec.Sizes Verif.Model

theorem contract_appends {digest : List U8 → List U8} {value : List U8 → List U64} {n : Int} (h : ∀ m, ((digest m).length : Int) = n) (ops : List HOp) :
    ∀ m, SumsAppend n ops (contract digest value m ops) := by
  induction ops with
  | nil => intro m; exact .nil
  | cons op ops ih =>
    intro m
    cases op with
    | write p => exact .cons (fun b e => nomatch e) (ih _)
    | reset => exact .cons (fun b e => nomatch e) (ih _)
    | sum b => exact .cons (fun b' e => ⟨digest m, h m, by cases e; rfl⟩) (ih _)
    | value => exact .cons (fun b e => nomatch e) (ih _)

theorem feedback_appends {pc0 pb0 : U32} {digest : U32 × U32 → List U8} {val : U32 × U32 → List U64} {n : Int}
    (h : ∀ r, ((digest r).length : Int) = n) (ops : List HOp) :
    ∀ m pc pb, SumsAppend n ops (feedback pc0 pb0 digest val m pc pb ops) := by
  induction ops with
  | nil => intro m pc pb; exact .nil
  | cons op ops ih =>
    intro m pc pb
    cases op with
    | write p => exact .cons (fun b e => nomatch e) (ih _ _ _)
    | reset => exact .cons (fun b e => nomatch e) (ih _ _ _)
    | sum b => exact .cons (fun b' e => ⟨_, h _, by cases e; rfl⟩) (ih _ _ _)
    | value => exact .cons (fun b e => nomatch e) (ih _ _ _)

theorem beBytes_len (n x : Nat) : (beBytes n x).length = n := by simp [beBytes, leBytes_length]

/-- C98. siphash: for every key of 16 bytes and every history, each `Sum` of an object made by `New` or `New128` appends `Size()` bytes. -/
theorem C98_siphash (key : List U8) (hk : key.length = 16) (ops : List HOp) :
    (∃ d out, SipHash.newDigest 8 key = .ok d ∧ SipHash.hasher.run d ops = .ok out ∧ SumsAppend (Accessors.sip d).size ops out) ∧
    (∃ d out, SipHash.newDigest 16 key = .ok d ∧ SipHash.hasher128.run d ops = .ok out ∧ SumsAppend (Accessors.sip d).size ops out) := by
  constructor
  · have h := C16_contract64 key hk ops
    obtain ⟨d, e, hs, _⟩ := newDigest_good 8 (Or.inl rfl) key (by omega)
    rw [e, Go.bind_ok] at h
    refine ⟨d, _, e, h, ?_⟩
    rw [show (Accessors.sip d).size = 8 by show (d.size : Int) = 8; rw [hs]; rfl]
    exact contract_appends (fun m => by rw [leBytes_length]; rfl) ops []
  · have h := C16_contract128 key hk ops
    obtain ⟨d, e, hs, _⟩ := newDigest_good 16 (Or.inr rfl) key (by omega)
    rw [e, Go.bind_ok] at h
    refine ⟨d, _, e, h, ?_⟩
    rw [show (Accessors.sip d).size = 16 by show (d.size : Int) = 16; rw [hs]; rfl]
    exact contract_appends (fun m => by rw [List.length_append, leBytes_length, leBytes_length]; rfl) ops []

/-- C98. murmur3: `New32` and `New128` append `Size()` bytes in every `Sum`; `New64` appends 8 although its `Size()` is 16. -/
theorem C98_murmur3 (ops : List HOp) :
    (∃ out, Murmur3.hasher32.run (Murmur3.new Murmur3.mixer32) ops = .ok out ∧ SumsAppend (Accessors.murmur32 (Murmur3.new Murmur3.mixer32)).size ops out) ∧
    (∃ out, Murmur3.hasher128.run (Murmur3.new Murmur3.mixer128) ops = .ok out ∧ SumsAppend (Accessors.murmur128 (Murmur3.new Murmur3.mixer128)).size ops out) ∧
    (∃ out, Murmur3.hasher64.run (Murmur3.new Murmur3.mixer128) ops = .ok out ∧ SumsAppend 8 ops out) := by
  refine ⟨⟨_, C26_history32 ops, contract_appends (fun m => ?_) ops []⟩, ⟨_, C26_history128 ops, contract_appends (fun m => ?_) ops []⟩,
    ⟨_, C26_history64 ops, contract_appends (fun m => ?_) ops []⟩⟩
  · rw [beBytes_len]; rfl
  · rw [List.length_append, beBytes_len, beBytes_len]; rfl
  · rw [beBytes_len]; rfl

/-- C98 (refutation). `Size()` of a `murmur3.New64()` is never what `Sum` appends. -/
theorem C98_murmur64_violated (pre : List HOp) (b : List U8) : (Accessors.murmur64 (Murmur3.new Murmur3.mixer128)).size = 16 ∧
    ∀ out, Murmur3.hasher64.run (Murmur3.new Murmur3.mixer128) (pre ++ [.sum b]) = .ok out →
      ¬ SumsAppend (Accessors.murmur64 (Murmur3.new Murmur3.mixer128)).size (pre ++ [.sum b]) out := by
  refine ⟨rfl, fun out h hs => ?_⟩
  obtain ⟨out', h', hs'⟩ := (C98_murmur3 (pre ++ [.sum b])).2.2
  rw [h] at h'
  cases Except.ok.inj h'
  have key : ∀ (pre : List HOp) (out : List HOut), SumsAppend 16 (pre ++ [.sum b]) out → SumsAppend 8 (pre ++ [.sum b]) out → False := by
    intro pre
    induction pre with
    | nil =>
      intro out h1 h2
      cases h1 with
      | cons a _ =>
        cases h2 with
        | cons c _ =>
          obtain ⟨d, hd, rfl⟩ := a b rfl
          obtain ⟨d', hd', e⟩ := c b rfl
          cases List.append_cancel_left (HOut.bytes.inj e)
          omega
    | cons op pre ih =>
      intro out h1 h2
      cases h1 with
      | cons _ h1 =>
        cases h2 with
        | cons _ h2 => exact ih _ h1 h2
  exact key pre out hs hs'

/-- C98. jenkins: `New`/`New332c`, `New364` and `New232` append `Size()` bytes in every `Sum`. -/
theorem C98_jenkins (s32 : U32) (s64 : U64) (ops : List HOp) :
    (∃ out, Jenkins.hasher332c.run (Jenkins.new332c s32) ops = .ok out ∧ SumsAppend (Accessors.j332c (Jenkins.new332c s32)).size ops out) ∧
    (∃ out, Jenkins.hasher364.run (Jenkins.new364 s64) ops = .ok out ∧ SumsAppend (Accessors.j364 (Jenkins.new364 s64)).size ops out) ∧
    (∃ out, Jenkins.hasher232.run (Jenkins.new232 s32) ops = .ok out ∧ SumsAppend (Accessors.j232 (Jenkins.new232 s32)).size ops out) := by
  refine ⟨⟨_, C36_history332c s32 ops, feedback_appends (fun r => ?_) ops _ _ _⟩, ⟨_, C36_history364 s64 ops, feedback_appends (fun r => ?_) ops _ _ _⟩,
    ⟨_, C35_history232 s32 ops, contract_appends (fun m => ?_) ops []⟩⟩
  · rw [beBytes_len]; rfl
  · rw [List.length_append, beBytes_len]; rfl
  · rw [beBytes_len]; rfl

/-- C98. keccakpg: for every digest of at most 99 bytes (larger ones have no positive block size) and at most 24 rounds. -/
theorem C98_keccakpg (bits rounds : Nat) (h1 : bits / 8 ≤ 99) (hr : rounds ≤ 24) (ops : List HOp) :
    ∃ out, Keccak.hasher.run (Keccak.NewCustom bits rounds) ops = .ok out ∧ SumsAppend (Accessors.keccakpg (Keccak.NewCustom bits rounds)).size ops out := by
  refine ⟨_, Lemmas.Keccak.run_ok bits rounds h1 hr ops, contract_appends (fun m => ?_) ops []⟩
  rw [Lemmas.Hashf.digestW_length (by omega)]
  rfl

theorem sponge_length {n r size : Nat} (h8 : r % 8 = 0) (hr : 0 < r) (h200 : r ≤ 200) (hs : size ≤ r) (m : List U8) :
    (Spec.Keccak.sponge n r size m).length = size := by
  rw [← Lemmas.Hashf.digestW_sponge h8 hr h200 hs, Lemmas.Hashf.digestW_length (by omega)]

/-- C98. keccak (C): for every history of sound writes (C96 says which these are), each `Sum` appends `Size()` bytes. -/
theorem C98_keccak (ops : List HOp) (h : ∀ p, HOp.write p ∈ ops → p.length ≤ 2 ^ 29 - 200) :
    (∃ out, KeccakC.hasher.run KeccakC.New224 ops = .ok out ∧ SumsAppend (Accessors.keccak KeccakC.New224).size ops out) ∧
    (∃ out, KeccakC.hasher.run KeccakC.New256 ops = .ok out ∧ SumsAppend (Accessors.keccak KeccakC.New256).size ops out) ∧
    (∃ out, KeccakC.hasher.run KeccakC.New384 ops = .ok out ∧ SumsAppend (Accessors.keccak KeccakC.New384).size ops out) ∧
    (∃ out, KeccakC.hasher.run KeccakC.New512 ops = .ok out ∧ SumsAppend (Accessors.keccak KeccakC.New512).size ops out) := by
  obtain ⟨h1, h2, h3, h4⟩ := C94_short_writes ops h
  refine ⟨⟨_, h1, contract_appends (fun m => ?_) ops []⟩, ⟨_, h2, contract_appends (fun m => ?_) ops []⟩,
    ⟨_, h3, contract_appends (fun m => ?_) ops []⟩, ⟨_, h4, contract_appends (fun m => ?_) ops []⟩⟩ <;>
  · rw [sponge_length (by decide) (by decide) (by decide) (by decide)]; rfl

/-- The hypotheses of C98_siphash, C98_keccakpg and C98_keccak are met: a key of sixteen bytes, a digest of five bytes, a short write. -/
example : (List.replicate 16 7#8).length = 16 ∧ 40 / 8 ≤ 99 ∧ ∀ p : List U8, HOp.write p ∈ [HOp.write [1#8], .sum []] → p.length ≤ 2 ^ 29 - 200 := by
  refine ⟨rfl, by decide, ?_⟩
  intro p hp
  simp only [List.mem_cons, HOp.write.injEq, reduceCtorEq, List.not_mem_nil, or_false] at hp
  subst hp
  decide

/-- C98. nullhash: `Sum` appends `Size()` bytes in every state. -/
theorem C98_nullhash (s : NullHash.State) (b : List U8) :
    ∃ d : List U8, (NullHash.call s (.sum b)).2 = .bytes (b ++ d) ∧ (d.length : Int) = (Accessors.nullhash s).size := ⟨_, rfl, rfl⟩

/-- C98. Where an object reports its width in bits, it is eight times its size in bytes; every block size is positive, and
keccakpg's is the number of bytes absorbed per permutation for digests of at most 99 bytes. -/
theorem C98_widths :
    (∀ i ∈ [Accessors.j332c (Jenkins.new332c 0), Accessors.j364 (Jenkins.new364 0), Accessors.j232 (Jenkins.new232 0), Accessors.sbox, Accessors.crapwow],
      i.bits = some (8 * i.size) ∧ 0 < i.blockSize) ∧
    ∀ bits rounds : Nat, 0 < (Accessors.keccakpg (Keccak.NewCustom bits rounds)).blockSize ↔ bits / 8 ≤ 99 := by
  refine ⟨by decide, fun bits rounds => ?_⟩
  show 0 < (200 - 2 * ((bits / 8 : Nat) : Int)) ↔ _
  omega

/-- C98. The block size every object reports, in every state it can have: 8 for siphash and nullhash, 1 for murmur3, j332c and j364, 12 for j232, 2 for sbox, 8 for
CrapWow; for the Keccak objects the number of bytes absorbed per permutation. The lengths of the seeds: 8 bytes for j332c, j364 and nullhash, 4 for j232, sbox and CrapWow. -/
theorem C98_blocks :
    (∀ d, (Accessors.sip d).blockSize = 8) ∧ (∀ d, (Accessors.murmur32 d).blockSize = 1) ∧ (∀ d, (Accessors.murmur64 d).blockSize = 1) ∧
    (∀ d, (Accessors.murmur128 d).blockSize = 1) ∧
    (∀ d, (Accessors.j332c d).blockSize = 1 ∧ (Accessors.j332c d).seedBytes = some 8) ∧ (∀ d, (Accessors.j364 d).blockSize = 1 ∧ (Accessors.j364 d).seedBytes = some 8) ∧
    (∀ d, (Accessors.j232 d).blockSize = 12 ∧ (Accessors.j232 d).seedBytes = some 4) ∧ (∀ s, (Accessors.nullhash s).blockSize = 8 ∧ (Accessors.nullhash s).seedBytes = some 8) ∧
    (Accessors.sbox.blockSize = 2 ∧ Accessors.sbox.seedBytes = some 4) ∧ (Accessors.crapwow.blockSize = 8 ∧ Accessors.crapwow.seedBytes = some 4) ∧
    (∀ bits rounds : Nat, (Accessors.keccakpg (Keccak.NewCustom bits rounds)).blockSize = 200 - 2 * ((bits / 8 : Nat) : Int)) ∧
    ([KeccakC.New224, KeccakC.New256, KeccakC.New384, KeccakC.New512].map fun k => (Accessors.keccak k).blockSize) = [144, 136, 104, 72] := by
  refine ⟨fun _ => rfl, fun _ => rfl, fun _ => rfl, fun _ => rfl, fun _ => ⟨rfl, rfl⟩, fun _ => ⟨rfl, rfl⟩, fun _ => ⟨rfl, rfl⟩, fun _ => ⟨rfl, rfl⟩, ⟨rfl, rfl⟩, ⟨rfl, rfl⟩,
    fun _ _ => rfl, rfl⟩

/-- A history the theorems apply to: two sums around a write and a reset. -/
example : SumsAppend 4 [.write [1#8], .sum [9#8], .reset, .sum []] [.wrote 1, .bytes [9#8, 1#8, 2#8, 3#8, 4#8], .done, .bytes [1#8, 2#8, 3#8, 4#8]] :=
  .cons (fun _ e => nomatch e) (.cons (fun b e => ⟨[1#8, 2#8, 3#8, 4#8], rfl, by cases e; rfl⟩) (.cons (fun _ e => nomatch e)
    (.cons (fun b e => ⟨[1#8, 2#8, 3#8, 4#8], rfl, by cases e; rfl⟩) .nil)))

end Verif.Props
