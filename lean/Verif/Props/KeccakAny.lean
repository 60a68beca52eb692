import Verif.Lemmas.KeccakCAny
import Verif.Props.KeccakBits
import Verif.Props.KeccakC

/-!
# C128: the C sponge and the Go package on top of it, however they are compiled

C122 is about the permutation alone. Here the whole library (KeccakSponge.c, KeccakNISTInterface.c) and keccak.go are compiled with any setting `X`, including any choice of the
`ProvideFast...` macros; the contracts are those of C94 and C119, which do not mention `X`.
-/

namespace Verif.Props
open Verif Verif.Model.KeccakC Verif.Spec.KeccakBits
open Verif.Lemmas.KeccakCAny

namespace KeccakAny

/-- After an initialisation that succeeds the objects correspond, whatever their memory held before. -/
theorem fresh_rel (X : Compiled) (s t : Sponge) (op : COp) (h : fresh op ≠ none) :
    Both (fun p q => Rel X p.1 q.1 ∧ p.2 = q.2) (X.cstep s op) (cstep t op) := by
  cases hf : fresh op with
  | none => exact absurd hf h
  | some c =>
    obtain ⟨s', e, -⟩ := fresh_inv t op c hf
    cases op with
    | initSponge r k =>
      have e : (InitSponge t r k).2 = 0 := congrArg (fun x => x.2.code) (Except.ok.inj e)
      have := initSponge_same (X := X) (s := s) (t := t) r k
      exact ⟨this.2 (Or.inl e), by dsimp only; rw [this.1]⟩
    | init l =>
      have e : (Init t l).2 = 0 := congrArg (fun x => x.2.code) (Except.ok.inj e)
      have := init_same' (X := X) (s := s) (t := t) l
      exact ⟨this.2 (Or.inl e), by dsimp only; rw [this.1]⟩
    | absorb _ _ => exact nomatch hf
    | update _ _ => exact nomatch hf
    | squeeze _ _ => exact nomatch hf
    | final _ => exact nomatch hf

end KeccakAny
open KeccakAny

/-- **C128**: from an initialisation that succeeds on, every sequence of calls has the same outcome (all values, all buffers, or the same failure) in every setting as in the settings
of /repo, whatever the memory of the objects held before. -/
theorem C128_any (X : Compiled) (s t : Sponge) (op : COp) (h : fresh op ≠ none) (ops : List COp) : X.crun s (op :: ops) = crun t (op :: ops) := by
  refine Both.eq (Both.bind (fresh_rel X s t op h) ?_)
  intro a b r
  rw [crun_same ops r.1, r.2]
  exact Both.refl _

/-- **C128**: so no caller can tell two settings apart. -/
theorem C128_same (X Y : Compiled) (s t : Sponge) (op : COp) (h : fresh op ≠ none) (ops : List COp) : X.crun s (op :: ops) = Y.crun t (op :: ops) := by
  rw [C128_any X s s op h ops, C128_any Y t s op h ops]

/-- **C128**: a caller that keeps the contract gets the output of the sponge on bit strings, in every setting. -/
theorem C128_history (X : Compiled) (s : Sponge) (op : COp) (c : CState) (hc : fresh op = some c) (ops : List COp) (hr : AllReady c ops) :
    X.crun s (op :: ops) = .ok (⟨0, []⟩ :: promised c ops) := by
  rw [C128_any X s s op (by rw [hc]; exact nofun) ops, C119_history s op c hc ops hr]

/-- **C128**: an initialisation that fails says so and leaves the object alone, in every setting. -/
theorem C128_bad_init (X : Compiled) (s : Sponge) (ops : List COp) :
    (∀ r c : U32, ¬ (r.toNat + c.toNat = 1600 ∧ 0 < r.toNat ∧ r.toNat < 1600 ∧ r.toNat % 64 = 0) → X.crun s (.initSponge r c :: ops) = (X.crun s ops).map (⟨1, []⟩ :: ·)) ∧
    (∀ h : U32, h.toNat ∉ [0, 224, 256, 384, 512] → X.crun s (.init h :: ops) = (X.crun s ops).map (⟨2, []⟩ :: ·)) := by
  have any : ∀ op : COp, ∀ n : Nat, X.cstep s op = .ok (s, ⟨n, []⟩) → X.crun s (op :: ops) = (X.crun s ops).map (⟨n, []⟩ :: ·) := by
    intro op n h
    show (X.cstep s op).bind _ = _
    rw [h]
    show (X.crun s ops).bind _ = _
    cases X.crun s ops <;> rfl
  refine ⟨fun r c h => any _ _ ?_, fun l h => any _ _ ?_⟩
  · unfold Compiled.cstep Compiled.InitSponge
    dsimp only
    split
    · rfl
    · split
      · rfl
      · rename_i a b
        have a : r + c = 1600#32 := not_not.1 a
        have a := congrArg BitVec.toNat a
        rw [BitVec.toNat_add] at a
        have a : (r.toNat + c.toNat) % 4294967296 = 1600 := a
        obtain ⟨n, h1, h2, h3⟩ := valid_rate b
        refine absurd ⟨?_, by omega, by omega, by omega⟩ h
        have := c.isLt
        omega
  · unfold Compiled.cstep Compiled.Init
    dsimp only
    have ne : ∀ m : Nat, m ∈ [0, 224, 256, 384, 512] → l ≠ BitVec.ofNat 32 m := by
      intro m hm e
      have hb : m < 2 ^ 32 := by
        simp only [List.mem_cons, List.not_mem_nil, or_false] at hm
        omega
      rw [e, BitVec.toNat_ofNat, Nat.mod_eq_of_lt hb] at h
      exact h hm
    rw [if_neg (ne 0 (by decide)), if_neg (ne 224 (by decide)), if_neg (ne 256 (by decide)), if_neg (ne 384 (by decide)), if_neg (ne 512 (by decide))]

/-- **C128**: every history of calls on the objects of `New224`, `New256`, `New384` and `New512` has the same outcome (results or failure) in every setting. -/
theorem C128_hash (X : Compiled) (ops : List HOp) :
    X.hasher.run (X.newKeccak 224#32) ops = hasher.run New224 ops ∧ X.hasher.run (X.newKeccak 256#32) ops = hasher.run New256 ops ∧
    X.hasher.run (X.newKeccak 384#32) ops = hasher.run New384 ops ∧ X.hasher.run (X.newKeccak 512#32) ops = hasher.run New512 ops :=
  ⟨run_same ops ⟨(init_same' _).2 (Or.inl rfl), rfl⟩, run_same ops ⟨(init_same' _).2 (Or.inl rfl), rfl⟩, run_same ops ⟨(init_same' _).2 (Or.inl rfl), rfl⟩,
    run_same ops ⟨(init_same' _).2 (Or.inl rfl), rfl⟩⟩

/-- **C128**: with writes below 2^29 - 200 bytes the objects compute Keccak-224, -256, -384 and -512 in every setting. -/
theorem C128_standard (X : Compiled) (ops : List HOp) (h : ∀ p, HOp.write p ∈ ops → p.length ≤ 2 ^ 29 - 200) :
    X.hasher.run (X.newKeccak 224#32) ops = .ok (contract (Spec.Keccak.sponge 24 144 28) (fun _ => []) [] ops) ∧
    X.hasher.run (X.newKeccak 256#32) ops = .ok (contract (Spec.Keccak.sponge 24 136 32) (fun _ => []) [] ops) ∧
    X.hasher.run (X.newKeccak 384#32) ops = .ok (contract (Spec.Keccak.sponge 24 104 48) (fun _ => []) [] ops) ∧
    X.hasher.run (X.newKeccak 512#32) ops = .ok (contract (Spec.Keccak.sponge 24 72 64) (fun _ => []) [] ops) := by
  obtain ⟨a, b, c, d⟩ := C128_hash X ops
  obtain ⟨a', b', c', d'⟩ := C94_short_writes ops h
  exact ⟨a.trans a', b.trans b', c.trans c', d.trans d'⟩

/-- **C128**: and no setting avoids the failures of C96: one byte and then 2^29 bytes hang, one byte and then 2^29 - 1 bytes overrun the queue. -/
theorem C128_write_total_violated (X : Compiled) (x : U8) (p : List U8) :
    (p.length = 2 ^ 29 → X.hasher.run (X.newKeccak 256#32) [.write [x], .write p] = .error .diverge) ∧
    (p.length = 2 ^ 29 - 1 → X.hasher.run (X.newKeccak 256#32) [.write [x], .write p] = .error .unsafeOOB) := by
  rw [(C128_hash X _).2.1]
  exact C96_write_total_violated x p

/-- A setting far from /repo's: the 128-bit registers, unrolling 3, only `ProvideFast1088`, and variables that hold garbage. -/
def KeccakAny.other : Compiled := ⟨.simd128, .u3, fun r => r == 1088, fun st i => 77#64 + st.getD i 5#64⟩

/-- C128_any at work: two objects with different garbage, a rate without a function of its own, and a read past the input in both. -/
example (s t : Sponge) : KeccakAny.other.crun s [.initSponge 512#32 1088#32, .absorb [1#8, 2#8] 9#64, .squeeze [0#8, 0#8, 0#8] 24#64, .init 0#32, .absorb [1#8] 16#64] =
    crun t [.initSponge 512#32 1088#32, .absorb [1#8, 2#8] 9#64, .squeeze [0#8, 0#8, 0#8] 24#64, .init 0#32, .absorb [1#8] 16#64] :=
  C128_any _ s t _ (by decide) _

/-- C128_standard at work: Keccak-256 of the empty string in the other setting. -/
example : KeccakAny.other.hasher.run (KeccakAny.other.newKeccak 256#32) [.sum []] = .ok [.bytes (Spec.Keccak.sponge 24 136 32 [])] :=
  (C128_standard _ [.sum []] (by simp)).2.1

/-- C128_history at work. -/
example (X : Compiled) (s : Sponge) : X.crun s [.initSponge 1088#32 512#32, .absorb [0xAB#8, 0xFF#8] 11#64, .squeeze [9#8, 9#8, 9#8] 16#64] =
    .ok [⟨0, []⟩, ⟨0, []⟩, ⟨0, output 136 [true, true, false, true, false, true, false, true, true, true, true] 0 2 ++ [9#8]⟩] := by
  rw [C128_history X s _ ⟨136, 0, [], none⟩ (by rfl)]
  · rfl
  · exact ⟨fun _ => ⟨by decide, Or.inl rfl⟩, fun _ => by decide, trivial⟩

/-- C128_bad_init at work. -/
example (X : Compiled) (s : Sponge) : X.crun s [.init 128#32, .initSponge 1600#32 0#32] = .ok [⟨2, []⟩, ⟨1, []⟩] := by
  rw [(C128_bad_init X s _).2 128#32 (by decide), (C128_bad_init X s _).1 1600#32 0#32 (by decide)]
  rfl

end Verif.Props
