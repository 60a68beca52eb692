import Verif.Lemmas.Spooky

/-!
# C40-C41: SpookyHash
-/

namespace Verif.Props
open Verif Verif.Model.Spooky Verif.Arx

/-- C40. Every mixing function of the package is a bijection of its state (for `Mix` and `End`: for every
fixed block of message words). -/
theorem C40_mixers_bijective (d : Nat → U64) :
    Function.Bijective ShortMix ∧ Function.Bijective ShortEnd ∧ Function.Bijective EndPartial ∧
    Function.Bijective (Mix d) ∧ Function.Bijective (End d) := by
  have w1 : ∀ i ∈ shortMixProg, i.wf := by decide
  have w2 : ∀ i ∈ shortEndProg, i.wf := by decide
  have w3 : ∀ i ∈ endPartialProg, i.wf := by decide
  have w4 : ∀ i ∈ mixProg, i.wf := by decide
  have w5 : ∀ i ∈ endAddProg, i.wf := by decide
  have e : Function.Bijective EndPartial := run_bijective _ _ w3
  exact ⟨run_bijective _ _ w1, run_bijective _ _ w2, e, run_bijective _ _ w4, e.comp (e.comp (e.comp (run_bijective d _ w5)))⟩

/-- C40. The unrolled mixers are the twelve (eleven) published steps with their rotation tables. -/
theorem C40_mixers_are_published (d : Nat → U64) (s : Regs 12) (t : Regs 4) :
    Mix d s = Spec.Spooky.mix d s ∧ EndPartial s = Spec.Spooky.endPartial s ∧ End d s = Spec.Spooky.end_ d s ∧
    ShortMix t = Spec.Spooky.shortMix t ∧ ShortEnd t = Spec.Spooky.shortEnd t :=
  ⟨Lemmas.Spooky.Mix_eq d s, Lemmas.Spooky.EndPartial_eq s, Lemmas.Spooky.End_eq d s, Lemmas.Spooky.ShortMix_eq t, Lemmas.Spooky.ShortEnd_eq t⟩

/-- C41. For every message and both seeds `SpookyHash128` returns normally - no index, slice or explicit
panic, no load outside the message - with the SpookyHash V2 value: the four-word algorithm below 192 bytes,
the twelve-word algorithm from 192 bytes on. -/
theorem C41_spooky (m : List U8) (seed1 seed2 : U64) :
    SpookyHash128 m seed1 seed2 = .ok (Spec.Spooky.spooky128 m seed1 seed2) :=
  Lemmas.Spooky.Spooky_eq m seed1 seed2

/-- C41. `SpookyHashShort` can be used on messages of any length. -/
theorem C41_short (m : List U8) (seed1 seed2 : U64) :
    SpookyHashShort m seed1 seed2 = .ok (Spec.Spooky.short m seed1 seed2) :=
  Lemmas.Spooky.Short_eq m seed1 seed2

/-- C41. The three widths are parts of one value. -/
theorem C41_widths (m : List U8) (seed : U64) (seed32 : U32) :
    Hash128 m seed = .ok (Spec.Spooky.spooky128 m seed seed) ∧
    Hash64 m seed = .ok (Spec.Spooky.spooky128 m seed seed).1 ∧
    Hash32 m seed32 = .ok ((Spec.Spooky.spooky128 m (seed32.setWidth 64) (seed32.setWidth 64)).1.setWidth 32) := by
  refine ⟨?_, ?_, ?_⟩
  · rw [Hash128, C41_spooky]; rfl
  · rw [Hash64, C41_spooky]; rfl
  · rw [Hash32, C41_spooky]; rfl

/-- The author's message for the published vectors: `buf[i] = i + 128`. -/
def spookyBuf (n : Nat) : List U8 := (List.range n).map fun i => BitVec.ofNat 8 (i + 128)

/-- Published SpookyV2 vectors (table `expected`, spooky.go:386-457) for 0, 1, 64 and 511 bytes: the
specification is the real algorithm, in the short and in the long mode. -/
example : (Spec.Spooky.spooky128 (spookyBuf 0) 0#64 0#64).1.setWidth 32 = 0x6bf50919#32 ∧
    (Spec.Spooky.spooky128 (spookyBuf 1) 0#64 0#64).1.setWidth 32 = 0x70de1d26#32 ∧
    (Spec.Spooky.spooky128 (spookyBuf 64) 0#64 0#64).1.setWidth 32 = 0x069c8bb7#32 ∧
    (Spec.Spooky.spooky128 (spookyBuf 511) 0#64 0#64).1.setWidth 32 = 0xcc1c8250#32 := by decide +kernel

example : Hash32 (spookyBuf 511) 0#32 = .ok 0xcc1c8250#32 := by
  rw [(C41_widths _ 0#64 0#32).2.2]; decide +kernel

end Verif.Props
