import Verif.Model.SipExample
import Verif.Props.SipHash
import Verif.Lemmas.Threefish

/-! # C112: the example program of package siphashpg -/

namespace Verif.Props
open Verif Verif.Model.SipExample

/-- The two words of the seed: bytes 0 to 7 and 8 to 15. -/
theorem C112_seed : seeds.length = 16 ∧ le64 seeds = 0x0706050403020100#64 ∧ le64 (seeds.drop 8) = 0x0f0e0d0c0b0a0908#64 := by decide +kernel

/-- C112. With positive round counts `bench` completes for every `n`, and its results are those of SipHash-c-d, keyed with the bytes 0 to 15, of the
eight little-endian bytes of 0, 1, ..., n-1. -/
theorem C112_bench (n c d : Int) (dbl : Bool) (hc : 0 < c) (hd : 0 < d) :
    bench n c d dbl = .ok ((List.range n.toNat).map fun i =>
      if dbl then Spec.SipHash.hash128 c.toNat d.toNat 0x0706050403020100#64 0x0f0e0d0c0b0a0908#64 (leBytes 8 i)
      else (Spec.SipHash.hash64 c.toNat d.toNat 0x0706050403020100#64 0x0f0e0d0c0b0a0908#64 (leBytes 8 i), 0#64)) := by
  have hmod : ∀ i : Nat, leBytes 8 (BitVec.ofNat 64 i).toNat = leBytes 8 i := by
    intro i
    have h := leBytes_leNat (leBytes 8 i)
    rw [leBytes_length, leNat_leBytes] at h
    rw [BitVec.toNat_ofNat, ← h]
  unfold bench
  have := Verif.Lemmas.Threefish.collect_eq
    (fun i => do let k ← Model.SipHash.U64tou8le (BitVec.ofNat 64 i); Model.SipHash.Siphash k seeds c d dbl)
    (fun i => if dbl then Spec.SipHash.hash128 c.toNat d.toNat 0x0706050403020100#64 0x0f0e0d0c0b0a0908#64 (leBytes 8 i)
      else (Spec.SipHash.hash64 c.toNat d.toNat 0x0706050403020100#64 0x0f0e0d0c0b0a0908#64 (leBytes 8 i), 0#64)) n.toNat 0 [] (fun i _ _ => by
        rw [Lemmas.SipHash.U64tou8le_eq, Go.bind_ok, hmod, C17_general_rounds _ _ _ _ _ C112_seed.1 hc hd, C112_seed.2.1, C112_seed.2.2])
  rw [List.nil_append, ← List.range_eq_range'] at this
  rw [← this]
  congr 1

/-- C112. With a round count that is not positive it panics at the first key, and it does nothing if there is none. -/
theorem C112_panics (n c d : Int) (dbl : Bool) (h : c ≤ 0 ∨ d ≤ 0) :
    bench n c d dbl = if 0 < n then .error (.explicit "siphash") else .ok [] := by
  unfold bench
  by_cases hn : 0 < n
  · rw [if_pos hn]
    obtain ⟨m, hm⟩ : ∃ m, n.toNat = m + 1 := ⟨n.toNat - 1, by omega⟩
    rw [hm, Go.forRange, Lemmas.SipHash.U64tou8le_eq, Go.bind_ok, (C17_panics_iff _ _ _ _ _).2 (Or.inr h)]
    rfl
  · rw [if_neg hn, show n.toNat = 0 by omega]; rfl

/-- C112. The keys are different up to 2^64 of them. -/
theorem C112_keys (i j : Nat) (hi : i < 2 ^ 64) (hj : j < 2 ^ 64) : leBytes 8 i = leBytes 8 j ↔ i = j := by
  refine ⟨fun h => ?_, fun h => by rw [h]⟩
  have := congrArg leNat h
  rw [leNat_leBytes, leNat_leBytes] at this
  omega

/-- Both at work. -/
example : bench 1 2 4 false = .ok [(Spec.SipHash.hash64 2 4 0x0706050403020100#64 0x0f0e0d0c0b0a0908#64 (List.replicate 8 0#8), 0#64)] ∧
    bench 2 0 4 false = .error (.explicit "siphash") := by
  exact ⟨C112_bench 1 2 4 false (by decide) (by decide), C112_panics 2 0 4 false (by decide)⟩

end Verif.Props
