import Verif.Lemmas.Farm
import Verif.Lemmas.Odd

/-!
# C45-C47: FarmHash
-/

namespace Verif.Props
open Verif Verif.Model.Farm

/-- C45. Every exported FarmHash function returns normally on every key, for every seed, with the FarmHash
(for 128 bits: CityHash128) value: no index or slice is ever out of range. -/
theorem C45_farm (s : List U8) (seed32 : U32) (seed seed' : U64) :
    Hash32 s = .ok (Spec.Farm.hash32 s) ∧
    Hash32WithSeed s seed32 = .ok (Spec.Farm.hash32Seed s seed32) ∧
    Hash64 s = .ok (Spec.Farm.hash64 s) ∧
    Hash64WithSeed s seed = .ok (Spec.Farm.hash64Seed s seed) ∧
    Hash64WithSeeds s seed seed' = .ok (Spec.Farm.hash64Seeds s seed seed') ∧
    Hash128 s = .ok (Spec.Farm.hash128 s) ∧
    Hash128WithSeed s seed seed' = .ok (Spec.Farm.hash128Seed s seed seed') :=
  ⟨Lemmas.Farm.Hash32_eq s, Lemmas.Farm.Hash32WithSeed_eq s seed32, Lemmas.Farm.Hash64_eq s, Lemmas.Farm.Hash64WithSeed_eq s seed,
    Lemmas.Farm.Hash64WithSeeds_eq s seed seed', Lemmas.Farm.Fingerprint128_eq s, Lemmas.Farm.Hash128WithSeed_eq s seed seed'⟩

/-- C45. The fingerprints are the unseeded hashes. -/
theorem C45_fingerprints (s : List U8) :
    Fingerprint32 s = Hash32 s ∧ Fingerprint64 s = Hash64 s ∧ Fingerprint128 s = Hash128 s := ⟨rfl, rfl, rfl⟩

/-- The text of a string literal as bytes. -/
def farmStr (s : String) : List U8 := s.toList.map fun c => BitVec.ofNat 8 c.toNat

set_option maxRecDepth 4000 in
/-- Vectors of farm_test.go ("Generated from the C++ code"), one per length class: the specification is FarmHash. -/
example :
    Spec.Farm.hash32 (farmStr "abc") = 0x2f635ec7#32 ∧ Spec.Farm.hash32 (farmStr "abcdefgh") = 0xfd7ec8b9#32 ∧
    Spec.Farm.hash32 (farmStr "size:  a.out:  bad magic") = 0xc6246b8d#32 ∧
    Spec.Farm.hash32 (farmStr "Nepal premier won't resign.") = 0x322984d9#32 ∧
    Spec.Farm.hash64 (farmStr "a") = 0xb3454265b6df75e3#64 ∧ Spec.Farm.hash64 (farmStr "abcd") = 0x1a5502de4a1f8101#64 ∧
    Spec.Farm.hash64 (farmStr "abcdefghij") = 0x8a3abb6a5f3fb7fb#64 ∧
    Spec.Farm.hash64 (farmStr "Nepal premier won't resign.") = 0x8eb3808d1ccfc779#64 ∧
    Spec.Farm.hash64 (farmStr "Discard medicine more than two years old.") = 0xe8f89ab6df9bdd25#64 ∧
    Spec.Farm.hash64 (farmStr "There is no reason for any individual to have a computer in their home. -Ken Olsen, 1977") = 0xfe6aa49558b3cbe0#64 ∧
    Spec.Farm.hash128 (farmStr "abcdef") = (8033370924408288235#64, 9054869399155703984#64) ∧
    Spec.Farm.hash128 (farmStr "There is no reason for any individual to have a computer in their home. -Ken Olsen, 1977") =
      (3547689611939963773#64, 352412539875473798#64) := by decide +kernel

/-! ## C47: the building blocks -/

theorem C47_rotations (v : U32) (x : U64) (n : Nat) :
    (n ≤ 32 → rotate32 (rotate32 v n) (32 - n) = v) ∧ (n ≤ 64 → rotate64 (rotate64 x n) (64 - n) = x) := by
  have z32 : v >>> 32 = 0#32 := BitVec.ushiftRight_eq_zero (by decide)
  have z64 : x >>> 64 = 0#64 := BitVec.ushiftRight_eq_zero (by decide)
  constructor
  · intro h
    rcases (by omega : n = 0 ∨ n = 32 ∨ (0 < n ∧ n < 32)) with h | h | ⟨h0, h1⟩
    · subst h; simp [rotate32, z32]
    · subst h; simp [rotate32, z32]
    · rw [Lemmas.Farm.rot32 _ n h1, Lemmas.Farm.rot32 _ (32 - n) (by omega), ← rotateLeft_eq_rotateRight _ h0 h1]
      exact rotateLeft_rotateRight v h1
  · intro h
    rcases (by omega : n = 0 ∨ n = 64 ∨ (0 < n ∧ n < 64)) with h | h | ⟨h0, h1⟩
    · subst h; simp [rotate64, z64]
    · subst h; simp [rotate64, z64]
    · rw [Lemmas.Farm.rot64 _ n h1, Lemmas.Farm.rot64 _ (64 - n) (by omega), ← rotateLeft_eq_rotateRight _ h0 h1]
      exact rotateLeft_rotateRight x h1

/-- C47. The 32-bit mixers are reversible: `fmix`, and `mur` in each argument when the other is fixed. -/
theorem C47_bijections32 (a : U32) :
    Function.Bijective fmix ∧ Function.Bijective (mur a) ∧ Function.Bijective (fun x => mur x a) := by
  have r17 : ∀ v, rotate32 v 17 = v.rotateRight 17 := fun v => Lemmas.Farm.rot32 v 17 (by decide)
  have r19 : ∀ v, rotate32 v 19 = v.rotateRight 19 := fun v => Lemmas.Farm.rot32 v 19 (by decide)
  refine ⟨bijective_of_injective ?_, bijective_of_injective ?_, bijective_of_injective ?_⟩
  · intro x y h
    simp only [fmix] at h
    exact xorshiftR_inj (by decide) (mul_inj_of_odd (by decide) (xorshiftR_inj (by decide) (mul_inj_of_odd (by decide) (xorshiftR_inj (by decide) h))))
  · intro x y h
    simp only [mur, r17, r19] at h
    exact xor_right_inj' _ (rotateRight_inj (by decide) (mul_inj_of_odd (by decide) (add_right_inj' _ h)))
  · intro x y h
    simp only [mur, r17, r19] at h
    exact mul_inj_of_odd (by decide) (rotateRight_inj (by decide) (mul_inj_of_odd (by decide)
      (xor_left_inj' _ (rotateRight_inj (by decide) (mul_inj_of_odd (by decide) (add_right_inj' _ h))))))

theorem farm_mul_inj {u u' v mul : U64} (hm : mul.toNat % 2 = 1) (h : hashLen16Mul u v mul = hashLen16Mul u' v mul) : u = u' := by
  simp only [hashLen16Mul] at h
  exact xor_right_inj' _ (mul_inj_of_odd hm (xorshiftR_inj (by decide) (xor_left_inj' _ (mul_inj_of_odd hm (xorshiftR_inj (by decide) (mul_inj_of_odd hm h))))))

theorem farm_len16_inj {u u' v : U64} (h : hashLen16 u v = hashLen16 u' v) : u = u' :=
  farm_mul_inj (mul := 0x9ddfea08eb382d69#64) (v := v) (by decide) h

/-- C47. The 64-bit compressions are bijections of their first word for every second word, for every odd multiplier. -/
theorem C47_bijections64 (v mul : U64) (r : Nat) (hr : r < 64) (hm : mul.toNat % 2 = 1) :
    Function.Bijective shiftMix ∧ Function.Bijective (fun u => hashLen16Mul u v mul) ∧ Function.Bijective (fun u => hashLen16 u v) ∧
    Function.Bijective (fun u => uoH u v mul r) := by
  refine ⟨bijective_of_injective ?_, bijective_of_injective ?_, bijective_of_injective ?_, bijective_of_injective ?_⟩
  · intro x y h; exact xorshiftR_inj (by decide) h
  · intro x y h; exact farm_mul_inj hm h
  · intro x y h; exact farm_len16_inj h
  · intro x y h
    simp only [uoH, Lemmas.Farm.rot64 _ r hr] at h
    exact xor_right_inj' _ (mul_inj_of_odd hm (xorshiftR_inj (by decide) (xor_left_inj' _ (mul_inj_of_odd hm (rotateRight_inj hr (mul_inj_of_odd hm h))))))

/-- C47_bijections64 at work: the multiplier of the library and a rotation by 29. -/
example : Function.Bijective (fun u => uoH u 5 0x9ddfea08eb382d69#64 29) :=
  (C47_bijections64 5 0x9ddfea08eb382d69#64 29 (by decide) (by decide)).2.2.2

/-- C47. The multipliers the package computes at run time are odd, whatever the length, the state or the seed. -/
theorem C47_multipliers_odd (n u z : U64) :
    (k2 + n * 2#64).toNat % 2 = 1 ∧ (k1 + (z &&& 0xff#64) <<< 1).toNat % 2 = 1 ∧ (k2 + (u &&& 0x82#64)).toNat % 2 = 1 := by
  have h2 : k2.toNat % 2 = 1 := by decide
  have h1 : k1.toNat % 2 = 1 := by decide
  refine ⟨?_, ?_, ?_⟩
  · rw [BitVec.toNat_add, BitVec.toNat_mul, show (2#64).toNat = 2 from rfl]
    omega
  · rw [BitVec.toNat_add, BitVec.toNat_shiftLeft, Nat.shiftLeft_eq]
    omega
  · have : (u &&& 0x82#64).toNat % 2 = 0 := by
      rw [BitVec.toNat_and, show (0x82#64).toNat = 130 from rfl, ← Nat.and_one_is_mod, Nat.and_assoc]
      simp
    rw [BitVec.toNat_add]
    omega

/-! ## C46: seeds cannot separate colliding keys -/

/-- C46. For keys of at most 64 bytes a seed never makes a difference: two keys collide under `Hash64WithSeed` with one
(equivalently, with every) seed iff their unseeded hashes collide. -/
theorem C46_seed64 (s t : List U8) (hs : s.length ≤ 64) (ht : t.length ≤ 64) (seed : U64) :
    Hash64WithSeed s seed = Hash64WithSeed t seed ↔ Hash64 s = Hash64 t := by
  simp only [Hash64WithSeed, Hash64, if_pos hs, if_pos ht, naHash64WithSeed, naHash64WithSeeds, Lemmas.Farm.na_eq, Go.bind_ok, Go.pure_ok, Except.ok.injEq]
  constructor
  · intro h
    have := farm_len16_inj h
    rw [BitVec.sub_eq_add_neg, BitVec.sub_eq_add_neg] at this
    exact add_right_inj' _ this
  · intro h; rw [h]

/-- C46_seed64 at work: two different keys without a seed are different with every seed. -/
example (seed : U64) (h : Hash64 [1#8, 2#8] ≠ Hash64 [3#8]) : Hash64WithSeed [1#8, 2#8] seed ≠ Hash64WithSeed [3#8] seed :=
  mt (C46_seed64 [1#8, 2#8] [3#8] (by decide) (by decide) seed).1 h

/-- C46. The same for two seeds. -/
theorem C46_seeds64 (s t : List U8) (hs : s.length ≤ 64) (ht : t.length ≤ 64) (seed0 seed1 : U64) :
    Hash64WithSeeds s seed0 seed1 = Hash64WithSeeds t seed0 seed1 ↔ Hash64 s = Hash64 t := by
  simp only [Hash64WithSeeds, Hash64, if_pos hs, if_pos ht, naHash64WithSeeds, Lemmas.Farm.na_eq, Go.bind_ok, Go.pure_ok, Except.ok.injEq]
  constructor
  · intro h
    have := farm_len16_inj h
    rw [BitVec.sub_eq_add_neg, BitVec.sub_eq_add_neg] at this
    exact add_right_inj' _ this
  · intro h; rw [h]

/-- C46. 32 bits, keys of more than 24 bytes: keys of the same length with the same first 24 bytes collide under one
(equivalently, under every) seed iff the unseeded hashes of the remaining bytes collide. -/
theorem C46_seed32 (p s t : List U8) (hp : p.length = 24) (hl : s.length = t.length) (h0 : 0 < s.length) (seed : U32) :
    Hash32WithSeed (p ++ s) seed = Hash32WithSeed (p ++ t) seed ↔ Hash32 s = Hash32 t := by
  have key : ∀ u : List U8, 0 < u.length → Hash32WithSeed (p ++ u) seed =
      .ok (mur (Spec.Farm.hash32 u + seed) (Spec.Farm.len13to24 p (seed ^^^ BitVec.ofNat 32 (24 + u.length)))) := by
    intro u hu
    have hlen : (p ++ u).length = 24 + u.length := by rw [List.length_append, hp]
    have hd : (p ++ u).drop 24 = u := by rw [← hp]; simp
    have htk : (p ++ u).take 24 = p := by rw [← hp]; simp
    rw [Lemmas.Farm.Hash32WithSeed_eq, Spec.Farm.hash32Seed, if_neg (by omega), if_neg (by omega), if_neg (by omega), hd, htk, hlen, Lemmas.Farm.mur_eq]
  rw [key s h0, key t (by omega), hl, Lemmas.Farm.Hash32_eq, Lemmas.Farm.Hash32_eq, Except.ok.injEq, Except.ok.injEq]
  constructor
  · intro h
    exact add_right_inj' _ ((C47_bijections32 (Spec.Farm.len13to24 p (seed ^^^ BitVec.ofNat 32 (24 + t.length)))).2.2.1 h)
  · intro h; rw [h]

/-- So "a seed drawn at random separates two given keys with high probability" fails completely. Witnesses: "atjk" and
"cfsy" have the same `Hash32`, so these two 28-byte keys collide under every seed. -/
theorem C46_seed32_violated :
    ∃ s t : List U8, s ≠ t ∧ ∀ seed, Hash32WithSeed s seed = Hash32WithSeed t seed :=
  ⟨List.replicate 24 0#8 ++ farmStr "atjk", List.replicate 24 0#8 ++ farmStr "cfsy", by decide,
    fun seed => (C46_seed32 _ _ _ (by decide) (by decide) (by decide) seed).2 (by decide +kernel)⟩

/-- Non-vacuity of C46_seed64: both sides can be false. -/
example : Hash64 (farmStr "a") ≠ Hash64 (farmStr "ab") ∧ Hash64WithSeed (farmStr "a") 7#64 ≠ Hash64WithSeed (farmStr "ab") 7#64 := by decide +kernel

end Verif.Props
