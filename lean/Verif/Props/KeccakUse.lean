import Verif.Props.KeccakC
import Verif.Props.Sizes
import Verif.Props.Hashf

/-! # C97, continued: the keccak224 object as the dispatcher of package hashf uses it -/

namespace Verif.Props
open Verif Verif.Model.KeccakC Verif.Spec.Hashf
open Verif.Spec.Keccak (sponge)
open Verif.Spec.KeccakC (AllSound)

namespace KeccakUse

/-- What `hashf` does for one key: hashf.go:402-406. -/
def use (k : List U8) : List HOp := [.reset, .write k, .sum []]

theorem sound (keys : List (List U8)) (h : ∀ k ∈ keys, k.length < 2 ^ 61) : ∀ m, AllSound 144 m (keys.flatMap use) := by
  induction keys with
  | nil => intro m; exact trivial
  | cons k ks ih =>
    intro m
    exact ⟨h k (by simp), Or.inl rfl, ih (fun x hx => h x (by simp [hx])) k⟩

theorem contract_uses (keys : List (List U8)) : ∀ m, contract (sponge 24 144 28) (fun _ => []) m (keys.flatMap use) =
    keys.flatMap fun k => [.done, .wrote k.length, .bytes (sponge 24 144 28 k)] := by
  induction keys with
  | nil => intro m; rfl
  | cons k ks ih =>
    intro m
    rw [List.flatMap_cons, List.flatMap_cons, ← ih k]
    rfl

end KeccakUse
open KeccakUse

/-- C97. Used for any sequence of keys, one after the other, by Reset, Write, Sum, the object made by `New224` gives for each of them its Keccak-224 digest. -/
theorem C97_uses (keys : List (List U8)) (h : ∀ k ∈ keys, k.length < 2 ^ 61) :
    hasher.run New224 (keys.flatMap fun k => [.reset, .write k, .sum []]) =
      .ok (keys.flatMap fun k => [.done, .wrote k.length, .bytes (sponge 24 144 28 k)]) := by
  rw [← contract_uses keys []]
  exact (C94_history _).1 (sound keys h [])

/-- C97. So Keccak-224 is what stands for this object in the dispatcher (C76-C81), its digest is long enough for it, and after any history of calls `Hashf` returns, under the name
keccak224, the first eight bytes of the Keccak-224 digest of the key, whatever the seed. -/
theorem C97_hashf (e : Model.Hashf.Ext) (he : e.keccak224 = sponge 24 144 28) (hw : ∀ k, 8 ≤ (e.whirlpool k).length) (hb : ∀ k, 8 ≤ (e.blake2b k).length)
    (hs : ∀ k, 8 ≤ (e.sha1 k).length) (hist : List (String × List U8 × U64)) (k : List U8) (seed : U64) :
    Ok e ∧ resultAfter e hist "keccak224" k seed = .ok (firstEight (sponge 24 144 28 k)) := by
  have hok : Ok e := ⟨fun k => by rw [he, sponge_length (by decide) (by decide) (by decide) (by decide)]; decide, hw, hb, hs⟩
  refine ⟨hok, ?_⟩
  rw [C81_history e hok, ← he]
  rfl

/-- Both at work. -/
example : hasher.run New224 [.reset, .write [1#8], .sum [], .reset, .write [2#8, 3#8], .sum []] =
    .ok [.done, .wrote 1, .bytes (sponge 24 144 28 [1#8]), .done, .wrote 2, .bytes (sponge 24 144 28 [2#8, 3#8])] :=
  C97_uses [[1#8], [2#8, 3#8]] (by decide)

example : resultAfter { exampleExt with keccak224 := sponge 24 144 28 } [("sha1", [1#8], 0#64), ("keccak224", [], 7#64)] "keccak224" [1#8] 3#64 =
    .ok (firstEight (sponge 24 144 28 [1#8])) :=
  (C97_hashf { exampleExt with keccak224 := sponge 24 144 28 } rfl (fun k => exampleExt_ok.whirlpool k) (fun k => exampleExt_ok.blake2b k) (fun k => exampleExt_ok.sha1 k) _ _ _).2

end Verif.Props
