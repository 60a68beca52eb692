import Verif.Spec.Smhasher

/-!
# Which keys the tests of package smhasher that draw random keys hash (C120)

The hash function is any function of a state, a key and a seed that returns the next state and a hash. This file uses nothing of the model.
-/

namespace Verif.Spec.SmCalls
open Verif Verif.Spec.Smhasher

/-- The state after hashing keys with seed 0, one after the other. -/
def after {ω : Type} (step : ω → List U8 → U64 → ω × U64) (w : ω) (calls : List (List U8)) : ω := calls.foldl (fun w k => (step w k 0).1) w

/-- What these calls return. -/
def answers {ω : Type} (step : ω → List U8 → U64 → ω × U64) : ω → List (List U8) → List U64
  | _, [] => []
  | w, k :: ks => (step w k 0).2 :: answers step (step w k 0).1 ks

/-- The low bytes of `n` numbers of the generator `r`, after `pos` others. -/
def drawn (r : Nat → U32) (pos n : Nat) : List U8 := (List.range n).map fun i => BitVec.ofNat 8 (r (pos + i)).toNat

/-- The key of comparison `t` of the sanity test, that is repetition `t / 2048`, length `t / 16 % 128`, offset `t % 16`: each comparison draws
two arrays of 176 bytes, and the key is in the first after 16 bytes. -/
def sanityKey (r : Nat → U32) (t : Nat) : List U8 := drawn r (352 * t + 16) (t / 16 % 128)

/-- The calls of the sanity test: 10 * 128 * 16 comparisons of two calls each, with keys of the same bytes. -/
def sanityCalls (r : Nat → U32) : List (List U8) := (List.range (10 * 128 * 16)).flatMap fun t => [sanityKey r t, sanityKey r t]

/-- The random keys of the avalanche test, by round: byte strings of 2, 4, 8, 16, 32 and 200 bytes, one number for each byte; 32-bit
integers; 64-bit integers, low half first. The generator starts again for each. -/
def avalancheKeys (r : Nat → U32) : List (Nat → List U8) :=
  ([2, 4, 8, 16, 32, 200].map fun (n : Nat) z => drawn r (z * n) n) ++
    [fun z => leBytes 4 (r z).toNat, fun z => leBytes 4 (r (2 * z)).toNat ++ leBytes 4 (r (2 * z + 1)).toNat]

/-- The calls of one round: the random key, then for each bit the key with that bit inverted. -/
def roundCalls (key : List U8) : List (List U8) := key :: (List.range (8 * key.length)).map (flipped key)

/-- The calls of the avalanche test: 100000 rounds for each kind of key. -/
def avalancheCalls (r : Nat → U32) : List (List U8) :=
  (avalancheKeys r).flatMap fun key => (List.range 100000).flatMap fun z => roundCalls (key z)

end Verif.Spec.SmCalls
