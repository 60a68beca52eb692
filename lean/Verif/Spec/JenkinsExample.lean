import Verif.Model.JenkinsExample
import Mathlib.Data.List.Forall2

/-! # What `driver2` tests (C104) -/

namespace Verif.Spec.JenkinsExample
open Verif
open Verif.Model.JenkinsExample (Line)

/-- The key of 70 zero bytes with byte `i` replaced. -/
def keyWith (i : Nat) (v : U8) : List U8 := (List.replicate 70 0#8).set i v

section
variable (H : List U8 → Nat → Nat → U32) (len i j m : Nat)

/-- Bit `p` of the hash of the key whose byte `i` is `v`; `len` bytes are hashed, with seed `m`. -/
def bit (p : Nat) (v : U8) : Bool := (H (keyWith i v) len m).getLsbD p

/-- Does inverting bit `j` of byte `i` change output bit `p`? -/
def flips (p : Nat) (v : U8) : Prop := bit H len i m p v ≠ bit H len i m p (v ^^^ 1#8 <<< j)

/-- What is to be checked of an input bit over a set of values of its byte: every output bit is seen to change and not to change, and is seen 0 and 1
in either key of a pair. -/
def Covered (vs : U8 → Prop) : Prop := ∀ p < 32,
  (∃ v, vs v ∧ flips H len i j m p v) ∧ (∃ v, vs v ∧ ¬ flips H len i j m p v) ∧
  (∃ v, vs v ∧ bit H len i m p v = true) ∧ (∃ v, vs v ∧ bit H len i m p v = false) ∧
  (∃ v, vs v ∧ bit H len i m p (v ^^^ 1#8 <<< j) = true) ∧ (∃ v, vs v ∧ bit H len i m p (v ^^^ 1#8 <<< j) = false)

/-- The input bit is good: so over all values of its byte. (The last two conditions then say the same as the two before.) -/
def Good : Prop := Covered H len i j m fun _ => True

/-- The byte of the first key of trial `t`, in which the number `2t` is turned left by `j` bits. -/
def trialByte (j t : Nat) : U8 := (BitVec.ofNat 8 (2 * t)).rotateLeft j ^^^ (BitVec.ofNat 8 (2 * t / 256)) <<< j

/-- All that is to be checked has been seen in the trials up to `t`. -/
def SeenBy (t : Nat) : Prop := Covered H len i j m fun v => ∃ s ≤ t, v = trialByte j s

end

/-- The input bits and seeds tested at length `len`, in order. -/
def before (a b : Nat × Nat × Nat) : Prop := a.1 < b.1 ∨ a.1 = b.1 ∧ (a.2.1 < b.2.1 ∨ a.2.1 = b.2.1 ∧ a.2.2 < b.2.2)

/-- The tested combinations of byte, bit and seed. -/
def Tested (len : Nat) (c : Nat × Nat × Nat) : Prop := c.1 < len ∧ c.2.1 < 8 ∧ 1 ≤ c.2.2 ∧ c.2.2 < 8

/-- What the line printed for a length must say. -/
def IsLine (H : List U8 → Nat → Nat → U32) (len : Nat) : Line → Prop
  | .success bytes initvals trials =>
    bytes = len ∧ initvals = (if len = 0 then 0 else 8) ∧ (∀ c, Tested len c → Good H len c.1 c.2.1 c.2.2) ∧
    (∀ c, Tested len c → SeenBy H len c.1 c.2.1 c.2.2 trials) ∧
    (trials = 0 ∨ ∃ c, Tested len c ∧ ∀ t < trials, ¬ SeenBy H len c.1 c.2.1 c.2.2 t) ∧ trials ≤ 255
  | .fail masks i j m l =>
    l = len ∧ Tested len (i, j, m) ∧ ¬ Good H len i j m ∧ (∀ c, Tested len c → before c (i, j, m) → Good H len c.1 c.2.1 c.2.2) ∧
    ∀ p < 32, (masks.e.getLsbD p = true ↔ ∀ v, flips H len i j m p v) ∧ (masks.f.getLsbD p = true ↔ ∀ v, ¬ flips H len i j m p v) ∧
      (masks.g.getLsbD p = true ↔ ∀ v, bit H len i m p v = true) ∧ (masks.h.getLsbD p = true ↔ ∀ v, bit H len i m p v = false) ∧
      masks.x.getLsbD p = masks.g.getLsbD p ∧ masks.y.getLsbD p = masks.h.getLsbD p

/-- The hash function returns on what the driver gives it. -/
def Returns (hash : List U8 → Int → U32 → Go U32) (H : List U8 → Nat → Nat → U32) : Prop :=
  ∀ (k : List U8) (len m : Nat), k.length = 70 → 0 < len → len < 70 → m < 8 → hash k len (BitVec.ofNat 32 m) = .ok (H k len m)

end Verif.Spec.JenkinsExample
