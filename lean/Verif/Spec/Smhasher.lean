import Verif.Model.Smhasher

/-! Specifications for the properties of package smhasher. From the model this file uses only the three kinds of keys. -/

namespace Verif.Spec.Smhasher
open Verif

/-- Bit `j` of a byte string (bit `j % 8` of byte `j / 8`); false beyond the end. -/
def bit (b : List U8) (j : Nat) : Bool := (b.getD (j / 8) 0).getLsbD (j % 8)

/-- Number of set bits. -/
def weight (b : List U8) : Nat := (List.range (8 * b.length)).countP (bit b)

/-- Number of bytes that are not zero. -/
def nonZeroBytes (b : List U8) : Nat := b.countP (· ≠ 0#8)

/-- The little-endian bytes of a sequence of 32-bit blocks. -/
def blockBytes (w : List U32) : List U8 := w.flatMap fun v => leBytes 4 v.toNat

/-- Bits `r, r+1, .., r+15`, counted modulo `n`. -/
def inWindow (n r j : Nat) : Prop := ∃ t, t < 16 ∧ j = (t + r) % n

/-- The byte string with bit `i` inverted and every other bit unchanged. -/
def flipped (b : List U8) (i : Nat) : List U8 := b.mapIdx fun p v => if p = i / 8 then v ^^^ 1#8 <<< (i % 8) else v

/-- The bytes of a key: integers are little-endian. -/
def keyBytes : Model.Smhasher.Key → List U8
  | .bytes b => b
  | .int32 i => leBytes 4 i.toNat
  | .int64 i => leBytes 8 i.toNat

end Verif.Spec.Smhasher
