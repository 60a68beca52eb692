import Verif.Go

/-!
# Specification of SipHash-c-d (Aumasson & Bernstein, "SipHash: a fast short-input PRF", 2012)

Written from the paper, not from the code: the message is padded to 8-byte little-endian words, the
last of which carries the length modulo 256 in its top byte.
-/

namespace Verif.Spec.SipHash

/-- The four 64-bit state words. -/
structure State where
  v0 : U64
  v1 : U64
  v2 : U64
  v3 : U64
  deriving DecidableEq

/-- SipRound (figure 2.1 of the paper: the two halves run side by side). -/
def sipRound (s : State) : State :=
  -- left half / right half, first column
  let v0 := s.v0 + s.v1
  let v2 := s.v2 + s.v3
  let v1 := s.v1.rotateLeft 13 ^^^ v0
  let v3 := s.v3.rotateLeft 16 ^^^ v2
  let v0 := v0.rotateLeft 32
  -- second column
  let v2 := v2 + v1
  let v0 := v0 + v3
  let v1 := v1.rotateLeft 17 ^^^ v2
  let v3 := v3.rotateLeft 21 ^^^ v0
  let v2 := v2.rotateLeft 32
  ⟨v0, v1, v2, v3⟩

/-- `n` rounds. -/
def rounds : Nat → State → State
  | 0, s => s
  | n + 1, s => rounds n (sipRound s)

/-- "somepseudorandomlygeneratedbytes" xor the key; the 128-bit variant flips 0xee into v1. -/
def init (wide : Bool) (k0 k1 : U64) : State :=
  { v0 := k0 ^^^ 0x736f6d6570736575#64
    v1 := k1 ^^^ 0x646f72616e646f6d#64 ^^^ (if wide then 0xee#64 else 0#64)
    v2 := k0 ^^^ 0x6c7967656e657261#64
    v3 := k1 ^^^ 0x7465646279746573#64 }

/-- The padded message: zero bytes up to one short of a multiple of 8, then the length byte. -/
def pad (m : List U8) : List U8 :=
  m ++ List.replicate (7 - m.length % 8) 0#8 ++ [BitVec.ofNat 8 m.length]

/-- Absorb one message word. -/
def absorb (c : Nat) (s : State) (w : U64) : State :=
  let s := rounds c { s with v3 := s.v3 ^^^ w }
  { s with v0 := s.v0 ^^^ w }

/-- The state after absorbing the padded message. -/
def compress (wide : Bool) (c : Nat) (k0 k1 : U64) (m : List U8) : State :=
  ((blocks 8 (pad m)).map le64).foldl (absorb c) (init wide k0 k1)

/-- Xor of the four state words. -/
def fold (s : State) : U64 := s.v0 ^^^ s.v1 ^^^ s.v2 ^^^ s.v3

/-- SipHash-c-d with 64-bit output. -/
def hash64 (c d : Nat) (k0 k1 : U64) (m : List U8) : U64 :=
  let s := compress false c k0 k1 m
  fold (rounds d { s with v2 := s.v2 ^^^ 0xff#64 })

/-- SipHash-c-d with 128-bit output. -/
def hash128 (c d : Nat) (k0 k1 : U64) (m : List U8) : U64 × U64 :=
  let s := compress true c k0 k1 m
  let s := rounds d { s with v2 := s.v2 ^^^ 0xee#64 }
  let r := rounds d { s with v1 := s.v1 ^^^ 0xdd#64 }
  (fold s, fold r)

end Verif.Spec.SipHash
