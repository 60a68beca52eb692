import Verif.Go

/-!
# The memory hash of package gomap, as a fold over words

A key longer than a full group of four words is absorbed group by group in four lanes, then combined; what is
left (or a short key) is read as at most four possibly overlapping words.
-/

namespace Verif.Spec.Gomap
open Verif

/-- A hash of this family for one word size. -/
structure Family (w : Nat) where
  (m1 m2 m3 m4 : BitVec w)
  /-- rotations used when absorbing and when combining -/
  (rA rB : Nat)
  /-- the xorshifts and multipliers of the finaliser -/
  (s1 s2 s3 : Nat)
  (f1 f2 : BitVec w)
  /-- bytes per word -/
  bytes : Nat
  /-- the words into which a key of at most four words is read -/
  words : List U8 → List (BitVec w)

def word32 (m : List U8) (i : Nat) : U32 := le32 (m.drop i)
def word64 (m : List U8) (i : Nat) : U64 := le64 (m.drop i)

/-- One to three bytes as a number: first, middle, last byte. -/
def small (m : List U8) : Nat :=
  (m[0]?.getD 0#8).toNat + 256 * (m[m.length / 2]?.getD 0#8).toNat + 65536 * (m[m.length - 1]?.getD 0#8).toNat

def family32 : Family 32 where
  m1 := 3168982561#32
  m2 := 3339683297#32
  m3 := 832293441#32
  m4 := 2336365089#32
  rA := 15
  rB := 11
  s1 := 17
  s2 := 13
  s3 := 16
  f1 := 832293441#32
  f2 := 2336365089#32
  bytes := 4
  words := fun m =>
    let s := m.length
    if s = 0 then []
    else if s < 4 then [BitVec.ofNat 32 (small m)]
    else if s = 4 then [word32 m 0]
    else if s ≤ 8 then [word32 m 0, word32 m (s - 4)]
    else [word32 m 0, word32 m 4, word32 m (s - 8), word32 m (s - 4)]

def family64 : Family 64 where
  m1 := 16877499708836156737#64
  m2 := 2820277070424839065#64
  m3 := 9497967016996688599#64
  m4 := 15839092249703872147#64
  rA := 31
  rB := 27
  s1 := 33
  s2 := 29
  s3 := 32
  f1 := 2820277070424839065#64
  f2 := 9497967016996688599#64
  bytes := 8
  words := fun m =>
    let s := m.length
    if s = 0 then []
    else if s < 4 then [BitVec.ofNat 64 (small m)]
    else if s ≤ 8 then [BitVec.ofNat 64 (leNat (m.take 4) + 2 ^ 32 * leNat ((m.drop (s - 4)).take 4))]
    else if s ≤ 16 then [word64 m 0, word64 m (s - 8)]
    else [word64 m 0, word64 m 8, word64 m (s - 16), word64 m (s - 8)]

variable {w : Nat} (F : Family w)

/-- Xor a word into the hash, after stirring what is there. -/
def stir (h : BitVec w) : BitVec w := (h.rotateLeft F.rA * F.m2).rotateLeft F.rB
def absorb (h : BitVec w) : List (BitVec w) → BitVec w
  | [] => h
  | x :: xs => xs.foldl (fun h x => stir F h ^^^ x * F.m1) (h ^^^ x * F.m1)

/-- One word into one lane. -/
def lane (v x : BitVec w) : BitVec w := (v ^^^ x * F.m1).rotateLeft F.rA * F.m2

abbrev Lanes (w : Nat) := BitVec w × BitVec w × BitVec w × BitVec w

/-- The `i`-th little-endian word of a group. -/
def groupWord (b : List U8) (i : Nat) : BitVec w := BitVec.ofNat w (leNat ((b.drop (i * F.bytes)).take F.bytes))

def group (v : Lanes w) (b : List U8) : Lanes w :=
  (lane F v.1 (groupWord F b 0), lane F v.2.1 (groupWord F b 1), lane F v.2.2.1 (groupWord F b 2), lane F v.2.2.2 (groupWord F b 3))

def combine (v : Lanes w) : BitVec w :=
  v.1.rotateLeft F.rB * F.m1 + v.2.1.rotateLeft F.rB * F.m2 + v.2.2.1.rotateLeft F.rB * F.m3 + v.2.2.2.rotateLeft F.rB * F.m4

def finish (h : BitVec w) : BitVec w :=
  let h := (h ^^^ h >>> F.s1) * F.f1
  let h := (h ^^^ h >>> F.s2) * F.f2
  h ^^^ h >>> F.s3

/-- The hash of a (non-empty) key. -/
def hash (m : List U8) (seed : BitVec w) : BitVec w :=
  let h := seed + BitVec.ofNat w m.length
  if m.length ≤ 4 * F.bytes then finish F (absorb F h (F.words m))
  else finish F (absorb F (combine F ((blocks (4 * F.bytes) m).foldl (group F) (h, h + F.m1, h + F.m2, h + F.m3))) (F.words (tailOf (4 * F.bytes) m)))

end Verif.Spec.Gomap
