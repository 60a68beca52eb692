import Verif.Go

/-!
# MetroHash (J. Andrew Rogers), written from the algorithm

A key is 32-byte blocks followed by fewer than 32 bytes; the remainder is consumed greedily in pieces of 16,
8, 4, 2 and 1 bytes: the piece of `2^i` bytes is present iff bit `i` of the length is set, and it starts after
all larger pieces.
-/

namespace Verif.Spec.Metro

/-- The little-endian number in the `n` bytes of `m` from offset `off`. -/
def num (m : List U8) (off n : Nat) : U64 := BitVec.ofNat 64 (leNat ((m.drop off).take n))

/-- Offset of the piece of `2^i` bytes: the length with its low `i+1` bits cleared. -/
def off (len i : Nat) : Nat := len / 2 ^ (i + 1) * 2 ^ (i + 1)

structure Keys where
  (k0 k1 k2 k3 : U64)

def keys1 : Keys := ⟨0xC83A91E1#64, 0x8648DBDB#64, 0x7BDEC03B#64, 0x2F5870A5#64⟩
def keys2 : Keys := ⟨0xD6D018F5#64, 0xA2AA033B#64, 0x62992FC1#64, 0x30BC5B29#64⟩

abbrev V4 := U64 × U64 × U64 × U64

/-- One 32-byte block. -/
def block (k : Keys) (v : V4) (b : List U8) : V4 :=
  let (v0, v1, v2, v3) := v
  let v0 := (v0 + num b 0 8 * k.k0).rotateRight 29 + v2
  let v1 := (v1 + num b 8 8 * k.k1).rotateRight 29 + v3
  let v2 := (v2 + num b 16 8 * k.k2).rotateRight 29 + v0
  let v3 := (v3 + num b 24 8 * k.k3).rotateRight 29 + v1
  (v0, v1, v2, v3)

/-- Mixing after the last block, with its four rotations. -/
def fold (k : Keys) (ra rb rc rd : Nat) (v : V4) : V4 :=
  let (v0, v1, v2, v3) := v
  let v2 := v2 ^^^ (((v0 + v3) * k.k0) + v1).rotateRight ra * k.k1
  let v3 := v3 ^^^ (((v1 + v2) * k.k1) + v0).rotateRight rb * k.k0
  let v0 := v0 ^^^ (((v0 + v2) * k.k0) + v3).rotateRight rc * k.k1
  let v1 := v1 ^^^ (((v1 + v3) * k.k1) + v2).rotateRight rd * k.k0
  (v0, v1, v2, v3)

/-- Do `f` with the piece of `2^i` bytes if there is one. -/
def piece (m : List U8) (i : Nat) (f : U64 → σ → σ) (s : σ) : σ :=
  if m.length.testBit i then f (num m (off m.length i) (2 ^ i)) s else s

/-- The numbers in which the two 64-bit variants differ. -/
structure Params64 where
  keys : Keys
  rFold : Nat
  (m0 m1 m2 m3 : U64)
  (r16 r16' r8 r4 r2 r1 rA rB : Nat)

def params64_1 : Params64 := ⟨keys1, 33, keys1.k0, keys1.k1, keys1.k1, keys1.k2, 33, 35, 33, 15, 13, 25, 33, 33⟩
def params64_2 : Params64 := ⟨keys2, 30, keys2.k2, keys2.k3, keys2.k2, keys2.k3, 29, 34, 36, 15, 15, 23, 28, 29⟩

def step64 (P : Params64) (r : Nat) (x h : U64) : U64 :=
  let h := h + x * P.keys.k3
  h ^^^ h.rotateRight r * P.keys.k1

def start64 (P : Params64) (m : List U8) (seed : U32) : U64 :=
  (seed.setWidth 64 + P.keys.k2) * P.keys.k0 + BitVec.ofNat 64 m.length

def head64 (P : Params64) (m : List U8) (h : U64) : U64 :=
  if 32 ≤ m.length then
    let v := fold P.keys P.rFold P.rFold P.rFold P.rFold ((blocks 32 m).foldl (block P.keys) (h, h, h, h))
    h + (v.1 ^^^ v.2.1)
  else h

def final64 (P : Params64) (h : U64) : U64 :=
  let h := (h ^^^ h.rotateRight P.rA) * P.keys.k0
  h ^^^ h.rotateRight P.rB

/-- The piece of 16 bytes, two words at once. -/
def sixteen64 (P : Params64) (m : List U8) (h : U64) : U64 :=
  if m.length.testBit 4 then
    let o := off m.length 4
    let v0 := (h + num m o 8 * P.m0).rotateRight P.r16 * P.m1
    let v1 := (h + num m (o + 8) 8 * P.m2).rotateRight P.r16 * P.m3
    let v0 := v0 ^^^ ((v0 * P.keys.k0).rotateRight P.r16' + v1)
    let v1 := v1 ^^^ ((v1 * P.keys.k3).rotateRight P.r16' + v0)
    h + v1
  else h

/-- All of the algorithm after the initialisation of the state, which is where the length enters. -/
def run64 (P : Params64) (m : List U8) (start : U64) : U64 :=
  final64 P (piece m 0 (step64 P P.r1) (piece m 1 (step64 P P.r2) (piece m 2 (step64 P P.r4) (piece m 3 (step64 P P.r8)
    (sixteen64 P m (head64 P m start))))))

def metro64 (P : Params64) (m : List U8) (seed : U32) : U64 := run64 P m (start64 P m seed)

/-- The numbers in which the two 128-bit variants differ. -/
structure Params128 where
  keys : Keys
  (f0 f1 f2 f3 : Nat)
  (rot r16a r16b r8 r4 r2 r1 rA rB : Nat)

def params128_1 : Params128 := ⟨keys1, 26, 26, 26, 30, 33, 17, 17, 20, 18, 24, 24, 13, 37⟩
def params128_2 : Params128 := ⟨keys2, 33, 33, 33, 33, 29, 29, 29, 29, 25, 30, 18, 33, 33⟩

/-- Absorb a piece into the first word. -/
def stepA (P : Params128) (r : Nat) (x : U64) (v : U64 × U64) : U64 × U64 :=
  let v0 := (v.1 + x * P.keys.k2).rotateRight P.rot * P.keys.k3
  (v0 ^^^ (v0 * P.keys.k2 + v.2).rotateRight r * P.keys.k1, v.2)

/-- Absorb a piece into the second word. -/
def stepB (P : Params128) (r : Nat) (x : U64) (v : U64 × U64) : U64 × U64 :=
  let v1 := (v.2 + x * P.keys.k2).rotateRight P.rot * P.keys.k3
  (v.1, v1 ^^^ (v1 * P.keys.k3 + v.1).rotateRight r * P.keys.k0)

def head128 (P : Params128) (m : List U8) (seed : U32) : U64 × U64 :=
  let s := seed.setWidth 64
  let n := BitVec.ofNat 64 m.length
  let v0 := (s - P.keys.k0) * P.keys.k3 + n
  let v1 := (s + P.keys.k1) * P.keys.k2 + n
  if 32 ≤ m.length then
    let v := fold P.keys P.f0 P.f1 P.f2 P.f3 ((blocks 32 m).foldl (block P.keys)
      (v0, v1, (s + P.keys.k0) * P.keys.k2 + n, (s - P.keys.k1) * P.keys.k3 + n))
    (v.1, v.2.1)
  else (v0, v1)

def sixteen128 (P : Params128) (m : List U8) (v : U64 × U64) : U64 × U64 :=
  if m.length.testBit 4 then
    let o := off m.length 4
    let v0 := (v.1 + num m o 8 * P.keys.k2).rotateRight P.rot * P.keys.k3
    let v1 := (v.2 + num m (o + 8) 8 * P.keys.k2).rotateRight P.rot * P.keys.k3
    let v0 := v0 ^^^ (v0 * P.keys.k2 + v1).rotateRight P.r16a * P.keys.k1
    let v1 := v1 ^^^ (v1 * P.keys.k3 + v0).rotateRight P.r16b * P.keys.k0
    (v0, v1)
  else v

def final128 (P : Params128) (v : U64 × U64) : U64 × U64 :=
  let v0 := v.1 + (v.1 * P.keys.k0 + v.2).rotateRight P.rA
  let v1 := v.2 + (v.2 * P.keys.k1 + v0).rotateRight P.rB
  let v0 := v0 + (v0 * P.keys.k2 + v1).rotateRight P.rA
  let v1 := v1 + (v1 * P.keys.k3 + v0).rotateRight P.rB
  (v0, v1)

def metro128 (P : Params128) (m : List U8) (seed : U32) : U64 × U64 :=
  final128 P (piece m 0 (stepB P P.r1) (piece m 1 (stepA P P.r2) (piece m 2 (stepB P P.r4) (piece m 3 (stepA P P.r8)
    (sixteen128 P m (head128 P m seed))))))

end Verif.Spec.Metro
