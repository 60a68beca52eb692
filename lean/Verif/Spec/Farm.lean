import Verif.Go

/-!
# FarmHash (Geoff Pike), written from the algorithm

A key is read through little-endian words at byte offsets: `w32 m i`, `w64 m i`. All functions are total; loops
are folds over block numbers.
-/

namespace Verif.Spec.Farm
open Verif

def k0 : U64 := 0xc3a5c85c97cb3127#64
def k1 : U64 := 0xb492b66fbe98f273#64
def k2 : U64 := 0x9ae16a3b2f90404f#64
def c1 : U32 := 0xcc9e2d51#32
def c2 : U32 := 0x1b873593#32

/-- The words starting at byte `i`. -/
def w32 (m : List U8) (i : Nat) : U32 := le32 (m.drop i)
def w64 (m : List U8) (i : Nat) : U64 := le64 (m.drop i)
/-- Byte `i`. -/
def byte (m : List U8) (i : Nat) : U8 := m[i]?.getD 0#8

/-! ## 32 bits -/

/-- Murmur3's finaliser. -/
def fmix (h : U32) : U32 :=
  let h := (h ^^^ h >>> 16) * 0x85ebca6b#32
  let h := (h ^^^ h >>> 13) * 0xc2b2ae35#32
  h ^^^ h >>> 16

/-- Murmur3's scrambling of an input word. -/
def scramble (a : U32) : U32 := (a * c1).rotateRight 17 * c2

/-- The affine step of Murmur3. -/
def stir (h : U32) : U32 := h.rotateRight 19 * 5#32 + 0xe6546b64#32

/-- Murmur3's step. -/
def mur (a h : U32) : U32 := stir (h ^^^ scramble a)

/-- 0 to 4 bytes: `b` is a polynomial in the signed bytes, `c` the xor of its partial values. -/
def len0to4 (m : List U8) (seed : U32) : U32 :=
  let bc := m.foldl (fun (bc : U32 × U32) v => (bc.1 * c1 + v.signExtend 32, bc.2 ^^^ (bc.1 * c1 + v.signExtend 32))) (seed, 9#32)
  fmix (mur bc.1 (mur (BitVec.ofNat 32 m.length) bc.2))

def len5to12 (m : List U8) (seed : U32) : U32 :=
  let n := m.length
  let a := BitVec.ofNat 32 n + w32 m 0
  let b := BitVec.ofNat 32 (5 * n) + w32 m (n - 4)
  let c := 9#32 + w32 m (if 8 ≤ n then 4 else 0)
  fmix (seed ^^^ mur c (mur b (mur a (BitVec.ofNat 32 (5 * n) + seed))))

def len13to24 (m : List U8) (seed : U32) : U32 :=
  let n := m.length
  let (b, c, d, e, f) := (w32 m 4, w32 m (n - 8), w32 m (n / 2), w32 m 0, w32 m (n - 4))
  let a := (w32 m (n / 2 - 4)).rotateRight 12 + f
  let h := mur c (d * c1 + BitVec.ofNat 32 n + seed) + a
  let a := a.rotateRight 3 + c
  let h := mur e h + a
  let a := (a + f).rotateRight 12 + d
  fmix (mur (b ^^^ seed) h + a)

/-- One block of 20 bytes at offset `o`, on the three running words `h, g, f`. -/
def block20 (m : List U8) (o : Nat) (v : U32 × U32 × U32) : U32 × U32 × U32 :=
  let (a, b, c, d, e) := (w32 m o, w32 m (o + 4), w32 m (o + 8), w32 m (o + 12), w32 m (o + 16))
  let h := mur d (v.1 + a) + e
  let g := mur c (v.2.1 + b) + a
  let f := mur (b + e * c1) (v.2.2 + c) + d + g
  (h, g + f, f)

/-- More than 24 bytes: start from the last 20 bytes, then all blocks of 20 bytes that leave at least one byte. -/
def long32 (m : List U8) : U32 :=
  let n := m.length
  let h := stir (stir (BitVec.ofNat 32 n ^^^ scramble (w32 m (n - 4))) ^^^ scramble (w32 m (n - 16)))
  let g := stir (stir (c1 * BitVec.ofNat 32 n ^^^ scramble (w32 m (n - 8))) ^^^ scramble (w32 m (n - 12)))
  let f := (c1 * BitVec.ofNat 32 n + scramble (w32 m (n - 20))).rotateRight 19 + 113#32
  let v := (List.range ((n - 1) / 20)).foldl (fun v i => block20 m (20 * i) v) (h, g, f)
  let g := (v.2.1.rotateRight 11 * c1).rotateRight 17 * c1
  let f := (v.2.2.rotateRight 11 * c1).rotateRight 17 * c1
  let h := (stir (v.1 + g)).rotateRight 17 * c1
  (stir (h + f)).rotateRight 17 * c1

def hash32 (m : List U8) : U32 :=
  if m.length ≤ 4 then len0to4 m 0#32
  else if m.length ≤ 12 then len5to12 m 0#32
  else if m.length ≤ 24 then len13to24 m 0#32
  else long32 m

def hash32Seed (m : List U8) (seed : U32) : U32 :=
  if m.length ≤ 4 then len0to4 m seed
  else if m.length ≤ 12 then len5to12 m seed
  else if m.length ≤ 24 then len13to24 m (seed * c1)
  else mur (hash32 (m.drop 24) + seed) (len13to24 (m.take 24) (seed ^^^ BitVec.ofNat 32 m.length))

/-! ## 64 bits -/

def shiftMix (v : U64) : U64 := v ^^^ v >>> 47

/-- The two-word compression with multiplier `mul`. -/
def mix2 (u v mul : U64) : U64 := shiftMix ((v ^^^ shiftMix ((u ^^^ v) * mul)) * mul) * mul

/-- The compression with the multiplier of `Hash128to64`. -/
def mix16 (u v : U64) : U64 := mix2 u v 0x9ddfea08eb382d69#64

def len0to16 (m : List U8) : U64 :=
  let n := m.length
  let mul := k2 + BitVec.ofNat 64 n * 2#64
  if 8 ≤ n then
    let a := w64 m 0 + k2
    let b := w64 m (n - 8)
    mix2 (b.rotateRight 37 * mul + a) ((a.rotateRight 25 + b) * mul) mul
  else if 4 ≤ n then
    mix2 (BitVec.ofNat 64 n + (w32 m 0).setWidth 64 <<< 3) ((w32 m (n - 4)).setWidth 64) mul
  else if 0 < n then
    let y : U32 := (byte m 0).setWidth 32 + (byte m (n / 2)).setWidth 32 <<< 8
    let z : U32 := BitVec.ofNat 32 n + (byte m (n - 1)).setWidth 32 <<< 2
    shiftMix (y.setWidth 64 * k2 ^^^ z.setWidth 64 * k0) * k2
  else k2

def len17to32 (m : List U8) : U64 :=
  let n := m.length
  let mul := k2 + BitVec.ofNat 64 (n * 2)
  let a := w64 m 0 * k1
  let b := w64 m 8
  let c := w64 m (n - 8) * mul
  let d := w64 m (n - 16) * k2
  mix2 ((a + b).rotateRight 43 + c.rotateRight 30 + d) (a + (b + k2).rotateRight 18 + c) mul

def len33to64 (m : List U8) : U64 :=
  let n := m.length
  let mul := k2 + BitVec.ofNat 64 n * 2#64
  let a := w64 m 0 * k2
  let b := w64 m 8
  let c := w64 m (n - 8) * mul
  let y := (a + b).rotateRight 43 + c.rotateRight 30 + w64 m (n - 16) * k2
  let z := mix2 y (a + (b + k2).rotateRight 18 + c) mul
  let e := w64 m 16 * mul
  let f := w64 m 24
  let g := (y + w64 m (n - 32)) * mul
  let h := (z + w64 m (n - 24)) * mul
  mix2 ((e + f).rotateRight 43 + g.rotateRight 30 + h) (e + (f + a).rotateRight 18 + g) mul

/-- 32 bytes at offset `o` and two words into two words. -/
def weak (m : List U8) (o : Nat) (a b : U64) : U64 × U64 :=
  let (w, x, y, z) := (w64 m o, w64 m (o + 8), w64 m (o + 16), w64 m (o + 24))
  (a + w + x + y + z, (b + (a + w) + z).rotateRight 21 + (a + w + x + y).rotateRight 44 + (a + w))

/-- The state of the CityHash-style loops. -/
structure St where
  (x y z v1 v2 w1 w2 : U64)

/-- 64 bytes at offset `o`. -/
def block64 (m : List U8) (o : Nat) (t : St) : St :=
  let x := (t.x + t.y + t.v1 + w64 m (o + 8)).rotateRight 37 * k1 ^^^ t.w2
  let y := (t.y + t.v2 + w64 m (o + 48)).rotateRight 42 * k1 + (t.v1 + w64 m (o + 40))
  let z := (t.z + t.w1).rotateRight 33 * k1
  let v := weak m o (t.v2 * k1) (x + t.w1)
  let w := weak m (o + 32) (z + t.w2) (y + w64 m (o + 16))
  ⟨z, y, x, v.1, v.2, w.1, w.2⟩

/-- More than 64 bytes: all 64-byte blocks that leave at least one byte, then the last 64 bytes. -/
def naLong (m : List U8) : U64 :=
  let n := m.length
  let y := 81#64 * k1 + 113#64
  let t := (List.range ((n - 1) / 64)).foldl (fun t i => block64 m (64 * i) t)
    ⟨81#64 * k2 + w64 m 0, y, shiftMix (y * k2 + 113#64) * k2, 0#64, 0#64, 0#64, 0#64⟩
  let o := n - 64
  let mul := k1 + (t.z &&& 0xff#64) <<< 1
  let w1 := t.w1 + ((BitVec.ofNat 64 n - 1#64) &&& 63#64)
  let v1 := t.v1 + w1
  let w1 := w1 + v1
  let x := (t.x + t.y + v1 + w64 m (o + 8)).rotateRight 37 * mul ^^^ t.w2 * 9#64
  let y := (t.y + t.v2 + w64 m (o + 48)).rotateRight 42 * mul + (v1 * 9#64 + w64 m (o + 40))
  let z := (t.z + w1).rotateRight 33 * mul
  let v := weak m o (t.v2 * mul) (x + w1)
  let w := weak m (o + 32) (z + t.w2) (y + w64 m (o + 16))
  mix2 (mix2 v.1 w.1 mul + shiftMix y * k0 + x) (mix2 v.2 w.2 mul + z) mul

/-- farmhashna::Hash64. -/
def na (m : List U8) : U64 :=
  if m.length ≤ 16 then len0to16 m
  else if m.length ≤ 32 then len17to32 m
  else if m.length ≤ 64 then len33to64 m
  else naLong m

/-- The state of farmhashuo. -/
structure Uo where
  (u x y z vlo vhi wlo whi : U64)

/-- The 64-byte step of farmhashuo. -/
def blockUo (mul : U64) (m : List U8) (o : Nat) (t : Uo) : Uo :=
  let a := fun i => w64 m (o + 8 * i)
  let x := (t.x + (a 0 + a 1)).rotateRight 26 * 9#64
  let y' := (t.y + a 2).rotateRight 29
  let wlo := (t.wlo + a 6 ^^^ x) * 9#64 + a 4
  let z := ((t.z + a 3) * mul).rotateRight 32 + (t.whi + a 7)
  let whi := t.whi + a 7 + z + (a 5 + a 6)
  let u := z * 9#64 + (a 0 + a 6)
  let vlo := (t.vlo + a 4).rotateRight 33 + a 2
  let vhi := (t.vhi + (a 5 + a 1)).rotateRight 30 + a 3 + wlo
  let x := x + a 1
  let y := t.u + a 7 + vlo
  let whi := whi + (x - y)
  ⟨u, x + whi, y, y', vlo + (x - y), vhi, wlo + vhi, whi.rotateRight 34⟩

/-- farmhashuo's output compression. -/
def uoH (x y mul : U64) (r : Nat) : U64 := ((y ^^^ shiftMix ((x ^^^ y) * mul)) * mul).rotateRight r * mul

/-- farmhashuo for more than 64 bytes. -/
def uoLong (m : List U8) (seed0 seed1 : U64) : U64 :=
  let n := m.length
  let y := seed1 * k2 + 113#64
  let z := shiftMix (y * k2) * k2
  let mul := k2 + ((seed0 - z) &&& 0x82#64)
  let t := (List.range ((n - 1) / 64)).foldl (fun t i => blockUo mul m (64 * i) t)
    ⟨seed0 - z, seed0 * k2, y, z, seed0, seed1, 0#64, 0#64⟩
  let o := n - 64
  let vhi := t.vhi.rotateRight 28
  let vlo := t.vlo.rotateRight 20
  let wlo := t.wlo + (BitVec.ofNat 64 (n - 1) &&& 63#64)
  let u := t.u * 9#64 + t.y
  let y := t.y + u
  let x := (y - t.x + vlo + w64 m (o + 8)).rotateRight 37 * mul ^^^ t.whi * 9#64
  let y := (y ^^^ vhi ^^^ w64 m (o + 48)).rotateRight 42 * mul + (vlo + w64 m (o + 40))
  let z := (t.z + wlo).rotateRight 33 * mul
  let v := weak m o (vhi * mul) (x + wlo)
  let w := weak m (o + 32) (z + t.whi) (y + w64 m (o + 16))
  uoH (mix2 (v.1 + x) (w.1 ^^^ y) mul + z - u) (uoH (v.2 + y) (w.2 + z) k2 30 ^^^ x) k2 31

def hash64Seeds (m : List U8) (seed0 seed1 : U64) : U64 :=
  if m.length ≤ 64 then mix16 (na m - seed0) seed1 else uoLong m seed0 seed1

def hash64Seed (m : List U8) (seed : U64) : U64 :=
  if m.length ≤ 64 then mix16 (na m - k2) seed else uoLong m 0#64 seed

def hash64 (m : List U8) : U64 :=
  if m.length ≤ 64 then na m else uoLong m 81#64 0#64

/-! ## 128 bits: CityHash128 -/

/-- 16 bytes at offset `o` in CityMurmur, on the words `a, b, c, d`. -/
def block16 (m : List U8) (o : Nat) (t : U64 × U64 × U64 × U64) : U64 × U64 × U64 × U64 :=
  let a := (t.1 ^^^ shiftMix (w64 m o * k1) * k1) * k1
  let c := (t.2.2.1 ^^^ shiftMix (w64 m (o + 8) * k1) * k1) * k1
  (a, t.2.1 ^^^ a, c, t.2.2.2 ^^^ c)

def cityMurmur (m : List U8) (lo hi : U64) : U64 × U64 :=
  let n := m.length
  let t : U64 × U64 × U64 × U64 :=
    if n ≤ 16 then
      let a := shiftMix (lo * k1) * k1
      let c := hi * k1 + len0to16 m
      (a, hi, c, shiftMix (a + if 8 ≤ n then w64 m 0 else c))
    else
      let c := mix16 (w64 m (n - 8) + k1) lo
      let d := mix16 (hi + BitVec.ofNat 64 n) (c + w64 m (n - 16))
      (List.range ((n - 1) / 16)).foldl (fun t i => block16 m (16 * i) t) (lo + d, hi, c, d)
  let a := mix16 t.1 t.2.2.1
  let b := mix16 t.2.2.2 t.2.1
  (a ^^^ b, mix16 b a)

/-- Piece `j` (from the end, 32 bytes each) of the tail. -/
def tail32 (m : List U8) (t : St) (j : Nat) : St :=
  let o := m.length - 32 * (j + 1)
  let y := (t.x + t.y).rotateRight 42 * k0 + t.v2
  let w1 := t.w1 + w64 m (o + 16)
  let z := t.z + (t.w2 + w64 m o)
  let v := weak m o (t.v1 + z) t.v2
  ⟨t.x * k0 + w1, y, z, v.1 * k0, v.2, w1, t.w2 + t.v1⟩

/-- 128 bytes or more: all complete 128-byte blocks as pairs of 64-byte steps, then the rest from the end of the key
in pieces of 32 bytes. -/
def city128 (m : List U8) (lo hi : U64) : U64 × U64 :=
  let n := m.length
  let z := BitVec.ofNat 64 n * k1
  let v1 := (hi ^^^ k1).rotateRight 49 * k1 + w64 m 0
  let t := (List.range (n / 128 * 2)).foldl (fun t i => block64 m (64 * i) t)
    ⟨lo, hi, z, v1, v1.rotateRight 42 * k1 + w64 m 8, (hi + z).rotateRight 35 * k1 + lo, (lo + w64 m 88).rotateRight 53 * k1⟩
  let t : St := ⟨t.x + (t.v1 + t.z).rotateRight 49 * k0, t.y * k0 + t.w2.rotateRight 37, t.z * k0 + t.w1.rotateRight 27,
    t.v1 * k0, t.v2, t.w1 * 9#64, t.w2⟩
  let t := (List.range ((n % 128 + 31) / 32)).foldl (tail32 m) t
  let x := mix16 t.x t.v1
  let y := mix16 (t.y + t.z) t.w1
  (mix16 (x + t.v2) t.w2 + y, mix16 (x + t.w2) (y + t.v2))

def hash128Seed (m : List U8) (lo hi : U64) : U64 × U64 :=
  if m.length < 128 then cityMurmur m lo hi else city128 m lo hi

def hash128 (m : List U8) : U64 × U64 :=
  if 16 ≤ m.length then hash128Seed (m.drop 16) (w64 m 0) (w64 m 8 + k0) else hash128Seed m k0 k1

end Verif.Spec.Farm
