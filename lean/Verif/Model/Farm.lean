import Verif.Go

/-!
# Model of package farm (/repo/farm)

Go `int` offsets are `Int`, so that an offset like `slen-8` can be negative and then faults, as in Go.
(64-bit overflow of lengths is not modelled: a slice length fits `int`.)
-/

namespace Verif.Model.Farm
open Verif

/-- basics.go:4-6. -/
def k0 : U64 := 0xc3a5c85c97cb3127#64
/-- basics.go:5. -/
def k1 : U64 := 0xb492b66fbe98f273#64
/-- basics.go:6. -/
def k2 : U64 := 0x9ae16a3b2f90404f#64
/-- basics.go:9-10. -/
def c1 : U32 := 0xcc9e2d51#32
/-- basics.go:10. -/
def c2 : U32 := 0x1b873593#32

/-- `fmix`, basics.go:13-20. -/
def fmix (h : U32) : U32 :=
  let h := h ^^^ h >>> 16
  let h := h * 0x85ebca6b#32
  let h := h ^^^ h >>> 13
  let h := h * 0xc2b2ae35#32
  h ^^^ h >>> 16

/-- `rotate32`, platform.go:3-9, for shifts up to 32 (beyond, `32 - shift` wraps in Go; all calls have constants below 32). -/
def rotate32 (val : U32) (shift : Nat) : U32 :=
  if shift = 0 then val else val >>> shift ||| val <<< (32 - shift)

/-- `rotate64`, platform.go:11-17, for shifts up to 64. -/
def rotate64 (val : U64) (shift : Nat) : U64 :=
  if shift = 0 then val else val >>> shift ||| val <<< (64 - shift)

/-- `mur`, basics.go:22-30. -/
def mur (a h : U32) : U32 :=
  let a := a * c1
  let a := rotate32 a 17
  let a := a * c2
  let h := h ^^^ a
  let h := rotate32 h 19
  h * 5#32 + 0xe6546b64#32

/-- `s[i]` for a signed index. Used for e.g. farmhashcc.go:28-30; index semantics of Go. -/
def at_ (s : List U8) (i : Int) : Go U8 := if 0 ≤ i then Go.idx s i.toNat else .error .index

/-- `s[lo:]` for a signed bound. Used for e.g. farmhashna.go:73-80; slice semantics of Go. -/
def tail (s : List U8) (lo : Int) : Go (List U8) := if 0 ≤ lo then Go.from_ s lo.toNat else .error .slice

/-- `fetch32`, platform.go:19-21. -/
def fetch32 (s : List U8) (idx : Int) : Go U32 := do
  let b0 ← at_ s (idx + 0)
  let b1 ← at_ s (idx + 1)
  let b2 ← at_ s (idx + 2)
  let b3 ← at_ s (idx + 3)
  return b0.setWidth 32 ||| b1.setWidth 32 <<< 8 ||| b2.setWidth 32 <<< 16 ||| b3.setWidth 32 <<< 24

/-- `fetch64`, platform.go:23-26. -/
def fetch64 (s : List U8) (idx : Int) : Go U64 := do
  let b0 ← at_ s (idx + 0)
  let b1 ← at_ s (idx + 1)
  let b2 ← at_ s (idx + 2)
  let b3 ← at_ s (idx + 3)
  let b4 ← at_ s (idx + 4)
  let b5 ← at_ s (idx + 5)
  let b6 ← at_ s (idx + 6)
  let b7 ← at_ s (idx + 7)
  return b0.setWidth 64 ||| b1.setWidth 64 <<< 8 ||| b2.setWidth 64 <<< 16 ||| b3.setWidth 64 <<< 24 |||
    b4.setWidth 64 <<< 32 ||| b5.setWidth 64 <<< 40 ||| b6.setWidth 64 <<< 48 ||| b7.setWidth 64 <<< 56

/-! ## 32 bits -/

/-- `hash32Len13to24Seed`, farmhashcc.go:7-23. -/
def hash32Len13to24Seed (s : List U8) (seed : U32) : Go U32 := do
  let slen : Int := s.length
  let a ← fetch32 s (-4 + slen / 2)
  let b ← fetch32 s 4
  let c ← fetch32 s (slen - 8)
  let d ← fetch32 s (slen / 2)
  let e ← fetch32 s 0
  let f ← fetch32 s (slen - 4)
  let h := d * c1 + BitVec.ofNat 32 s.length + seed
  let a := rotate32 a 12 + f
  let h := mur c h + a
  let a := rotate32 a 3 + c
  let h := mur e h + a
  let a := rotate32 (a + f) 12 + d
  let h := mur (b ^^^ seed) h + a
  return fmix h

/-- The loop body of `hash32Len0to4`, farmhashcc.go:30-32 (`uint32(int8(s[i]))` sign-extends). -/
def step0to4 (bc : U32 × U32) (v : U8) : U32 × U32 :=
  let b := bc.1 * c1 + v.signExtend 32
  (b, bc.2 ^^^ b)

/-- `hash32Len0to4`, farmhashcc.go:25-35. -/
def hash32Len0to4 (s : List U8) (seed : U32) : Go U32 := do
  let bc ← Go.forRange 0 s.length (fun i bc => do return step0to4 bc (← at_ s i)) (seed, 9#32)
  return fmix (mur bc.1 (mur (BitVec.ofNat 32 s.length) bc.2))

/-- `hash32Len5to12`, farmhashmk.go:3-13. -/
def hash32Len5to12 (s : List U8) (seed : U32) : Go U32 := do
  let slen : Int := s.length
  let a := BitVec.ofNat 32 s.length
  let b := BitVec.ofNat 32 (s.length * 5)
  let c := 9#32
  let d := b + seed
  let a := a + (← fetch32 s 0)
  let b := b + (← fetch32 s (slen - 4))
  let c := c + (← fetch32 s ((s.length >>> 1 &&& 4 : Nat) : Int))
  return fmix (seed ^^^ mur c (mur b (mur a d)))

/-- The three running words of `Hash32`. farmhashmk.go:15-83. -/
structure HGF where
  (h g f : U32)

/-- The five assignments `aN := rotate32(fetch32(s, slen-k)*c1, 17) * c2`, farmhashmk.go:33-37. -/
def pre (x : U32) : U32 := rotate32 (x * c1) 17 * c2

/-- farmhashmk.go:30-51: everything of `Hash32` before its loop. -/
def start32 (s : List U8) : Go HGF := do
  let slen : Int := s.length
  let h := BitVec.ofNat 32 s.length
  let g := c1 * BitVec.ofNat 32 s.length
  let f := g
  let a0 := pre (← fetch32 s (slen - 4))
  let a1 := pre (← fetch32 s (slen - 8))
  let a2 := pre (← fetch32 s (slen - 16))
  let a3 := pre (← fetch32 s (slen - 12))
  let a4 := pre (← fetch32 s (slen - 20))
  let h := h ^^^ a0
  let h := rotate32 h 19
  let h := h * 5#32 + 0xe6546b64#32
  let h := h ^^^ a2
  let h := rotate32 h 19
  let h := h * 5#32 + 0xe6546b64#32
  let g := g ^^^ a1
  let g := rotate32 g 19
  let g := g * 5#32 + 0xe6546b64#32
  let g := g ^^^ a3
  let g := rotate32 g 19
  let g := g * 5#32 + 0xe6546b64#32
  let f := f + a4
  let f := rotate32 f 19 + 113#32
  return ⟨h, g, f⟩

/-- One round of the loop, without the reads: farmhashmk.go:59-66. -/
def round32 (x : HGF) (a b c d e : U32) : HGF :=
  let h := x.h + a
  let g := x.g + b
  let f := x.f + c
  let h := mur d h + e
  let g := mur c g + a
  let f := mur (b + e * c1) f + d
  let f := f + g
  let g := g + f
  ⟨h, g, f⟩

/-- The loop body, farmhashmk.go:54-68. -/
def body32 (x : HGF × List U8 × Nat) : Go (HGF × List U8 × Nat) := do
  let (v, s, iters) := x
  let a ← fetch32 s 0
  let b ← fetch32 s 4
  let c ← fetch32 s 8
  let d ← fetch32 s 12
  let e ← fetch32 s 16
  let s ← tail s 20
  return (round32 v a b c d e, s, iters - 1)

/-- farmhashmk.go:73-83: everything of `Hash32` after its loop. -/
def finish32 (v : HGF) : U32 :=
  let h := v.h
  let g := v.g
  let f := v.f
  let g := rotate32 g 11 * c1
  let g := rotate32 g 17 * c1
  let f := rotate32 f 11 * c1
  let f := rotate32 f 17 * c1
  let h := rotate32 (h + g) 19
  let h := h * 5#32 + 0xe6546b64#32
  let h := rotate32 h 17 * c1
  let h := rotate32 (h + f) 19
  let h := h * 5#32 + 0xe6546b64#32
  let h := rotate32 h 17 * c1
  h

/-- `Hash32`, farmhashmk.go:15-84. `for { body; iters--; if iters == 0 { break } }` is the body followed by
`for iters != 0 { body; iters-- }`. -/
def Hash32 (s : List U8) : Go U32 := do
  if s.length ≤ 24 then
    if s.length ≤ 12 then
      if s.length ≤ 4 then hash32Len0to4 s 0#32
      else hash32Len5to12 s 0#32
    else hash32Len13to24Seed s 0#32
  else do
    let v ← start32 s
    let iters := (s.length - 1) / 20
    let x ← body32 (v, s, iters)
    let x ← Go.while_ (s.length + 1) (fun x => decide (x.2.2 ≠ 0)) body32 x
    return finish32 x.1

/-- `Hash32WithSeed`, farmhashmk.go:86-100. -/
def Hash32WithSeed (s : List U8) (seed : U32) : Go U32 := do
  if s.length ≤ 24 then
    if s.length ≥ 13 then hash32Len13to24Seed s (seed * c1)
    else if s.length ≥ 5 then hash32Len5to12 s seed
    else hash32Len0to4 s seed
  else do
    let h ← hash32Len13to24Seed (← Go.slice s 0 24) (seed ^^^ BitVec.ofNat 32 s.length)
    return mur ((← Hash32 (← tail s 24)) + seed) h

/-! ## 64 bits -/

/-- `shiftMix`, farmhashna.go:3-5. -/
def shiftMix (val : U64) : U64 := val ^^^ val >>> 47

/-- `uint128`, farmhashcc.go:48-51. -/
structure uint128 where
  (lo hi : U64)
deriving DecidableEq

/-- `hash128to64`, farmhashcc.go:37-46. -/
def hash128to64 (x : uint128) : U64 :=
  let kMul := 0x9ddfea08eb382d69#64
  let a := (x.lo ^^^ x.hi) * kMul
  let a := a ^^^ a >>> 47
  let b := (x.hi ^^^ a) * kMul
  let b := b ^^^ b >>> 47
  b * kMul

/-- `hashLen16`, farmhashna.go:7-9. -/
def hashLen16 (u v : U64) : U64 := hash128to64 ⟨u, v⟩

/-- `hashLen16Mul`, farmhashna.go:11-19. -/
def hashLen16Mul (u v mul : U64) : U64 :=
  let a := (u ^^^ v) * mul
  let a := a ^^^ a >>> 47
  let b := (v ^^^ a) * mul
  let b := b ^^^ b >>> 47
  b * mul

/-- `hashLen0to16`, farmhashna.go:21-46. -/
def hashLen0to16 (s : List U8) : Go U64 := do
  let slen : Int := s.length
  let l := BitVec.ofNat 64 s.length
  if s.length ≥ 8 then
    let mul := k2 + l * 2#64
    let a := (← fetch64 s 0) + k2
    let b ← fetch64 s (slen - 8)
    let c := rotate64 b 37 * mul + a
    let d := (rotate64 a 25 + b) * mul
    return hashLen16Mul c d mul
  else if s.length ≥ 4 then
    let mul := k2 + l * 2#64
    let a ← fetch32 s 0
    let b ← fetch32 s (slen - 4)
    return hashLen16Mul (l + a.setWidth 64 <<< 3) (b.setWidth 64) mul
  else if s.length > 0 then
    let a ← at_ s 0
    let b ← at_ s (slen / 2)
    let c ← at_ s (slen - 1)
    let y := a.setWidth 32 + b.setWidth 32 <<< 8
    let z := BitVec.ofNat 32 s.length + c.setWidth 32 <<< 2
    return shiftMix (y.setWidth 64 * k2 ^^^ z.setWidth 64 * k0) * k2
  else return k2

/-- `hashLen17to32`, farmhashna.go:50-58. -/
def hashLen17to32 (s : List U8) : Go U64 := do
  let slen : Int := s.length
  let mul := k2 + BitVec.ofNat 64 (s.length * 2)
  let a := (← fetch64 s 0) * k1
  let b ← fetch64 s 8
  let c := (← fetch64 s (slen - 8)) * mul
  let d := (← fetch64 s (slen - 16)) * k2
  return hashLen16Mul (rotate64 (a + b) 43 + rotate64 c 30 + d) (a + rotate64 (b + k2) 18 + c) mul

/-- `weakHashLen32WithSeedsWords`, farmhashna.go:62-70. -/
def weakHashLen32WithSeedsWords (w x y z a b : U64) : U64 × U64 :=
  let a := a + w
  let b := rotate64 (b + a + z) 21
  let c := a
  let a := a + x
  let a := a + y
  let b := b + rotate64 a 44
  (a + z, b + c)

/-- `weakHashLen32WithSeeds`, farmhashna.go:73-80. -/
def weakHashLen32WithSeeds (s : List U8) (a b : U64) : Go (U64 × U64) := do
  let w ← fetch64 s 0
  let x ← fetch64 s 8
  let y ← fetch64 s 16
  let z ← fetch64 s 24
  return weakHashLen32WithSeedsWords w x y z a b

/-- `hashLen33to64`, farmhashna.go:83-97. -/
def hashLen33to64 (s : List U8) : Go U64 := do
  let slen : Int := s.length
  let mul := k2 + BitVec.ofNat 64 s.length * 2#64
  let a := (← fetch64 s 0) * k2
  let b ← fetch64 s 8
  let c := (← fetch64 s (slen - 8)) * mul
  let d := (← fetch64 s (slen - 16)) * k2
  let y := rotate64 (a + b) 43 + rotate64 c 30 + d
  let z := hashLen16Mul y (a + rotate64 (b + k2) 18 + c) mul
  let e := (← fetch64 s 16) * mul
  let f ← fetch64 s 24
  let g := (y + (← fetch64 s (slen - 32))) * mul
  let h := (z + (← fetch64 s (slen - 24))) * mul
  return hashLen16Mul (rotate64 (e + f) 43 + rotate64 g 30 + h) (e + rotate64 (f + a) 18 + g) mul

/-- The state of the 64-byte loops of `naHash64` and `cityHash128WithSeed`. farmhashna.go:99-153, farmhashcc.go:93-163. -/
structure St where
  (x y z v1 v2 w1 w2 : U64)

/-- One 64-byte step, farmhashna.go:126-134; the same lines are farmhashcc.go:117-125 and 126-134. -/
def body64 (q : St × List U8) : Go (St × List U8) := do
  let (t, s) := q
  let x := rotate64 (t.x + t.y + t.v1 + (← fetch64 s 8)) 37 * k1
  let y := rotate64 (t.y + t.v2 + (← fetch64 s 48)) 42 * k1
  let x := x ^^^ t.w2
  let y := y + (t.v1 + (← fetch64 s 40))
  let z := rotate64 (t.z + t.w1) 33 * k1
  let v ← weakHashLen32WithSeeds s (t.v2 * k1) (x + t.w1)
  let w ← weakHashLen32WithSeeds (← tail s 32) (z + t.w2) (y + (← fetch64 s 16))
  let s ← tail s 64
  return (⟨z, y, x, v.1, v.2, w.1, w.2⟩, s)

/-- farmhashna.go:136-153: the last 64 bytes. -/
def finish64 (t : St) (slen : Nat) (s : List U8) : Go U64 := do
  let mul := k1 + (t.z &&& 0xff#64) <<< 1
  let w1 := t.w1 + ((BitVec.ofNat 64 slen - 1#64) &&& 63#64)
  let v1 := t.v1 + w1
  let w1 := w1 + v1
  let x := rotate64 (t.x + t.y + v1 + (← fetch64 s 8)) 37 * mul
  let y := rotate64 (t.y + t.v2 + (← fetch64 s 48)) 42 * mul
  let x := x ^^^ t.w2 * 9#64
  let y := y + (v1 * 9#64 + (← fetch64 s 40))
  let z := rotate64 (t.z + w1) 33 * mul
  let v ← weakHashLen32WithSeeds s (t.v2 * mul) (x + w1)
  let w ← weakHashLen32WithSeeds (← tail s 32) (z + t.w2) (y + (← fetch64 s 16))
  let (z, x) := (x, z)
  return hashLen16Mul (hashLen16Mul v.1 w.1 mul + shiftMix y * k0 + z) (hashLen16Mul v.2 w.2 mul + x) mul

/-- `endIdx + ((slen - 1) & (n-1)) - (n-1)` with `endIdx := ((slen - 1) / n) * n`, farmhashna.go:122-123 and
farmhashuo.go:28-29 (`n = 64`), farmhashcc.go:99-100 (`n = 128`). For `n` a power of two `& (n-1)` is `% n`. -/
def lastIdx (n slen : Nat) : Int := ((slen - 1) / n * n : Nat) + ((slen - 1) % n : Nat) - ((n : Int) - 1)

/-- `naHash64`, farmhashna.go:99-154. -/
def naHash64 (s : List U8) : Go U64 := do
  if s.length ≤ 32 then
    if s.length ≤ 16 then hashLen0to16 s
    else hashLen17to32 s
  else if s.length ≤ 64 then hashLen33to64 s
  else do
    let y := 2480279821605975764#64
    let z := shiftMix (y * k2 + 113#64) * k2
    let x := 81#64 * k2 + (← fetch64 s 0)
    let last64 ← tail s (lastIdx 64 s.length)
    let q ← Go.while_ s.length (fun q => decide (q.2.length > 64)) body64 (⟨x, y, z, 0#64, 0#64, 0#64, 0#64⟩, s)
    finish64 q.1 s.length last64

/-- `naHash64WithSeeds`, farmhashna.go:160-162. -/
def naHash64WithSeeds (s : List U8) (seed0 seed1 : U64) : Go U64 := do
  return hashLen16 ((← naHash64 s) - seed0) seed1

/-- `naHash64WithSeed`, farmhashna.go:156-158. -/
def naHash64WithSeed (s : List U8) (seed : U64) : Go U64 := naHash64WithSeeds s k2 seed

/-- `uoH`, farmhashuo.go:3-8. -/
def uoH (x y mul : U64) (r : Nat) : U64 :=
  let a := (x ^^^ y) * mul
  let a := a ^^^ a >>> 47
  let b := (y ^^^ a) * mul
  rotate64 b r * mul

/-- The state of the loop of `Hash64WithSeeds`. farmhashuo.go:10-99. -/
structure Uo where
  (u x y z vlo vhi wlo whi : U64)

/-- The arithmetic of one 64-byte step, farmhashuo.go:41-78. -/
def roundUo (mul : U64) (t : Uo) (a0 a1 a2 a3 a4 a5 a6 a7 : U64) : Uo :=
  let x := t.x + (a0 + a1)
  let y := t.y + a2
  let z := t.z + a3
  let vlo := t.vlo + a4
  let vhi := t.vhi + (a5 + a1)
  let wlo := t.wlo + a6
  let whi := t.whi + a7
  let x := rotate64 x 26
  let x := x * 9#64
  let y := rotate64 y 29
  let z := z * mul
  let vlo := rotate64 vlo 33
  let vhi := rotate64 vhi 30
  let wlo := wlo ^^^ x
  let wlo := wlo * 9#64
  let z := rotate64 z 32
  let z := z + whi
  let whi := whi + z
  let z := z * 9#64
  let (u, y) := (y, t.u)
  let z := z + (a0 + a6)
  let vlo := vlo + a2
  let vhi := vhi + a3
  let wlo := wlo + a4
  let whi := whi + (a5 + a6)
  let x := x + a1
  let y := y + a7
  let y := y + vlo
  let vlo := vlo + (x - y)
  let vhi := vhi + wlo
  let wlo := wlo + vhi
  let whi := whi + (x - y)
  let x := x + whi
  let whi := rotate64 whi 34
  let (u, z) := (z, u)
  ⟨u, x, y, z, vlo, vhi, wlo, whi⟩

/-- The loop body, farmhashuo.go:33-79. -/
def bodyUo (mul : U64) (q : Uo × List U8) : Go (Uo × List U8) := do
  let (t, s) := q
  let a0 ← fetch64 s 0
  let a1 ← fetch64 s 8
  let a2 ← fetch64 s 16
  let a3 ← fetch64 s 24
  let a4 ← fetch64 s 32
  let a5 ← fetch64 s 40
  let a6 ← fetch64 s 48
  let a7 ← fetch64 s 56
  let s ← tail s 64
  return (roundUo mul t a0 a1 a2 a3 a4 a5 a6 a7, s)

/-- farmhashuo.go:81-99: the last 64 bytes. -/
def finishUo (mul : U64) (t : Uo) (slen : Nat) (s : List U8) : Go U64 := do
  let u := t.u * 9#64
  let vhi := rotate64 t.vhi 28
  let vlo := rotate64 t.vlo 20
  let wlo := t.wlo + (BitVec.ofNat 64 (slen - 1) &&& 63#64)
  let u := u + t.y
  let y := t.y + u
  let x := rotate64 (y - t.x + vlo + (← fetch64 s 8)) 37 * mul
  let y := rotate64 (y ^^^ vhi ^^^ (← fetch64 s 48)) 42 * mul
  let x := x ^^^ t.whi * 9#64
  let y := y + (vlo + (← fetch64 s 40))
  let z := rotate64 (t.z + wlo) 33 * mul
  let v ← weakHashLen32WithSeeds s (vhi * mul) (x + wlo)
  let w ← weakHashLen32WithSeeds (← tail s 32) (z + t.whi) (y + (← fetch64 s 16))
  return uoH (hashLen16Mul (v.1 + x) (w.1 ^^^ y) mul + z - u) (uoH (v.2 + y) (w.2 + z) k2 30 ^^^ x) k2 31

/-- `Hash64WithSeeds`, farmhashuo.go:10-100. -/
def Hash64WithSeeds (s : List U8) (seed0 seed1 : U64) : Go U64 := do
  if s.length ≤ 64 then naHash64WithSeeds s seed0 seed1
  else do
    let x := seed0
    let y := seed1 * k2 + 113#64
    let z := shiftMix (y * k2) * k2
    let u := x - z
    let x := x * k2
    let mul := k2 + (u &&& 0x82#64)
    let last64 ← tail s (lastIdx 64 s.length)
    let q ← Go.while_ s.length (fun q => decide (q.2.length > 64)) (bodyUo mul) (⟨u, x, y, z, seed0, seed1, 0#64, 0#64⟩, s)
    finishUo mul q.1 s.length last64

/-- `Hash64WithSeed`, farmhashuo.go:102-107. -/
def Hash64WithSeed (s : List U8) (seed : U64) : Go U64 :=
  if s.length ≤ 64 then naHash64WithSeed s seed else Hash64WithSeeds s 0#64 seed

/-- `Hash64`, farmhashuo.go:109-114. -/
def Hash64 (s : List U8) : Go U64 :=
  if s.length ≤ 64 then naHash64 s else Hash64WithSeeds s 81#64 0#64

/-! ## 128 bits -/

/-- The four words of `cityMurmur`. farmhashcc.go:55-91. -/
structure Abcd where
  (a b c d : U64)

/-- The loop body of `cityMurmur`, farmhashcc.go:75-82; the third component is `l`. -/
def bodyMurmur (q : Abcd × List U8 × Int) : Go (Abcd × List U8 × Int) := do
  let (t, s, l) := q
  let a := t.a ^^^ shiftMix ((← fetch64 s 0) * k1) * k1
  let a := a * k1
  let b := t.b ^^^ a
  let c := t.c ^^^ shiftMix ((← fetch64 s 8) * k1) * k1
  let c := c * k1
  let d := t.d ^^^ c
  let s ← tail s 16
  return (⟨a, b, c, d⟩, s, l - 16)

/-- farmhashcc.go:63-69, `len <= 16`. -/
def murmurShort (s : List U8) (seed : uint128) : Go Abcd := do
  let a := shiftMix (seed.lo * k1) * k1
  let c := seed.hi * k1 + (← hashLen0to16 s)
  if s.length ≥ 8 then
    let d := shiftMix (a + (← fetch64 s 0))
    return ⟨a, seed.hi, c, d⟩
  else
    let d := shiftMix (a + c)
    return ⟨a, seed.hi, c, d⟩

/-- farmhashcc.go:71-86, `len > 16`. -/
def murmurLong (s : List U8) (seed : uint128) : Go Abcd := do
  let slen : Int := s.length
  let c := hashLen16 ((← fetch64 s (slen - 8)) + k1) seed.lo
  let d := hashLen16 (seed.hi + BitVec.ofNat 64 s.length) (c + (← fetch64 s (slen - 16)))
  let a := seed.lo + d
  let q ← bodyMurmur (⟨a, seed.hi, c, d⟩, s, slen - 16)
  let q ← Go.while_ (s.length + 1) (fun q => decide (¬ q.2.2 ≤ 0)) bodyMurmur q
  return q.1

/-- `cityMurmur`, farmhashcc.go:55-91. -/
def cityMurmur (s : List U8) (seed : uint128) : Go uint128 := do
  let t ← if (s.length : Int) - 16 ≤ 0 then murmurShort s seed else murmurLong s seed
  let a := hashLen16 t.a t.c
  let b := hashLen16 t.d t.b
  return ⟨a ^^^ b, hashLen16 b a⟩

/-- One round of the 128-byte loop, farmhashcc.go:117-135; the third component is `slen`. -/
def body128 (q : St × List U8 × Nat) : Go (St × List U8 × Nat) := do
  let (t, s, slen) := q
  let r ← body64 (t, s)
  let r ← body64 r
  return (r.1, r.2, slen - 128)

/-- The body of the tail loop, farmhashcc.go:147-154; the second component is `tail_done`. -/
def bodyTail (last : List U8) (q : St × Nat) : Go (St × Nat) := do
  let (t, done) := q
  let done := done + 32
  let y := rotate64 (t.x + t.y) 42 * k0 + t.v2
  let w1 := t.w1 + (← fetch64 last (128 - (done : Int) + 16))
  let x := t.x * k0 + w1
  let z := t.z + (t.w2 + (← fetch64 last (128 - (done : Int))))
  let w2 := t.w2 + t.v1
  let v ← weakHashLen32WithSeeds (← tail last (128 - (done : Int))) (t.v1 + z) t.v2
  return (⟨x, y, z, v.1 * k0, v.2, w1, w2⟩, done)

/-- farmhashcc.go:107-113: initialisation for `len >= 128`. -/
def start128 (s : List U8) (seed : uint128) : Go St := do
  let x := seed.lo
  let y := seed.hi
  let z := BitVec.ofNat 64 s.length * k1
  let v1 := rotate64 (y ^^^ k1) 49 * k1 + (← fetch64 s 0)
  let v2 := rotate64 v1 42 * k1 + (← fetch64 s 8)
  let w1 := rotate64 (y + z) 35 * k1 + x
  let w2 := rotate64 (x + (← fetch64 s 88)) 53 * k1
  return ⟨x, y, z, v1, v2, w1, w2⟩

/-- farmhashcc.go:140-144. -/
def mid128 (t : St) : St :=
  let x := t.x + rotate64 (t.v1 + t.z) 49 * k0
  let y := t.y * k0 + rotate64 t.w2 37
  let z := t.z * k0 + rotate64 t.w1 27
  ⟨x, y, z, t.v1 * k0, t.v2, t.w1 * 9#64, t.w2⟩

/-- farmhashcc.go:160-163. -/
def finish128 (t : St) : uint128 :=
  let x := hashLen16 t.x t.v1
  let y := hashLen16 (t.y + t.z) t.w1
  ⟨hashLen16 (x + t.v2) t.w2 + y, hashLen16 (x + t.w2) (y + t.v2)⟩

/-- `cityHash128WithSeed`, farmhashcc.go:93-164. -/
def cityHash128WithSeed (s : List U8) (seed : uint128) : Go uint128 := do
  if s.length < 128 then cityMurmur s seed
  else do
    let last ← tail s (lastIdx 128 s.length)
    let t ← start128 s seed
    let q ← body128 (t, s, s.length)
    let q ← Go.while_ (s.length + 1) (fun q => decide (¬ q.2.2 < 128)) body128 q
    let r ← Go.while_ 5 (fun r => decide (r.2 < q.2.2)) (bodyTail last) (mid128 q.1, 0)
    return finish128 r.1

/-- `cityHash128`, farmhashcc.go:166-172. -/
def cityHash128 (s : List U8) : Go uint128 := do
  if s.length ≥ 16 then do
    let lo ← fetch64 s 0
    let hi ← fetch64 s 8
    cityHash128WithSeed (← tail s 16) ⟨lo, hi + k0⟩
  else cityHash128WithSeed s ⟨k0, k1⟩

/-- `Fingerprint128`, farmhashcc.go:174-177: returns `(lo, hi)`. -/
def Fingerprint128 (s : List U8) : Go (U64 × U64) := do
  let h ← cityHash128 s
  return (h.lo, h.hi)

/-- `Fingerprint64`, farmhashcc.go:179-181. -/
def Fingerprint64 (s : List U8) : Go U64 := Hash64 s

/-- `Fingerprint32`, farmhashcc.go:183-185. -/
def Fingerprint32 (s : List U8) : Go U32 := Hash32 s

/-- `Hash128`, farmhashcc.go:187-189. -/
def Hash128 (s : List U8) : Go (U64 × U64) := Fingerprint128 s

/-- `Hash128WithSeed`, farmhashcc.go:191-194. -/
def Hash128WithSeed (s : List U8) (seed0 seed1 : U64) : Go (U64 × U64) := do
  let h ← cityHash128WithSeed s ⟨seed0, seed1⟩
  return (h.lo, h.hi)

end Verif.Model.Farm
