import Verif.Go

/-!
# Model of package gomap (/repo/gomap): the Go runtime's memory hash

`p` is an `unsafe.Pointer` into the key: it is modelled as an offset into `b`, and a load outside `b` is a
fault. `add(p, x)` (add.go) is pointer addition. The build for 386/amd64 is modelled (`readUnaligned` =
unaligned1.go); unaligned2.go is at the end of the file.
-/

namespace Verif.Model.Gomap
open Verif

/-- `*(*byte)(add(p, x))`. hash32.go:28-31, add.go. -/
def unsafe8 (b : List U8) (off : Nat) : Go U8 :=
  match b[off]? with
  | some x => .ok x
  | none => .error .unsafeOOB

/-! ## hash32.go -/

/-- hash32.go:16-19. -/
def m1 : U32 := 3168982561#32
/-- hash32.go:17. -/
def m2 : U32 := 3339683297#32
/-- hash32.go:18. -/
def m3 : U32 := 832293441#32
/-- hash32.go:19. -/
def m4 : U32 := 2336365089#32

/-- `rotl_15`, hash32.go:85-87. -/
def rotl_15 (x : U32) : U32 := x <<< 15 ||| x >>> (32 - 15)
/-- `rotl_11`, hash32.go:88-90. -/
def rotl_11 (x : U32) : U32 := x <<< 11 ||| x >>> (32 - 11)

/-- The variables `v1..v4` of hash32.go:52-55. -/
structure V32 where
  (v1 v2 v3 v4 : U32)

/-- The loop body, hash32.go:57-69; state `(v, p, s)`. -/
def body32 (b : List U8) (q : V32 × Nat × Nat) : Go (V32 × Nat × Nat) := do
  let (v, p, s) := q
  let v1 := v.v1 ^^^ (← Go.unsafe32 b p) * m1
  let v1 := rotl_15 v1 * m2
  let p := p + 4
  let v2 := v.v2 ^^^ (← Go.unsafe32 b p) * m1
  let v2 := rotl_15 v2 * m2
  let p := p + 4
  let v3 := v.v3 ^^^ (← Go.unsafe32 b p) * m1
  let v3 := rotl_15 v3 * m2
  let p := p + 4
  let v4 := v.v4 ^^^ (← Go.unsafe32 b p) * m1
  let v4 := rotl_15 v4 * m2
  let p := p + 4
  return (⟨v1, v2, v3, v4⟩, p, s - 16)

/-- The `switch` at label `tail`, hash32.go:25-73. `goto tail` is a recursive call; `fuel` bounds the number of jumps
followed (it is 1 in `Hash32`, and the totality theorem shows that is enough). -/
def switch32 (b : List U8) (fuel : Nat) (p s : Nat) (h : U32) : Go U32 :=
  if s = 0 then .ok h
  else if s < 4 then do
    let w := (← unsafe8 b p).setWidth 32
    let w := w + (← unsafe8 b (p + s >>> 1)).setWidth 32 <<< 8
    let w := w + (← unsafe8 b (p + (s - 1))).setWidth 32 <<< 16
    return h ^^^ w * m1
  else if s = 4 then do
    return h ^^^ (← Go.unsafe32 b p) * m1
  else if s ≤ 8 then do
    let h := h ^^^ (← Go.unsafe32 b p) * m1
    let h := rotl_15 h * m2
    let h := rotl_11 h
    return h ^^^ (← Go.unsafe32 b (p + (s - 4))) * m1
  else if s ≤ 16 then do
    let h := h ^^^ (← Go.unsafe32 b p) * m1
    let h := rotl_15 h * m2
    let h := rotl_11 h
    let h := h ^^^ (← Go.unsafe32 b (p + 4)) * m1
    let h := rotl_15 h * m2
    let h := rotl_11 h
    let h := h ^^^ (← Go.unsafe32 b (p + (s - 8))) * m1
    let h := rotl_15 h * m2
    let h := rotl_11 h
    return h ^^^ (← Go.unsafe32 b (p + (s - 4))) * m1
  else do
    let q ← Go.while_ s (fun q => decide (q.2.2 ≥ 16)) (body32 b) (⟨h, h + m1, h + m2, h + m3⟩, p, s)
    let v := q.1
    let h := rotl_11 v.v1 * m1 + rotl_11 v.v2 * m2 + rotl_11 v.v3 * m3 + rotl_11 v.v4 * m4
    match fuel with
    | 0 => .error .diverge
    | f + 1 => switch32 b f q.2.1 q.2.2 h

/-- hash32.go:74-78. -/
def final32 (h : U32) : U32 :=
  let h := h ^^^ h >>> 17
  let h := h * m3
  let h := h ^^^ h >>> 13
  let h := h * m4
  h ^^^ h >>> 16

/-- `Hash32`, hash32.go:13-80. `&b[0]` faults for an empty slice. -/
def Hash32 (b : List U8) (seed : U32) : Go U32 := do
  let _ ← Go.idx b 0
  let h ← switch32 b 1 0 b.length (seed + BitVec.ofNat 32 b.length)
  return final32 h

/-! ## hash64.go -/

/-- hash64.go:16-19. -/
def n1 : U64 := 16877499708836156737#64
/-- `m2`, hash64.go:17. -/
def n2 : U64 := 2820277070424839065#64
/-- `m3`, hash64.go:18. -/
def n3 : U64 := 9497967016996688599#64
/-- `m4`, hash64.go:19. -/
def n4 : U64 := 15839092249703872147#64

/-- `rotl_31`, hash64.go:87-89. -/
def rotl_31 (x : U64) : U64 := x <<< 31 ||| x >>> (64 - 31)
/-- `rotl_27`, hash64.go:90-92. -/
def rotl_27 (x : U64) : U64 := x <<< 27 ||| x >>> (64 - 27)

/-- The variables `v1..v4` of hash64.go:53-56. -/
structure V64 where
  (v1 v2 v3 v4 : U64)

/-- The loop body, hash64.go:58-70. -/
def body64 (b : List U8) (q : V64 × Nat × Nat) : Go (V64 × Nat × Nat) := do
  let (v, p, s) := q
  let v1 := v.v1 ^^^ (← Go.unsafe64 b p) * n1
  let v1 := rotl_31 v1 * n2
  let p := p + 8
  let v2 := v.v2 ^^^ (← Go.unsafe64 b p) * n1
  let v2 := rotl_31 v2 * n2
  let p := p + 8
  let v3 := v.v3 ^^^ (← Go.unsafe64 b p) * n1
  let v3 := rotl_31 v3 * n2
  let p := p + 8
  let v4 := v.v4 ^^^ (← Go.unsafe64 b p) * n1
  let v4 := rotl_31 v4 * n2
  let p := p + 8
  return (⟨v1, v2, v3, v4⟩, p, s - 32)

/-- The `switch` at label `tail`, hash64.go:24-74; `goto tail` as in `switch32`. -/
def switch64 (b : List U8) (fuel : Nat) (p s : Nat) (h : U64) : Go U64 :=
  if s = 0 then .ok h
  else if s < 4 then do
    let w := (← unsafe8 b p).setWidth 64
    let w := w + (← unsafe8 b (p + s >>> 1)).setWidth 64 <<< 8
    let w := w + (← unsafe8 b (p + (s - 1))).setWidth 64 <<< 16
    return h ^^^ w * n1
  else if s ≤ 8 then do
    let w := (← Go.unsafe32 b p).setWidth 64
    let w := w + (← Go.unsafe32 b (p + (s - 4))).setWidth 64 <<< 32
    return h ^^^ w * n1
  else if s ≤ 16 then do
    let h := h ^^^ (← Go.unsafe64 b p) * n1
    let h := rotl_31 h * n2
    let h := rotl_27 h
    return h ^^^ (← Go.unsafe64 b (p + (s - 8))) * n1
  else if s ≤ 32 then do
    let h := h ^^^ (← Go.unsafe64 b p) * n1
    let h := rotl_31 h * n2
    let h := rotl_27 h
    let h := h ^^^ (← Go.unsafe64 b (p + 8)) * n1
    let h := rotl_31 h * n2
    let h := rotl_27 h
    let h := h ^^^ (← Go.unsafe64 b (p + (s - 16))) * n1
    let h := rotl_31 h * n2
    let h := rotl_27 h
    return h ^^^ (← Go.unsafe64 b (p + (s - 8))) * n1
  else do
    let q ← Go.while_ s (fun q => decide (q.2.2 ≥ 32)) (body64 b) (⟨h, h + n1, h + n2, h + n3⟩, p, s)
    let v := q.1
    let h := rotl_27 v.v1 * n1 + rotl_27 v.v2 * n2 + rotl_27 v.v3 * n3 + rotl_27 v.v4 * n4
    match fuel with
    | 0 => .error .diverge
    | f + 1 => switch64 b f q.2.1 q.2.2 h

/-- hash64.go:76-80. -/
def final64 (h : U64) : U64 :=
  let h := h ^^^ h >>> 33
  let h := h * n2
  let h := h ^^^ h >>> 29
  let h := h * n3
  h ^^^ h >>> 32

/-- `Hash64`, hash64.go:13-82. -/
def Hash64 (b : List U8) (seed : U64) : Go U64 := do
  let _ ← Go.idx b 0
  let h ← switch64 b 1 0 b.length (seed + BitVec.ofNat 64 b.length)
  return final64 h

/-! ## unaligned2.go (arm, ppc64, ppc64le) -/

/-- `readUnaligned32`, unaligned2.go:12-15, on the four bytes at `p`. -/
def readUnaligned32' (q0 q1 q2 q3 : U8) : U32 :=
  q0.setWidth 32 + q1.setWidth 32 <<< 8 + q2.setWidth 32 <<< 16 + q3.setWidth 32 <<< 24

/-- `readUnaligned64`, unaligned2.go:17-20, on the eight bytes at `p`. -/
def readUnaligned64' (q0 q1 q2 q3 q4 q5 q6 q7 : U8) : U64 :=
  q0.setWidth 64 + q1.setWidth 64 <<< 8 + q2.setWidth 64 <<< 16 + q3.setWidth 64 <<< 24 + q4.setWidth 64 <<< 32 +
    q5.setWidth 64 <<< 40 + q6.setWidth 64 <<< 48 + q7.setWidth 64 <<< 56

end Verif.Model.Gomap
