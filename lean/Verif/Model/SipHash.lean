import Verif.Go
import Verif.Spec.Stream

/-!
# Model of package siphash (pure Go files) and package siphashpg

Files: /repo/siphash/hash.go, hash128.go, siphash.go and /repo/siphashpg/siphash.go.
Each inlined round in package siphash is the same 14 lines (checked textually by
/verif/tools/check_sip.py), so the model writes it once as `round`.
-/

namespace Verif.Model.SipHash

/-- The local variables `v0, v1, v2, v3` (hash.go:16-19, siphash.go:25). -/
structure V where
  v0 : U64
  v1 : U64
  v2 : U64
  v3 : U64
  deriving DecidableEq

/-- One inlined round, e.g. hash.go:29-45; statement order as in the source. -/
def round (s : V) : V :=
  let v0 := s.v0; let v1 := s.v1; let v2 := s.v2; let v3 := s.v3
  let v0 := v0 + v1
  let v1 := v1 <<< 13 ||| v1 >>> (64 - 13)
  let v1 := v1 ^^^ v0
  let v0 := v0 <<< 32 ||| v0 >>> (64 - 32)
  let v2 := v2 + v3
  let v3 := v3 <<< 16 ||| v3 >>> (64 - 16)
  let v3 := v3 ^^^ v2
  let v0 := v0 + v3
  let v3 := v3 <<< 21 ||| v3 >>> (64 - 21)
  let v3 := v3 ^^^ v0
  let v2 := v2 + v1
  let v1 := v1 <<< 17 ||| v1 >>> (64 - 17)
  let v1 := v1 ^^^ v2
  let v2 := v2 <<< 32 ||| v2 >>> (64 - 32)
  ⟨v0, v1, v2, v3⟩

/-- `uint64(b)`. Go conversion, e.g. hash.go:72-91. -/
def u64 (b : U8) : U64 := b.setWidth 64

/-- `uint64(p[0]) | uint64(p[1])<<8 | ... | uint64(p[7])<<56`: hash.go:24-25, siphash.go:40-43 and
81-82, siphashpg/siphash.go:39 (`U8tou64le`). -/
def load (p : List U8) : Go U64 := do
  let p0 ← Go.idx p 0
  let p1 ← Go.idx p 1
  let p2 ← Go.idx p 2
  let p3 ← Go.idx p 3
  let p4 ← Go.idx p 4
  let p5 ← Go.idx p 5
  let p6 ← Go.idx p 6
  let p7 ← Go.idx p 7
  return u64 p0 ||| u64 p1 <<< 8 ||| u64 p2 <<< 16 ||| u64 p3 <<< 24 |||
    u64 p4 <<< 32 ||| u64 p5 <<< 40 ||| u64 p6 <<< 48 ||| u64 p7 <<< 56

/-- One pass of the compression loop body after loading `m`: `v3 ^= m`, two rounds, `v0 ^= m`
(hash.go:26-66, siphash.go:84-124). -/
def compress1 (s : V) (m : U64) : V :=
  let s := { s with v3 := s.v3 ^^^ m }
  let s := round s
  let s := round s
  { s with v0 := s.v0 ^^^ m }

/-- `for len(p) >= BlockSize { m := ...; ...; p = p[BlockSize:] }`: hash.go:23-68,
hash128.go:29-74, siphash.go:80-127 (`blocks`). -/
def blocksLoop (s : V) (p : List U8) : Go (V × List U8) :=
  Go.while_ p.length (fun (_, p) => decide (8 ≤ p.length))
    (fun (s, p) => do
      let m ← load p
      let p ← Go.from_ p 8
      return (compress1 s m, p)) (s, p)

/-! The `switch len(p)` with `fallthrough`: hash.go:71-91, hash128.go:77-97,
siphashpg/siphash.go:154-181; `tailK` is the code entered at `case K`. -/
def tail1 (t : U64) (p : List U8) : Go U64 := do return t ||| u64 (← Go.idx p 0)
/-- `case 2`, hash.go:87-89, hash128.go:93-95. -/
def tail2 (t : U64) (p : List U8) : Go U64 := do tail1 (t ||| u64 (← Go.idx p 1) <<< 8) p
/-- `case 3`, hash.go:84-86, hash128.go:90-92. -/
def tail3 (t : U64) (p : List U8) : Go U64 := do tail2 (t ||| u64 (← Go.idx p 2) <<< 16) p
/-- `case 4`, hash.go:81-83, hash128.go:87-89. -/
def tail4 (t : U64) (p : List U8) : Go U64 := do tail3 (t ||| u64 (← Go.idx p 3) <<< 24) p
/-- `case 5`, hash.go:78-80, hash128.go:84-86. -/
def tail5 (t : U64) (p : List U8) : Go U64 := do tail4 (t ||| u64 (← Go.idx p 4) <<< 32) p
/-- `case 6`, hash.go:75-77, hash128.go:81-83. -/
def tail6 (t : U64) (p : List U8) : Go U64 := do tail5 (t ||| u64 (← Go.idx p 5) <<< 40) p
/-- `case 7`, hash.go:72-74, hash128.go:78-80. -/
def tail7 (t : U64) (p : List U8) : Go U64 := do tail6 (t ||| u64 (← Go.idx p 6) <<< 48) p

/-- The switch of hash.go:71-91 (no default case: other lengths leave `t` alone). -/
def tailSwitch (t : U64) (p : List U8) : Go U64 :=
  match p.length with
  | 7 => tail7 t p
  | 6 => tail6 t p
  | 5 => tail5 t p
  | 4 => tail4 t p
  | 3 => tail3 t p
  | 2 => tail2 t p
  | 1 => tail1 t p
  | _ => .ok t

/-- Finalisation with 64-bit output, hash.go:135-215 (the same statements as siphash.go:167-247). -/
def fin64 (s : V) : U64 :=
  let s := { s with v2 := s.v2 ^^^ 0xff#64 }
  let s := round s
  let s := round s
  let s := round s
  let s := round s
  s.v0 ^^^ s.v1 ^^^ s.v2 ^^^ s.v3

/-- Finalisation with 128-bit output, hash128.go:141-301 (the same statements as
siphash.go:259-421). -/
def fin128 (s : V) : U64 × U64 :=
  let s := { s with v2 := s.v2 ^^^ 0xee#64 }
  let s := round s
  let s := round s
  let s := round s
  let s := round s
  let r0 := s.v0 ^^^ s.v1 ^^^ s.v2 ^^^ s.v3
  let s := { s with v1 := s.v1 ^^^ 0xdd#64 }
  let s := round s
  let s := round s
  let s := round s
  let s := round s
  let r1 := s.v0 ^^^ s.v1 ^^^ s.v2 ^^^ s.v3
  (r0, r1)

/-- `Hash`, hash.go:14-216. -/
def Hash (k0 k1 : U64) (p : List U8) : Go U64 := do
  let s : V := ⟨k0 ^^^ 0x736f6d6570736575#64, k1 ^^^ 0x646f72616e646f6d#64,
    k0 ^^^ 0x6c7967656e657261#64, k1 ^^^ 0x7465646279746573#64⟩
  let t := BitVec.ofNat 64 p.length <<< 56
  let (s, p) ← blocksLoop s p
  let t ← tailSwitch t p
  let s := compress1 s t
  return fin64 s

/-- `Hash128`, hash128.go:16-302. -/
def Hash128 (k0 k1 : U64) (p : List U8) : Go (U64 × U64) := do
  let s : V := ⟨k0 ^^^ 0x736f6d6570736575#64, k1 ^^^ 0x646f72616e646f6d#64,
    k0 ^^^ 0x6c7967656e657261#64, k1 ^^^ 0x7465646279746573#64⟩
  let t := BitVec.ofNat 64 p.length <<< 56
  let s := { s with v1 := s.v1 ^^^ 0xee#64 }
  let (s, p) ← blocksLoop s p
  let t ← tailSwitch t p
  let s := compress1 s t
  return fin128 s

/-- `type digest struct`, siphash.go:25-32. `x` is an array of 8 bytes. -/
structure Digest where
  v : V
  k0 : U64
  k1 : U64
  t : U8
  nx : Nat
  x : List U8
  size : Nat
  deriving DecidableEq

/-- `(*digest).Reset`, siphash.go:61-71. The buffer `x` is left as it was. -/
def Digest.reset (d : Digest) : Digest :=
  let v : V := ⟨d.k0 ^^^ 0x736f6d6570736575#64, d.k1 ^^^ 0x646f72616e646f6d#64,
    d.k0 ^^^ 0x6c7967656e657261#64, d.k1 ^^^ 0x7465646279746573#64⟩
  let d := { d with v := v, t := 0#8, nx := 0 }
  if d.size = 16 then { d with v := { d.v with v1 := d.v.v1 ^^^ 0xee#64 } } else d

/-- `newDigest`, siphash.go:35-47. -/
def newDigest (size : Nat) (key : List U8) : Go Digest := do
  if size ≠ 8 ∧ size ≠ 16 then Go.panic "size must be 8 or 16"
  else
    let k0 ← load key
    let k1 ← load (key.drop 8)   -- key[8] .. key[15], siphash.go:42-43
    return Digest.reset
      { v := ⟨0, 0, 0, 0⟩, k0 := k0, k1 := k1, t := 0#8, nx := 0, x := List.replicate 8 0#8, size := size }

/-- `blocks(d, p)`, siphash.go:77-130. -/
def Digest.blocks (d : Digest) (p : List U8) : Go Digest := do
  let (v, _) ← blocksLoop d.v p
  return { d with v := v }

/-- `copy(x[at:], p)`: overwrites from index `at`, as many bytes as fit; returns the count. Language semantics, for siphash.go. -/
def copyInto (x : List U8) (at_ : Nat) (p : List U8) : List U8 × Nat :=
  let n := min (x.length - at_) p.length
  (x.take at_ ++ p.take n ++ x.drop (at_ + n), n)

/-- First part of `Write` (siphash.go:135-146): top up a partly filled buffer. -/
def Digest.topUp (d : Digest) (p : List U8) : Go (Digest × List U8) := do
  if d.nx > 0 then
    let n := p.length
    let n := if n > 8 - d.nx then 8 - d.nx else n
    let (x, c) := copyInto d.x d.nx p
    let d := { d with x := x, nx := d.nx + c }
    let d ← (if d.nx = 8 then do
        let d ← d.blocks d.x
        return { d with nx := 0 }
      else pure d : Go Digest)
    let p ← Go.from_ p n
    return (d, p)
  else return (d, p)

/-- Second part of `Write` (siphash.go:147-151): whole blocks straight from the argument. -/
def Digest.bulk (d : Digest) (p : List U8) : Go (Digest × List U8) := do
  if p.length ≥ 8 then
    let n := p.length / 8 * 8          -- len(p) &^ (BlockSize - 1)
    let q ← Go.slice p 0 n
    let d ← d.blocks q
    let p ← Go.from_ p n
    return (d, p)
  else return (d, p)

/-- `(*digest).Write`, siphash.go:132-156. -/
def Digest.write (d : Digest) (p : List U8) : Go (Digest × Nat) := do
  let nn := p.length
  let d := { d with t := d.t + BitVec.ofNat 8 nn }
  let (d, p) ← d.topUp p
  let (d, p) ← d.bulk p
  if p.length > 0 then
    let (x, c) := copyInto d.x 0 p
    return ({ d with x := x, nx := c }, nn)
  else return (d, nn)

/-- `for i := d.nx; i < BlockSize-1; i++ { d.x[i] = 0 }; d.x[7] = d.t` (siphash.go:162-165). -/
def Digest.finishBuf (d : Digest) : Go Digest := do
  let x ← Go.forRange d.nx (7 - d.nx) (fun i x => Go.set x i 0#8) d.x
  let x ← Go.set x 7 d.t
  return { d with x := x }

/-- `(*digest).Sum64`, siphash.go:158-248. Works on a copy of `*d0`; the receiver is returned as it
was. -/
def Digest.sum64 (d0 : Digest) : Go (Digest × U64) := do
  let d := d0
  let d ← d.finishBuf
  let d ← d.blocks d.x
  return (d0, fin64 d.v)

/-- `(*digest).sum128`, siphash.go:250-422. -/
def Digest.sum128 (d0 : Digest) : Go (Digest × U64 × U64) := do
  let d := d0
  let d ← d.finishBuf
  let d ← d.blocks d.x
  return (d0, fin128 d.v)

/-- `byte(r), byte(r>>8), ..., byte(r>>56)` (siphash.go:427-435). -/
def bytesOf (r : U64) : List U8 :=
  [r.setWidth 8, (r >>> 8).setWidth 8, (r >>> 16).setWidth 8, (r >>> 24).setWidth 8,
   (r >>> 32).setWidth 8, (r >>> 40).setWidth 8, (r >>> 48).setWidth 8, (r >>> 56).setWidth 8]

/-- `(*digest).Sum`, siphash.go:424-457. -/
def Digest.sum (d : Digest) (in_ : List U8) : Go (Digest × List U8) := do
  if d.size = 8 then
    let (d, r) ← d.sum64
    return (d, in_ ++ bytesOf r)
  else
    let (d, r0, r1) ← d.sum128
    return (d, in_ ++ (bytesOf r0 ++ bytesOf r1))

/-- The `hash.Hash64` methods of a digest made by `New` (siphash.go:50-52). -/
def hasher : Hasher Digest where
  write := Digest.write
  reset d := .ok d.reset
  sum := Digest.sum
  value d := do
    let (d, r) ← d.sum64
    return (d, [r])

/-- The `hash.Hash` methods of a digest made by `New128` (siphash.go:57-59); `value` is the unexported
`sum128`. -/
def hasher128 : Hasher Digest where
  write := Digest.write
  reset d := .ok d.reset
  sum := Digest.sum
  value d := do
    let (d, r) ← d.sum128
    return (d, [r.1, r.2])

/-- A sequence of `Write` calls. The caller of siphash/siphash.go. -/
def Digest.writes (d : Digest) : List (List U8) → Go Digest
  | [] => .ok d
  | p :: ps => do
    let (d, _) ← d.write p
    d.writes ps

/-! ### Package siphashpg -/

/-- `rotl`, siphashpg/siphash.go:29-31; `b` is a constant between 1 and 63 at every call. -/
def rotl (x : U64) (b : Nat) : U64 := (x <<< b) ||| (x >>> (64 - b))

/-- `U8tou64le`, siphashpg/siphash.go:33-40. -/
def U8tou64le (p : List U8) : Go U64 := load p

/-- `U64tou8le`, siphashpg/siphash.go:42-50: the loop over the fresh 8-byte slice. -/
def U64tou8le (v : U64) : Go (List U8) := do
  let (r, _) ← Go.forRange 0 8 (fun k (r, v) => do
      let r ← Go.set r k ((v &&& 0xff#64).setWidth 8)
      return (r, v >>> 8)) (List.replicate 8 0#8, v)
  return r

/-- `siprounda`, siphashpg/siphash.go:52-56. -/
def siprounda (s : V) : V :=
  let v0 := s.v0; let v1 := s.v1; let v2 := s.v2; let v3 := s.v3
  let v0 := v0 + v1; let v1 := rotl v1 13; let v1 := v1 ^^^ v0; let v0 := rotl v0 32
  let v2 := v2 + v3; let v3 := rotl v3 16; let v3 := v3 ^^^ v2
  ⟨v0, v1, v2, v3⟩

/-- `siproundb`, siphashpg/siphash.go:58-62. -/
def siproundb (s : V) : V :=
  let v0 := s.v0; let v1 := s.v1; let v2 := s.v2; let v3 := s.v3
  let v0 := v0 + v3; let v3 := rotl v3 21; let v3 := v3 ^^^ v0
  let v2 := v2 + v1; let v1 := rotl v1 17; let v1 := v1 ^^^ v2; let v2 := rotl v2 32
  ⟨v0, v1, v2, v3⟩

/-- The closure `sipround`, siphashpg/siphash.go:86-91. -/
def sipround (s : V) : V :=
  let v0 := s.v0; let v1 := s.v1; let v2 := s.v2; let v3 := s.v3
  let v0 := v0 + v1; let v1 := rotl v1 13; let v1 := v1 ^^^ v0; let v0 := rotl v0 32
  let v2 := v2 + v3; let v3 := rotl v3 16; let v3 := v3 ^^^ v2
  let v0 := v0 + v3; let v3 := rotl v3 21; let v3 := v3 ^^^ v0
  let v2 := v2 + v1; let v1 := rotl v1 17; let v1 := v1 ^^^ v2; let v2 := rotl v2 32
  ⟨v0, v1, v2, v3⟩

/-- `for i := 0; i < n; i++ { sipround() }` (siphashpg/siphash.go:129-133 and others). -/
def siprounds : Nat → V → V
  | 0, s => s
  | n + 1, s => siprounds n (sipround s)

/-- `k64[i]` for `k64 := sliceUI64(in)` (siphashpg/siphash.go:77-79): the slice header of `in` is
reinterpreted with length `len(in)/8`; element `i` is the little-endian word at byte `8*i`. -/
def wordAt (in0 : List U8) (i : Nat) : Go U64 :=
  if i < in0.length / 8 then .ok (le64 (in0.drop (8 * i))) else .error .index

/-- The word loop, siphashpg/siphash.go:122-136 (`fast` is the constant true). The loop state is
`(v, cnt, l, in)`. -/
def pgLoop (in0 : List U8) (cr : Nat) (s : V) : Go (V × Nat × Nat × List U8) :=
  Go.while_ in0.length (fun (_, _, l, _) => decide (l ≥ 8))
    (fun (s, cnt, l, in_) => do
      let m ← wordAt in0 cnt
      let cnt := cnt + 1
      let l := l - 8
      let s := { s with v3 := s.v3 ^^^ m }
      let s := siprounds cr s
      let s := { s with v0 := s.v0 ^^^ m }
      let in_ ← Go.from_ in_ 8
      return (s, cnt, l, in_)) (s, 0, in0.length, in0)

/-- The tail switch, siphashpg/siphash.go:154-181, with its panicking default case. -/
def pgTail (b : U64) (p : List U8) : Go U64 :=
  match p.length with
  | 7 => tail7 b p
  | 6 => tail6 b p
  | 5 => tail5 b p
  | 4 => tail4 b p
  | 3 => tail3 b p
  | 2 => tail2 b p
  | 1 => tail1 b p
  | 0 => .ok b
  | _ => Go.panic "siphash bad length"

/-- `Siphash`, siphashpg/siphash.go:83-219. `cr`, `dr` are Go ints. When `dbl` is false the second
result keeps its zero value. -/
def Siphash (in_ k : List U8) (cr dr : Int) (dbl : Bool) : Go (U64 × U64) := do
  if k.length ≠ 16 ∨ cr ≤ 0 ∨ dr ≤ 0 then Go.panic "siphash"
  else
    let k0 ← U8tou64le k
    let k1 ← U8tou64le (← Go.from_ k 8)
    let b := BitVec.ofNat 64 in_.length <<< 56
    let v3 := 0x7465646279746573#64 ^^^ k1
    let v2 := 0x6c7967656e657261#64 ^^^ k0
    let v1 := 0x646f72616e646f6d#64 ^^^ k1
    let v0 := 0x736f6d6570736575#64 ^^^ k0
    let v1 := if dbl then v1 ^^^ 0xee#64 else v1
    let (s, _, _, in_) ← pgLoop in_ cr.toNat ⟨v0, v1, v2, v3⟩
    let b ← pgTail b in_
    let s := { s with v3 := s.v3 ^^^ b }
    let s := siprounds cr.toNat s
    let s := { s with v0 := s.v0 ^^^ b }
    let s := if dbl then { s with v2 := s.v2 ^^^ 0xee#64 } else { s with v2 := s.v2 ^^^ 0xff#64 }
    let s := siprounds dr.toNat s
    let ra := s.v0 ^^^ s.v1 ^^^ s.v2 ^^^ s.v3
    if dbl then
      let s := { s with v1 := s.v1 ^^^ 0xdd#64 }
      let s := siprounds dr.toNat s
      return (ra, s.v0 ^^^ s.v1 ^^^ s.v2 ^^^ s.v3)
    else return (ra, 0#64)

end Verif.Model.SipHash
