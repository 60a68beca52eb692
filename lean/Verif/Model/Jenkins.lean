import Verif.Go
import Verif.Spec.Stream

/-!
# Model of package jenkins

File: /repo/jenkins/jenkins.go. `uint32(len(k))`/`uint64(len(k))` loop counters that are only ever
decremented under a guard are kept as natural numbers (the initial reduction modulo 2^32 of
`uint32(len(k))` is modelled). The reinterpreting casts `sliceUI32`/`sliceUI64` and `unsafe` loads are
little-endian (amd64). A three-line group `a = a - b; a = a - c; a = a ^ (c >> 13)` is one step.
-/

namespace Verif.Model.Jenkins

/-- The three local words of every function of this file. E.g. jenkins.go:43, 121-126. -/
structure S3 (w : Nat) where
  a : BitVec w
  b : BitVec w
  c : BitVec w
  deriving DecidableEq

/-! ## Second generation (lookup2) mixers -/

/-- `a = a - b; a = a - c; a = a ^ (c >> n)`, e.g. jenkins.go:44-46. -/
def aR (n : Nat) (s : S3 w) : S3 w := { s with a := ((s.a - s.b) - s.c) ^^^ s.c >>> n }
/-- `b = b - c; b = b - a; b = b ^ (a << n)`, e.g. jenkins.go:47-49. -/
def bL (n : Nat) (s : S3 w) : S3 w := { s with b := ((s.b - s.c) - s.a) ^^^ s.a <<< n }
/-- `c = c - a; c = c - b; c = c ^ (b >> n)`, e.g. jenkins.go:50-52. -/
def cR (n : Nat) (s : S3 w) : S3 w := { s with c := ((s.c - s.a) - s.b) ^^^ s.b >>> n }

/-- `mix32`, jenkins.go:43-72. -/
def mix32 (s : S3 32) : S3 32 :=
  s |> aR 13 |> bL 8 |> cR 13 |> aR 12 |> bL 16 |> cR 5 |> aR 3 |> bL 10 |> cR 15

/-- One line of `mix32a`: `a = a - b - c ^ (c >> n)`; in Go `-` and `^` have the same precedence and
associate to the left. jenkins.go:75-83. -/
def aR1 (n : Nat) (s : S3 w) : S3 w := { s with a := s.a - s.b - s.c ^^^ s.c >>> n }
/-- The `b` lines, jenkins.go:76, 79, 82. -/
def bL1 (n : Nat) (s : S3 w) : S3 w := { s with b := s.b - s.c - s.a ^^^ s.a <<< n }
/-- The `c` lines, jenkins.go:77, 80, 83. -/
def cR1 (n : Nat) (s : S3 w) : S3 w := { s with c := s.c - s.a - s.b ^^^ s.b >>> n }

/-- `mix32a`, jenkins.go:74-85. -/
def mix32a (s : S3 32) : S3 32 :=
  s |> aR1 13 |> bL1 8 |> cR1 13 |> aR1 12 |> bL1 16 |> cR1 5 |> aR1 3 |> bL1 10 |> cR1 15

/-- `mix64`, jenkins.go:194-232. -/
def mix64 (s : S3 64) : S3 64 :=
  s |> aR 43 |> bL 9 |> cR 8 |> aR 38 |> bL 23 |> cR 5 |> aR 35 |> bL 49 |> cR 11 |> aR 12 |> bL 18 |> cR 22

/-- `a -= b - c ^ (c >> n)`: the right-hand side is `(b - c) ^ (c >> n)`. jenkins.go:236. -/
def aA (n : Nat) (s : S3 w) : S3 w := { s with a := s.a - ((s.b - s.c) ^^^ s.c >>> n) }
/-- `b -= c - a ^ (a << n)`, jenkins.go:237. -/
def bA (n : Nat) (s : S3 w) : S3 w := { s with b := s.b - ((s.c - s.a) ^^^ s.a <<< n) }
/-- `c -= a - b ^ (b >> n)`, jenkins.go:238. -/
def cA (n : Nat) (s : S3 w) : S3 w := { s with c := s.c - ((s.a - s.b) ^^^ s.b >>> n) }

/-- `mix64alt`, jenkins.go:235-249. -/
def mix64alt (s : S3 64) : S3 64 :=
  s |> aA 43 |> bA 9 |> cA 8 |> aA 38 |> bA 23 |> cA 5 |> aA 35 |> bA 49 |> cA 11 |> aA 12 |> bA 18 |> cA 22

/-- `mix64a`, jenkins.go:252-256. -/
def mix64a (s : S3 64) : S3 64 := s |> aA 43 |> bA 9
/-- `mix64b`, jenkins.go:258-262. -/
def mix64b (s : S3 64) : S3 64 := s |> cA 8 |> aA 38
/-- `mix64c`, jenkins.go:264-268. -/
def mix64c (s : S3 64) : S3 64 := s |> bA 23 |> cA 5
/-- `mix64d`, jenkins.go:270-274. -/
def mix64d (s : S3 64) : S3 64 := s |> aA 35 |> bA 49
/-- `mix64e`, jenkins.go:276-280. -/
def mix64e (s : S3 64) : S3 64 := s |> cA 11 |> aA 12
/-- `mix64f`, jenkins.go:282-286. -/
def mix64f (s : S3 64) : S3 64 := s |> bA 18 |> cA 22

/-! ## Hash232 -/

/-- `sliceUI32(k)[i]` with the bounds check of the `[]uint32` of length `len(k)/4`, jenkins.go:113-115. -/
def word32 (k : List U8) (i : Nat) : Go U32 :=
  if i < k.length / 4 then .ok (le32 (k.drop (4 * i))) else .error .index

/-- `sliceUI64(k)[i]`, jenkins.go:293-295. -/
def word64 (k : List U8) (i : Nat) : Go U64 :=
  if i < k.length / 8 then .ok (le64 (k.drop (8 * i))) else .error .index

/-! `case N` of the switch of `Hash232`, jenkins.go:150-188. -/
def h232c0 (_ : List U8) (s : S3 32) : Go (S3 32) := .ok s
/-- `case 1`, jenkins.go:181-183. -/
def h232c1 (k : List U8) (s : S3 32) : Go (S3 32) := do h232c0 k { s with c := s.c + (← Go.idx k 0).setWidth 32 }
/-- `case 2`, jenkins.go:178-180. -/
def h232c2 (k : List U8) (s : S3 32) : Go (S3 32) := do h232c1 k { s with a := s.a + (← Go.idx k 1).setWidth 32 <<< 8 }
/-- `case 3`, jenkins.go:175-177. -/
def h232c3 (k : List U8) (s : S3 32) : Go (S3 32) := do h232c2 k { s with a := s.a + (← Go.idx k 2).setWidth 32 <<< 16 }
/-- `case 4`, jenkins.go:172-174. -/
def h232c4 (k : List U8) (s : S3 32) : Go (S3 32) := do h232c3 k { s with a := s.a + (← Go.idx k 3).setWidth 32 <<< 24 }
/-- `case 5`, jenkins.go:169-171. -/
def h232c5 (k : List U8) (s : S3 32) : Go (S3 32) := do h232c4 k { s with b := s.b + (← Go.idx k 4).setWidth 32 }
/-- `case 6`, jenkins.go:166-168. -/
def h232c6 (k : List U8) (s : S3 32) : Go (S3 32) := do h232c5 k { s with b := s.b + (← Go.idx k 5).setWidth 32 <<< 8 }
/-- `case 7`, jenkins.go:163-165. -/
def h232c7 (k : List U8) (s : S3 32) : Go (S3 32) := do h232c6 k { s with b := s.b + (← Go.idx k 6).setWidth 32 <<< 16 }
/-- `case 8`, jenkins.go:160-162. -/
def h232c8 (k : List U8) (s : S3 32) : Go (S3 32) := do h232c7 k { s with b := s.b + (← Go.idx k 7).setWidth 32 <<< 24 }
/-- `case 9`, jenkins.go:157-159. -/
def h232c9 (k : List U8) (s : S3 32) : Go (S3 32) := do h232c8 k { s with c := s.c + (← Go.idx k 8).setWidth 32 <<< 8 }
/-- `case 10`, jenkins.go:154-156. -/
def h232c10 (k : List U8) (s : S3 32) : Go (S3 32) := do h232c9 k { s with c := s.c + (← Go.idx k 9).setWidth 32 <<< 16 }
/-- `case 11`, jenkins.go:151-153. -/
def h232c11 (k : List U8) (s : S3 32) : Go (S3 32) := do h232c10 k { s with c := s.c + (← Go.idx k 10).setWidth 32 <<< 24 }

/-- The switch of `Hash232` on the remaining length, jenkins.go:150-188. -/
def h232tail (k : List U8) (l : Nat) (s : S3 32) : Go (S3 32) :=
  match l with
  | 11 => h232c11 k s
  | 10 => h232c10 k s
  | 9 => h232c9 k s
  | 8 => h232c8 k s
  | 7 => h232c7 k s
  | 6 => h232c6 k s
  | 5 => h232c5 k s
  | 4 => h232c4 k s
  | 3 => h232c3 k s
  | 2 => h232c2 k s
  | 1 => h232c1 k s
  | 0 => h232c0 k s
  | _ => Go.panic "HashWords32"

/-- The loop of the fast path, jenkins.go:129-138. State: words, remaining slice, `l`, `cnt`;
`k0` is the original slice that `k32` aliases. -/
def h232fast (k0 : List U8) (x : S3 32 × List U8 × Nat × Nat) : Go (S3 32 × List U8 × Nat × Nat) := do
  let (s, k, l, cnt) := x
  let a := s.a + (← word32 k0 (0 + cnt))
  let b := s.b + (← word32 k0 (1 + cnt))
  let c := s.c + (← word32 k0 (2 + cnt))
  let s := mix32 ⟨a, b, c⟩
  let k ← Go.from_ k 12
  return (s, k, l - 12, cnt + 3)

/-- `uint32(k[i]) + uint32(k[i+1])<<8 + uint32(k[i+2])<<16 + uint32(k[i+3])<<24`, jenkins.go:141-143. -/
def add4 (k : List U8) (i : Nat) : Go U32 := do
  return (← Go.idx k i).setWidth 32 + (← Go.idx k (i + 1)).setWidth 32 <<< 8 +
    (← Go.idx k (i + 2)).setWidth 32 <<< 16 + (← Go.idx k (i + 3)).setWidth 32 <<< 24

/-- The loop of the slow path, jenkins.go:140-146. -/
def h232slow (x : S3 32 × List U8 × Nat × Nat) : Go (S3 32 × List U8 × Nat × Nat) := do
  let (s, k, l, cnt) := x
  let a := s.a + (← add4 k 0)
  let b := s.b + (← add4 k 4)
  let c := s.c + (← add4 k 8)
  let s := mix32 ⟨a, b, c⟩
  let k ← Go.from_ k 12
  return (s, k, l - 12, cnt)

/-- `Hash232` with its constant `fast` as a parameter, jenkins.go:121-191. -/
def Hash232' (fast : Bool) (k : List U8) (seed : U32) : Go U32 := do
  let l := k.length % 2 ^ 32
  let s : S3 32 := ⟨0x9e3779b9#32, 0x9e3779b9#32, seed⟩
  let (s, k, l, _) ← Go.while_ k.length (fun x => decide (12 ≤ x.2.2.1))
    (if fast then h232fast k else h232slow) (s, k, l, 0)
  let s := { s with c := s.c + BitVec.ofNat 32 l }
  let s ← h232tail k l s
  return (mix32 s).c

/-- `Hash232`, jenkins.go:121-191 (`fast := true`, line 122). -/
def Hash232 (k : List U8) (seed : U32) : Go U32 := Hash232' true k seed

/-! ## Hash264 -/

/-! `case N` of the switch of `Hash264`, jenkins.go:343-416. -/
def h264c0 (_ : List U8) (s : S3 64) : Go (S3 64) := .ok s
/-- `case 1`, jenkins.go:410-411. -/
def h264c1 (k : List U8) (s : S3 64) : Go (S3 64) := do h264c0 k { s with a := s.a + (← Go.idx k 0).setWidth 64 }
/-- `case 2`, jenkins.go:407-409. -/
def h264c2 (k : List U8) (s : S3 64) : Go (S3 64) := do h264c1 k { s with a := s.a + (← Go.idx k 1).setWidth 64 <<< 8 }
/-- `case 3`, jenkins.go:404-406. -/
def h264c3 (k : List U8) (s : S3 64) : Go (S3 64) := do h264c2 k { s with a := s.a + (← Go.idx k 2).setWidth 64 <<< 16 }
/-- `case 4`, jenkins.go:401-403. -/
def h264c4 (k : List U8) (s : S3 64) : Go (S3 64) := do h264c3 k { s with a := s.a + (← Go.idx k 3).setWidth 64 <<< 24 }
/-- `case 5`, jenkins.go:398-400. -/
def h264c5 (k : List U8) (s : S3 64) : Go (S3 64) := do h264c4 k { s with a := s.a + (← Go.idx k 4).setWidth 64 <<< 32 }
/-- `case 6`, jenkins.go:395-397. -/
def h264c6 (k : List U8) (s : S3 64) : Go (S3 64) := do h264c5 k { s with a := s.a + (← Go.idx k 5).setWidth 64 <<< 40 }
/-- `case 7`, jenkins.go:392-394. -/
def h264c7 (k : List U8) (s : S3 64) : Go (S3 64) := do h264c6 k { s with a := s.a + (← Go.idx k 6).setWidth 64 <<< 48 }
/-- `case 8`, jenkins.go:389-391. -/
def h264c8 (k : List U8) (s : S3 64) : Go (S3 64) := do h264c7 k { s with a := s.a + (← Go.idx k 7).setWidth 64 <<< 56 }
/-- `case 9`, jenkins.go:386-388. -/
def h264c9 (k : List U8) (s : S3 64) : Go (S3 64) := do h264c8 k { s with b := s.b + (← Go.idx k 8).setWidth 64 }
/-- `case 10`, jenkins.go:383-385. -/
def h264c10 (k : List U8) (s : S3 64) : Go (S3 64) := do h264c9 k { s with b := s.b + (← Go.idx k 9).setWidth 64 <<< 8 }
/-- `case 11`, jenkins.go:380-382. -/
def h264c11 (k : List U8) (s : S3 64) : Go (S3 64) := do h264c10 k { s with b := s.b + (← Go.idx k 10).setWidth 64 <<< 16 }
/-- `case 12`, jenkins.go:377-379. -/
def h264c12 (k : List U8) (s : S3 64) : Go (S3 64) := do h264c11 k { s with b := s.b + (← Go.idx k 11).setWidth 64 <<< 24 }
/-- `case 13`, jenkins.go:374-376. -/
def h264c13 (k : List U8) (s : S3 64) : Go (S3 64) := do h264c12 k { s with b := s.b + (← Go.idx k 12).setWidth 64 <<< 32 }
/-- `case 14`, jenkins.go:371-373. -/
def h264c14 (k : List U8) (s : S3 64) : Go (S3 64) := do h264c13 k { s with b := s.b + (← Go.idx k 13).setWidth 64 <<< 40 }
/-- `case 15`, jenkins.go:368-370. -/
def h264c15 (k : List U8) (s : S3 64) : Go (S3 64) := do h264c14 k { s with b := s.b + (← Go.idx k 14).setWidth 64 <<< 48 }
/-- `case 16`, jenkins.go:365-367. -/
def h264c16 (k : List U8) (s : S3 64) : Go (S3 64) := do h264c15 k { s with b := s.b + (← Go.idx k 15).setWidth 64 <<< 56 }
/-- `case 17`, jenkins.go:362-364. -/
def h264c17 (k : List U8) (s : S3 64) : Go (S3 64) := do h264c16 k { s with c := s.c + (← Go.idx k 16).setWidth 64 <<< 8 }
/-- `case 18`, jenkins.go:359-361. -/
def h264c18 (k : List U8) (s : S3 64) : Go (S3 64) := do h264c17 k { s with c := s.c + (← Go.idx k 17).setWidth 64 <<< 16 }
/-- `case 19`, jenkins.go:356-358. -/
def h264c19 (k : List U8) (s : S3 64) : Go (S3 64) := do h264c18 k { s with c := s.c + (← Go.idx k 18).setWidth 64 <<< 24 }
/-- `case 20`, jenkins.go:353-355. -/
def h264c20 (k : List U8) (s : S3 64) : Go (S3 64) := do h264c19 k { s with c := s.c + (← Go.idx k 19).setWidth 64 <<< 32 }
/-- `case 21`, jenkins.go:350-352. -/
def h264c21 (k : List U8) (s : S3 64) : Go (S3 64) := do h264c20 k { s with c := s.c + (← Go.idx k 20).setWidth 64 <<< 40 }
/-- `case 22`, jenkins.go:347-349. -/
def h264c22 (k : List U8) (s : S3 64) : Go (S3 64) := do h264c21 k { s with c := s.c + (← Go.idx k 21).setWidth 64 <<< 48 }
/-- `case 23`, jenkins.go:344-346. -/
def h264c23 (k : List U8) (s : S3 64) : Go (S3 64) := do h264c22 k { s with c := s.c + (← Go.idx k 22).setWidth 64 <<< 56 }

/-- The switch of `Hash264`, jenkins.go:343-416. -/
def h264tail (k : List U8) (l : Nat) (s : S3 64) : Go (S3 64) :=
  match l with
  | 23 => h264c23 k s
  | 22 => h264c22 k s
  | 21 => h264c21 k s
  | 20 => h264c20 k s
  | 19 => h264c19 k s
  | 18 => h264c18 k s
  | 17 => h264c17 k s
  | 16 => h264c16 k s
  | 15 => h264c15 k s
  | 14 => h264c14 k s
  | 13 => h264c13 k s
  | 12 => h264c12 k s
  | 11 => h264c11 k s
  | 10 => h264c10 k s
  | 9 => h264c9 k s
  | 8 => h264c8 k s
  | 7 => h264c7 k s
  | 6 => h264c6 k s
  | 5 => h264c5 k s
  | 4 => h264c4 k s
  | 3 => h264c3 k s
  | 2 => h264c2 k s
  | 1 => h264c1 k s
  | 0 => h264c0 k s
  | _ => Go.panic "HashWords64"

/-- The loop of the fast path, jenkins.go:312-329. State: words, remaining slice, `i`, `cnt`, `length`. -/
def h264fast (k0 : List U8) (x : S3 64 × List U8 × Nat × Nat × Nat) : Go (S3 64 × List U8 × Nat × Nat × Nat) := do
  let (s, k, i, cnt, length) := x
  let a := s.a + (← word64 k0 (0 + cnt))
  let b := s.b + (← word64 k0 (1 + cnt))
  let c := s.c + (← word64 k0 (2 + cnt))
  let s := mix64f (mix64e (mix64d (mix64c (mix64b (mix64a ⟨a, b, c⟩)))))
  let k ← Go.from_ k 24
  return (s, k, i - 24, cnt + 3, length - 24)

/-- `uint64(k[i]) | uint64(k[i+1])<<8 | ... | uint64(k[i+7])<<56`, jenkins.go:332-334. -/
def or8 (k : List U8) (i : Nat) : Go U64 := do
  return (← Go.idx k i).setWidth 64 ||| (← Go.idx k (i + 1)).setWidth 64 <<< 8 |||
    (← Go.idx k (i + 2)).setWidth 64 <<< 16 ||| (← Go.idx k (i + 3)).setWidth 64 <<< 24 |||
    (← Go.idx k (i + 4)).setWidth 64 <<< 32 ||| (← Go.idx k (i + 5)).setWidth 64 <<< 40 |||
    (← Go.idx k (i + 6)).setWidth 64 <<< 48 ||| (← Go.idx k (i + 7)).setWidth 64 <<< 56

/-- The loop of the slow path, jenkins.go:331-338. -/
def h264slow (x : S3 64 × List U8 × Nat × Nat × Nat) : Go (S3 64 × List U8 × Nat × Nat × Nat) := do
  let (s, k, i, cnt, length) := x
  let a := s.a + (← or8 k 0)
  let b := s.b + (← or8 k 8)
  let c := s.c + (← or8 k 16)
  let s := mix64alt ⟨a, b, c⟩
  let k ← Go.from_ k 24
  return (s, k, i - 24, cnt, length - 24)

/-- `Hash264` with its constant `fast` as a parameter, jenkins.go:301-419. -/
def Hash264' (fast : Bool) (k : List U8) (seed : U64) : Go U64 := do
  let length := k.length
  let s : S3 64 := ⟨0x9e3779b97f4a7c13#64, 0x9e3779b97f4a7c13#64, seed⟩
  let (s, k, _, _, length) ← Go.while_ k.length (fun x => decide (24 ≤ x.2.2.1))
    (if fast then h264fast k else h264slow) (s, k, length, 0, length)
  let s := { s with c := s.c + BitVec.ofNat 64 length }
  if k.length > 23 then Go.panic "Hash264"
  else do
    let s ← h264tail k length s
    return (mix64alt s).c

/-- `Hash264`, jenkins.go:301-419 (`fast := true`, line 302). -/
def Hash264 (k : List U8) (seed : U64) : Go U64 := Hash264' true k seed

/-! ## Third generation (lookup3) mixers -/

/-- `rot`, jenkins.go:469-471. -/
def rot (x : U32) (k : Nat) : U32 := x <<< k ||| x >>> (32 - k)

/-- `a -= c; a ^= rot(c, n); c += b`, e.g. jenkins.go:475-477. -/
def ma (n : Nat) (s : S3 32) : S3 32 := { s with a := (s.a - s.c) ^^^ rot s.c n, c := s.c + s.b }
/-- `b -= a; b ^= rot(a, n); a += c`, e.g. jenkins.go:478-480. -/
def mb (n : Nat) (s : S3 32) : S3 32 := { s with b := (s.b - s.a) ^^^ rot s.a n, a := s.a + s.c }
/-- `c -= b; c ^= rot(b, n); b += a`, e.g. jenkins.go:481-483. -/
def mc (n : Nat) (s : S3 32) : S3 32 := { s with c := (s.c - s.b) ^^^ rot s.b n, b := s.b + s.a }

/-- `mix1`, jenkins.go:474-487. -/
def mix1 (s : S3 32) : S3 32 := s |> ma 4 |> mb 6 |> mc 8
/-- `mix2`, jenkins.go:489-502. -/
def mix2 (s : S3 32) : S3 32 := s |> ma 16 |> mb 19 |> mc 4

/-- `c ^= b; c -= rot(b, n)`, e.g. jenkins.go:513-514. -/
def fc (n : Nat) (s : S3 32) : S3 32 := { s with c := (s.c ^^^ s.b) - rot s.b n }
/-- `a ^= c; a -= rot(c, n)`, e.g. jenkins.go:515-516. -/
def fa (n : Nat) (s : S3 32) : S3 32 := { s with a := (s.a ^^^ s.c) - rot s.c n }
/-- `b ^= a; b -= rot(a, n)`, e.g. jenkins.go:517-518. -/
def fb (n : Nat) (s : S3 32) : S3 32 := { s with b := (s.b ^^^ s.a) - rot s.a n }

/-- `final1`, jenkins.go:512-526. -/
def final1 (s : S3 32) : S3 32 := s |> fc 14 |> fa 11 |> fb 25 |> fc 16
/-- `final2`, jenkins.go:528-539. -/
def final2 (s : S3 32) : S3 32 := s |> fa 4 |> fb 14 |> fc 24

/-! ## Word hashes -/

/-- The loop body shared by `HashWords332` (550-556) and `HashWordsLen` (591-598). State: words, `i`, `length`. -/
def wordsBody (k : List U32) (x : S3 32 × Nat × Int) : Go (S3 32 × Nat × Int) := do
  let (s, i, length) := x
  let a := s.a + (← Go.idx k (i + 0))
  let b := s.b + (← Go.idx k (i + 1))
  let c := s.c + (← Go.idx k (i + 2))
  let s := mix2 (mix1 ⟨a, b, c⟩)
  return (s, i + 3, length - 3)

/-! The final switch of `HashWords332` (559-571) and `HashWordsLen` (602-614). -/
def wordsC1 (k : List U32) (i : Nat) (s : S3 32) : Go U32 := do
  let s := { s with a := s.a + (← Go.idx k (i + 0)) }
  return (final2 (final1 s)).c
/-- `case 2`, jenkins.go:562-564, 606-608. -/
def wordsC2 (k : List U32) (i : Nat) (s : S3 32) : Go U32 := do
  wordsC1 k i { s with b := s.b + (← Go.idx k (i + 1)) }
/-- `case 3`, jenkins.go:559-561, 603-605. -/
def wordsC3 (k : List U32) (i : Nat) (s : S3 32) : Go U32 := do
  wordsC2 k i { s with c := s.c + (← Go.idx k (i + 2)) }
/-- The dispatch of the switch, jenkins.go:558-571, 602-615. -/
def wordsTail (k : List U32) (i : Nat) (length : Int) (s : S3 32) : Go U32 :=
  if length = 3 then wordsC3 k i s
  else if length = 2 then wordsC2 k i s
  else if length = 1 then wordsC1 k i s
  else .ok s.c

/-- `HashWords332`, jenkins.go:541-573. -/
def HashWords332 (k : List U32) (seed : U32) : Go U32 := do
  let length : U32 := BitVec.ofNat 32 k.length
  let a := 0xdeadbeef#32 + length <<< 2 + seed
  let (s, i, l) ← Go.while_ k.length (fun x => decide ((3 : Int) < x.2.2)) (wordsBody k) (⟨a, a, a⟩, 0, (length.toNat : Int))
  wordsTail k i l s

/-- `HashWordsLen`, jenkins.go:575-618. -/
def HashWordsLen (k : List U32) (length : Int) (seed : U32) : Go U32 :=
  if length > (k.length : Int) * 4 then Go.panic "HashWords"
  else do
    let ul : U32 := BitVec.ofNat 32 k.length
    let a := 0xdeadbeef#32 + ul <<< 2 + seed
    let (s, i, l) ← Go.while_ length.toNat (fun x => decide ((3 : Int) < x.2.2)) (wordsBody k) (⟨a, a, a⟩, 0, length)
    wordsTail k i l s

/-- The closure `mix` of `XHashWords`, jenkins.go:627-646. -/
def xmix (s : S3 32) : S3 32 := s |> ma 4 |> mb 6 |> mc 8 |> ma 16 |> mb 19 |> mc 4
/-- The closure `final` of `XHashWords`, jenkins.go:647-662. -/
def xfinal (s : S3 32) : S3 32 := s |> fc 14 |> fa 11 |> fb 25 |> fc 16 |> fa 4 |> fb 14 |> fc 24

/-- The loop of `XHashWords`, jenkins.go:669-675. -/
def xwordsBody (k : List U32) (x : S3 32 × Nat × Int) : Go (S3 32 × Nat × Int) := do
  let (s, i, length) := x
  let a := s.a + (← Go.idx k (i + 0))
  let b := s.b + (← Go.idx k (i + 1))
  let c := s.c + (← Go.idx k (i + 2))
  let s := xmix ⟨a, b, c⟩
  return (s, i + 3, length - 3)

/-! The final switch of `XHashWords`, jenkins.go:677-689. -/
def xwordsC1 (k : List U32) (i : Nat) (s : S3 32) : Go U32 := do
  let s := { s with a := s.a + (← Go.idx k (i + 0)) }
  return (xfinal s).c
/-- `case 2`, jenkins.go:681-683. -/
def xwordsC2 (k : List U32) (i : Nat) (s : S3 32) : Go U32 := do
  xwordsC1 k i { s with b := s.b + (← Go.idx k (i + 1)) }
/-- `case 3`, jenkins.go:678-680. -/
def xwordsC3 (k : List U32) (i : Nat) (s : S3 32) : Go U32 := do
  xwordsC2 k i { s with c := s.c + (← Go.idx k (i + 2)) }
/-- The dispatch of the switch, jenkins.go:677-690. -/
def xwordsTail (k : List U32) (i : Nat) (length : Int) (s : S3 32) : Go U32 :=
  if length = 3 then xwordsC3 k i s
  else if length = 2 then xwordsC2 k i s
  else if length = 1 then xwordsC1 k i s
  else .ok s.c

/-- `XHashWords`, jenkins.go:622-691; the parameter `length` is overwritten before use (line 669). -/
def XHashWords (k : List U32) (_length : Int) (seed : U32) : Go U32 := do
  let ul : U32 := BitVec.ofNat 32 k.length
  let a := 0xdeadbeef#32 + ul <<< 2 + seed
  let (s, i, l) ← Go.while_ k.length (fun x => decide ((3 : Int) < x.2.2)) (xwordsBody k) (⟨a, a, a⟩, 0, (k.length : Int))
  xwordsTail k i l s

/-! ## Jenkins364 -/

/-- The loop of `Jenkins364`, jenkins.go:736-744. State: words, remaining slice, `length`. -/
def j364body (x : S3 32 × List U8 × Int) : Go (S3 32 × List U8 × Int) := do
  let (s, k, length) := x
  let a := s.a + (← Go.unsafe32 k 0)
  let b := s.b + (← Go.unsafe32 k 4)
  let c := s.c + (← Go.unsafe32 k 8)
  let s := mix2 (mix1 ⟨a, b, c⟩)
  let k ← Go.from_ k 12
  return (s, k, length - 12)

/-! The final switch of `Jenkins364`, jenkins.go:759-802. -/
def j1 (k : List U8) (s : S3 32) : Go (S3 32) := do return { s with a := s.a + (← Go.idx k 0).setWidth 32 }
/-- `case 2`, jenkins.go:793-795. -/
def j2 (k : List U8) (s : S3 32) : Go (S3 32) := do j1 k { s with a := s.a + (← Go.idx k 1).setWidth 32 <<< 8 }
/-- `case 3`, jenkins.go:790-792. -/
def j3 (k : List U8) (s : S3 32) : Go (S3 32) := do j2 k { s with a := s.a + (← Go.idx k 2).setWidth 32 <<< 16 }
/-- `case 4`, jenkins.go:787-789. -/
def j4 (k : List U8) (s : S3 32) : Go (S3 32) := do return { s with a := s.a + (← Go.unsafe32 k 0) }
/-- `case 5`, jenkins.go:784-786. -/
def j5 (k : List U8) (s : S3 32) : Go (S3 32) := do j4 k { s with b := s.b + (← Go.idx k 4).setWidth 32 }
/-- `case 6`, jenkins.go:781-783. -/
def j6 (k : List U8) (s : S3 32) : Go (S3 32) := do j5 k { s with b := s.b + (← Go.idx k 5).setWidth 32 <<< 8 }
/-- `case 7`, jenkins.go:778-780. -/
def j7 (k : List U8) (s : S3 32) : Go (S3 32) := do j6 k { s with b := s.b + (← Go.idx k 6).setWidth 32 <<< 16 }
/-- `case 8`, jenkins.go:774-777. -/
def j8 (k : List U8) (s : S3 32) : Go (S3 32) := do
  return { s with a := s.a + (← Go.unsafe32 k 0), b := s.b + (← Go.unsafe32 k 4) }
/-- `case 9`, jenkins.go:771-773. -/
def j9 (k : List U8) (s : S3 32) : Go (S3 32) := do j8 k { s with c := s.c + (← Go.idx k 8).setWidth 32 }
/-- `case 10`, jenkins.go:768-770. -/
def j10 (k : List U8) (s : S3 32) : Go (S3 32) := do j9 k { s with c := s.c + (← Go.idx k 9).setWidth 32 <<< 8 }
/-- `case 11`, jenkins.go:765-767. -/
def j11 (k : List U8) (s : S3 32) : Go (S3 32) := do j10 k { s with c := s.c + (← Go.idx k 10).setWidth 32 <<< 16 }
/-- `case 12`, jenkins.go:761-764. -/
def j12 (k : List U8) (s : S3 32) : Go (S3 32) := do
  return { a := s.a + (← Go.unsafe32 k 0), b := s.b + (← Go.unsafe32 k 4), c := s.c + (← Go.unsafe32 k 8) }

/-- Switch, final mixing and return, jenkins.go:759-805; any other value of `length` (negative) falls
through to the final mixing. -/
def j364tail (k : List U8) (length : Int) (s : S3 32) : Go (U32 × U32) := do
  if length = 0 then return (s.c, s.b)
  else
    let s ← match length with
      | 12 => j12 k s
      | 11 => j11 k s
      | 10 => j10 k s
      | 9 => j9 k s
      | 8 => j8 k s
      | 7 => j7 k s
      | 6 => j6 k s
      | 5 => j5 k s
      | 4 => j4 k s
      | 3 => j3 k s
      | 2 => j2 k s
      | 1 => j1 k s
      | _ => .ok s
    let s := final2 (final1 s)
    return (s.c, s.b)

/-- `Jenkins364`, jenkins.go:700-806; the results are `(rpc, rpb)`. -/
def Jenkins364 (k : List U8) (length : Int) (pc pb : U32) : Go (U32 × U32) := do
  let length := if length = 0 then (k.length : Int) else length
  let ul : U32 := BitVec.ofNat 32 k.length
  let a := 0xdeadbeef#32 + ul + pc
  let s : S3 32 := ⟨a, a, a + pb⟩
  let (s, k, length) ← Go.while_ length.toNat (fun x => decide ((12 : Int) < x.2.2)) j364body (s, k, length)
  j364tail k length s

/-- `HashString`, jenkins.go:808-812 (the argument is the byte content of the string). -/
def HashString (s : List U8) (pc pb : U32) : Go (U32 × U32) := Jenkins364 s s.length pc pb

/-- `HashBytesLength`, jenkins.go:814-821. -/
def HashBytesLength (k : List U8) (length : Int) (seed : U32) : Go U32 :=
  if length > (k.length : Int) then Go.panic "HashBytesLength"
  else do
    let (ret, _) ← Jenkins364 k length seed 0#32
    return ret

/-- `Sum32(data, seed)`, jenkins.go:868-871. -/
def Sum32 (data : List U8) (seed : U32) : Go U32 := do
  let (rpc, _) ← Jenkins364 data data.length seed seed
  return rpc

/-! ## Streaming objects -/

/-- `State332`/`State332c`, jenkins.go:826-837; `clen` is an `int` that nothing reads (kept as a count). -/
structure State332c where
  hash : U32
  seed : U32
  pc : U32
  pb : U32
  clen : Nat
  tail : List U8

/-- `Reset`, jenkins.go:915-920. -/
def State332c.reset (d : State332c) : State332c := { d with pc := d.seed, pb := d.seed, clen := 0, tail := [] }

/-- `New` (874-879) and `New332c` (882-887). -/
def new332c (seed : U32) : State332c := State332c.reset ⟨0#32, seed, 0#32, 0#32, 0, []⟩

/-- `Write`, jenkins.go:923-928. -/
def State332c.write (d : State332c) (p : List U8) : State332c × Nat :=
  ({ d with clen := d.clen + p.length, tail := d.tail ++ p }, p.length)

/-- `byte(h>>24), byte(h>>16), byte(h>>8), byte(h)`, e.g. jenkins.go:935. -/
def be4 (h : U32) : List U8 :=
  [(h >>> 24).setWidth 8, (h >>> 16).setWidth 8, (h >>> 8).setWidth 8, h.setWidth 8]

/-- `byte(h>>56), ..., byte(h)`, e.g. jenkins.go:1004. -/
def be8 (h : U64) : List U8 :=
  [(h >>> 56).setWidth 8, (h >>> 48).setWidth 8, (h >>> 40).setWidth 8, (h >>> 32).setWidth 8,
   (h >>> 24).setWidth 8, (h >>> 16).setWidth 8, (h >>> 8).setWidth 8, h.setWidth 8]

/-- `Sum`, jenkins.go:931-936. -/
def State332c.sum (d : State332c) (b : List U8) : Go (State332c × List U8) := do
  let (pc, pb) ← Jenkins364 d.tail d.tail.length d.pc d.pb
  let d := { d with pc := pc, pb := pb, hash := pc }
  return (d, b ++ be4 d.hash)

/-- `Sum32`, jenkins.go:939-943. -/
def State332c.sum32 (d : State332c) : Go (State332c × U32) := do
  let (pc, pb) ← Jenkins364 d.tail d.tail.length d.pc d.pb
  let d := { d with pc := pc, pb := pb, hash := pc }
  return (d, d.hash)

/-- `Hash32(b, seeds...)`, jenkins.go:946-964; the switch on the seeds is commented out in the source. -/
def State332c.hash32 (d : State332c) (b : List U8) (_seeds : List U32) : Go (State332c × U32) := do
  let d := { d with pc := 0#32, pb := 0#32 }
  let (pc, pb) ← Jenkins364 b b.length d.pc d.pb
  let d := { d with pc := pc, pb := pb, hash := pc }
  return (d, d.hash)

/-- The `hash.Hash` methods above, collected for the histories of Spec/Stream.lean. -/
def hasher332c : Hasher State332c where
  write d p := .ok (d.write p)
  reset d := .ok d.reset
  sum d b := d.sum b
  value d := do
    let (d, v) ← d.sum32
    return (d, [v.setWidth 64])

/-- `State364`, jenkins.go:843-850. -/
structure State364 where
  hash : U64
  seed : U64
  pc : U32
  pb : U32
  clen : Nat
  tail : List U8

/-- `Reset`, jenkins.go:993-998. -/
def State364.reset (d : State364) : State364 :=
  { d with pc := d.seed.setWidth 32, pb := (d.seed >>> 32).setWidth 32, clen := 0, tail := [] }

/-- `New364`, jenkins.go:969-974. -/
def new364 (seed : U64) : State364 := State364.reset ⟨0#64, seed, 0#32, 0#32, 0, []⟩

/-- `Write`, jenkins.go:1001-1006. -/
def State364.write (d : State364) (p : List U8) : State364 × Nat :=
  ({ d with clen := d.clen + p.length, tail := d.tail ++ p }, p.length)

/-- `Sum`, jenkins.go:1009-1014. Line 1011 is `uint64(d.pb<<32) | uint64(d.pc)`: the shift is done on
the 32-bit word. -/
def State364.sum (d : State364) (b : List U8) : Go (State364 × List U8) := do
  let (pc, pb) ← Jenkins364 d.tail d.tail.length d.pc d.pb
  let d := { d with pc := pc, pb := pb, hash := (pb <<< 32).setWidth 64 ||| pc.setWidth 64 }
  return (d, b ++ be8 d.hash)

/-- `Write64`, jenkins.go:1016-1020. -/
def State364.write64 (d : State364) (h : U64) : State364 :=
  { d with clen := d.clen + 8, tail := d.tail ++ be8 h }

/-- `uint64(d.pb)<<32 | uint64(d.pc)`, e.g. jenkins.go:1025. -/
def pack64 (pc pb : U32) : U64 := pb.setWidth 64 <<< 32 ||| pc.setWidth 64

/-- `Sum64`, jenkins.go:1023-1027. -/
def State364.sum64 (d : State364) : Go (State364 × U64) := do
  let (pc, pb) ← Jenkins364 d.tail d.tail.length d.pc d.pb
  let d := { d with pc := pc, pb := pb, hash := pack64 pc pb }
  return (d, d.hash)

/-- `Hash64(b, seeds...)`, jenkins.go:1029-1044. -/
def State364.hash64 (d : State364) (b : List U8) (seeds : List U64) : Go (State364 × U64) := do
  let d := match seeds with
    | [s0, s1] => { d with pc := s0.setWidth 32, pb := s1.setWidth 32 }
    | [s0] => { d with pc := s0.setWidth 32, pb := (s0 >>> 32).setWidth 32 }
    | _ => d
  let (pc, pb) ← Jenkins364 b b.length d.pc d.pb
  let d := { d with pc := pc, pb := pb, hash := pack64 pc pb }
  return (d, d.hash)

/-- `Hash64S`, jenkins.go:1046-1054. -/
def State364.hash64S (d : State364) (b : List U8) (seed : U64) : Go (State364 × U64) := do
  let (pc, pb) ← Jenkins364 b b.length (seed.setWidth 32) ((seed >>> 32).setWidth 32)
  let d := { d with pc := pc, pb := pb, hash := pack64 pc pb }
  return (d, d.hash)

/-- The `hash.Hash` methods above, collected for the histories of Spec/Stream.lean. -/
def hasher364 : Hasher State364 where
  write d p := .ok (d.write p)
  reset d := .ok d.reset
  sum d b := d.sum b
  value d := do
    let (d, v) ← d.sum64
    return (d, [v])

/-- `State232`, jenkins.go:857-862. -/
structure State232 where
  hash : U32
  seed : U32
  clen : Nat
  tail : List U8

/-- `Reset`, jenkins.go:1083-1087; it clears the seed. -/
def State232.reset (s : State232) : State232 := { s with seed := 0#32, clen := 0, tail := [] }

/-- `New232`, jenkins.go:1059-1064. -/
def new232 (seed : U32) : State232 := State232.reset ⟨0#32, seed, 0, []⟩

/-- `Write`, jenkins.go:1090-1095. -/
def State232.write (s : State232) (p : List U8) : State232 × Nat :=
  ({ s with clen := s.clen + p.length, tail := s.tail ++ p }, p.length)

/-- `Sum`, jenkins.go:1098-1102. -/
def State232.sum (s : State232) (b : List U8) : Go (State232 × List U8) := do
  let h ← Hash232 s.tail s.seed
  return ({ s with hash := h }, b ++ be4 h)

/-- `Sum32`, jenkins.go:1105-1108. -/
def State232.sum32 (s : State232) : Go (State232 × U32) := do
  let h ← Hash232 s.tail s.seed
  return ({ s with hash := h }, h)

/-- `Hash32`, jenkins.go:1110-1117. -/
def State232.hash32 (s : State232) (b : List U8) (seeds : List U32) : Go (State232 × U32) := do
  let s := if seeds.length > 0 then { s with seed := 0#32 } else s
  let h ← Hash232 b s.seed
  return ({ s with hash := h }, h)

/-- The `hash.Hash` methods above, collected for the histories of Spec/Stream.lean. -/
def hasher232 : Hasher State232 where
  write d p := .ok (d.write p)
  reset d := .ok d.reset
  sum d b := d.sum b
  value d := do
    let (d, v) ← d.sum32
    return (d, [v.setWidth 64])

end Verif.Model.Jenkins
