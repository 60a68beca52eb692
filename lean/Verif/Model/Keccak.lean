import Verif.Spec.Stream

/-!
# Model of package keccakpg (/repo/keccakpg/keccak.go)

In this file slices are values. Sharing of memory between the hasher and its caller is modelled in
`Verif.Model.KeccakHeap`. `k.S` is a `[25]uint64`; its indices in the round loops are `i + j` with `i < 5` and
`j` in 0, 5, 10, 15, 20 and the entries of `piLane`, so only the absorbing loop needs bounds checks.
-/

namespace Verif.Model.Keccak
open Verif

/-- `roundConstants`, keccak.go:12-25. -/
def roundConstants : List U64 := [
  0x0000000000000001#64, 0x0000000000008082#64,
  0x800000000000808A#64, 0x8000000080008000#64,
  0x000000000000808B#64, 0x0000000080000001#64,
  0x8000000080008081#64, 0x8000000000008009#64,
  0x000000000000008A#64, 0x0000000000000088#64,
  0x0000000080008009#64, 0x000000008000000A#64,
  0x000000008000808B#64, 0x800000000000008B#64,
  0x8000000000008089#64, 0x8000000000008003#64,
  0x8000000000008002#64, 0x8000000000000080#64,
  0x000000000000800A#64, 0x800000008000000A#64,
  0x8000000080008081#64, 0x8000000000008080#64,
  0x0000000080000001#64, 0x8000000080008008#64]

/-- `rotationConstants`, keccak.go:27-31. -/
def rotationConstants : List Nat := [
  1, 3, 6, 10, 15, 21, 28, 36,
  45, 55, 2, 14, 27, 41, 56, 8,
  25, 43, 62, 18, 39, 61, 20, 44]

/-- `piLane`, keccak.go:33-37. -/
def piLane : List Nat := [
  10, 7, 11, 17, 18, 3, 5, 16,
  8, 21, 24, 4, 15, 23, 19, 13,
  12, 2, 20, 14, 22, 9, 6, 1]

/-- `rotl64`, keccak.go:140-142. -/
def rotl64 (x : U64) (n : Nat) : U64 := x <<< n ||| x >>> (64 - n)

/-- `k.S[i]`. For keccakpg/keccak.go:144-190. -/
def at_ (S : List U64) (i : Nat) : U64 := S.getD i 0#64

/-- keccak.go:158-160. -/
def parities (S : List U64) : List U64 :=
  (List.range 5).map (fun i => at_ S i ^^^ at_ S (5 + i) ^^^ at_ S (10 + i) ^^^ at_ S (15 + i) ^^^ at_ S (20 + i))

/-- theta, keccak.go:158-166. -/
def theta (S : List U64) : List U64 :=
  let bc := parities S
  (List.range 5).foldl (fun S i =>
    let t := at_ bc ((i + 4) % 5) ^^^ rotl64 (at_ bc ((i + 1) % 5)) 1
    [0, 5, 10, 15, 20].foldl (fun S j => S.set (i + j) (at_ S (i + j) ^^^ t)) S) S

/-- The body of the rho-pi loop, keccak.go:170-175; state `(S, temp)`. -/
def rhoPiStep (q : List U64 × U64) (i : Nat) : List U64 × U64 :=
  let j := piLane.getD i 0
  let temp2 := at_ q.1 j
  (q.1.set j (rotl64 q.2 (rotationConstants.getD i 0)), temp2)

/-- rho and pi, keccak.go:169-175. -/
def rhoPi (S : List U64) : List U64 := ((List.range 24).foldl rhoPiStep (S, at_ S 1)).1

/-- chi, keccak.go:178-185. -/
def chi (S : List U64) : List U64 :=
  [0, 5, 10, 15, 20].foldl (fun S j =>
    let bc := (List.range 5).map (fun i => at_ S (j + i))
    (List.range 5).foldl (fun S i => S.set (j + i) (at_ S (j + i) ^^^ (~~~ at_ bc ((i + 1) % 5) &&& at_ bc ((i + 2) % 5)))) S) S

/-- One round, keccak.go:154-189. `roundConstants[r]` is bounds-checked. -/
def round (S : List U64) (r : Nat) : Go (List U64) := do
  let S := chi (rhoPi (theta S))
  let c ← Go.idx roundConstants r
  return S.set 0 (at_ S 0 ^^^ c)

/-- `uint64le`, keccak.go:203-213, of the first eight bytes. -/
def uint64le (v : List U8) : Go U64 := do
  let b0 ← Go.idx v 0
  let b1 ← Go.idx v 1
  let b2 ← Go.idx v 2
  let b3 ← Go.idx v 3
  let b4 ← Go.idx v 4
  let b5 ← Go.idx v 5
  let b6 ← Go.idx v 6
  let b7 ← Go.idx v 7
  return b0.setWidth 64 ||| b1.setWidth 64 <<< 8 ||| b2.setWidth 64 <<< 16 ||| b3.setWidth 64 <<< 24 ||| b4.setWidth 64 <<< 32 ||| b5.setWidth 64 <<< 40 |||
    b6.setWidth 64 <<< 48 ||| b7.setWidth 64 <<< 56

/-- The absorbing loop body, keccak.go:150-152. -/
def absorbStep (block : List U8) (i : Nat) (S : List U64) : Go (List U64) := do
  let x ← Go.idx S i
  let v ← Go.from_ block (i * 8)
  let w ← uint64le v
  Go.set S i (x ^^^ w)

/-- `keccak`, keccak.go:39-45. Simplification: `size` is a natural number (`NewCustom` with a negative number of bits is not
modelled); `blockSize` may be negative. `rounds` is a natural number: a negative one behaves as 0. -/
structure Keccak where
  S : List U64
  size : Nat
  blockSize : Int
  rounds : Nat
  buf : List U8

/-- `newKeccak`, keccak.go:47-56. -/
def newKeccak (bitlen rounds : Nat) : Keccak :=
  let size := bitlen / 8
  ⟨List.replicate 25 0#64, size, 200 - 2 * (size : Int), rounds, []⟩

/-- `NewCustom`, `New160`, ..., keccak.go:58-80. -/
def NewCustom (bits rounds : Nat) : Keccak := newKeccak bits rounds
/-- keccakpg/keccak.go:62-64. -/
def New160 : Keccak := newKeccak 160 24
/-- keccakpg/keccak.go:66-68. -/
def New224 : Keccak := newKeccak 224 24
/-- keccakpg/keccak.go:70-72. -/
def New256 : Keccak := newKeccak 256 24
/-- keccakpg/keccak.go:74-76. -/
def New384 : Keccak := newKeccak 384 24
/-- keccakpg/keccak.go:78-80. -/
def New512 : Keccak := newKeccak 512 24

/-- `f`, keccak.go:144-190. `k.blockSize/8` of a negative block size is at most 0: the loop does not run. -/
def Keccak.f (k : Keccak) (block : List U8) : Go Keccak :=
  if (block.length : Int) ≠ k.blockSize then Go.panic "f() called with invalid block size"
  else do
    let S ← Go.forRange 0 (k.blockSize.toNat / 8) (absorbStep block) k.S
    let S ← Go.forRange 0 k.rounds (fun r S => round S r) S
    return { k with S := S }

/-- `b[:n]` and `b[n:]` for a Go `int`. For keccakpg/keccak.go:82-109. -/
def upto (b : List U8) (n : Int) : Go (List U8) := if 0 ≤ n ∧ n ≤ b.length then .ok (b.take n.toNat) else .error .slice
/-- `b[n:]` for a Go `int` (language semantics). -/
def after (b : List U8) (n : Int) : Go (List U8) := if 0 ≤ n ∧ n ≤ b.length then .ok (b.drop n.toNat) else .error .slice

/-- The block loop of `Write`, keccak.go:101-104. -/
def writeBody (q : Keccak × List U8) : Go (Keccak × List U8) := do
  let (k, b) := q
  let blk ← upto b k.blockSize
  let k ← k.f blk
  let b ← after b k.blockSize
  return (k, b)

/-- keccak.go:101-106. -/
def Keccak.writeBlocks (k : Keccak) (b : List U8) : Go Keccak := do
  let (k, b) ← Go.while_ (b.length + 1) (fun q => decide ((q.2.length : Int) ≥ q.1.blockSize)) writeBody (k, b)
  return { k with buf := b }

/-- `Write`, keccak.go:82-109. -/
def Keccak.Write (k : Keccak) (b : List U8) : Go (Keccak × Nat) := do
  let n := b.length
  if k.buf.length > 0 then
    let x := k.blockSize - k.buf.length
    let x := if x > b.length then (b.length : Int) else x
    let pre ← upto b x
    let buf := k.buf ++ pre
    let b ← after b x
    if (buf.length : Int) < k.blockSize then
      return ({ k with buf := buf }, n)
    else
      let k ← { k with buf := buf }.f buf
      let k ← { k with buf := [] }.writeBlocks b
      return (k, n)
  else
    let k ← k.writeBlocks b
    return (k, n)

/-- `pad`, keccak.go:192-201. `make` of a negative length panics. -/
def Keccak.pad (k : Keccak) : Go (List U8) := do
  if k.blockSize < 0 then .error .slice
  else
    let padded := (k.buf ++ List.replicate k.blockSize.toNat 0#8).take k.blockSize.toNat
    let padded ← Go.set padded k.buf.length 0x01#8
    let last ← Go.idx padded (padded.length - 1)
    Go.set padded (padded.length - 1) (last ||| 0x80#8)

/-- `putUint64le`, keccak.go:215-224. -/
def putUint64le (x : U64) : List U8 :=
  [x.setWidth 8, (x >>> 8).setWidth 8, (x >>> 16).setWidth 8, (x >>> 24).setWidth 8, (x >>> 32).setWidth 8, (x >>> 40).setWidth 8,
    (x >>> 48).setWidth 8, (x >>> 56).setWidth 8]

/-- `Sum`, keccak.go:111-123; the hasher is copied first, so its state does not change. -/
def Keccak.Sum (k0 : Keccak) (b : List U8) : Go (Keccak × List U8) := do
  let last ← k0.pad
  let k ← k0.f last
  let buf := k.S.flatMap putUint64le
  let d ← Go.slice buf 0 k.size
  return (k0, b ++ d)

/-- `Reset`, keccak.go:125-130. -/
def Keccak.Reset (k : Keccak) : Keccak := { k with S := List.replicate 25 0#64, buf := [] }

/-- The `hash.Hash` object (it has no numeric accessor: `value` is never used). keccakpg/keccak.go:82-138. -/
def hasher : Hasher Keccak where
  write := Keccak.Write
  reset := fun k => .ok k.Reset
  sum := Keccak.Sum
  value := fun k => .ok (k, [])

end Verif.Model.Keccak
