import Verif.Model.Keccak

/-!
# Memory model of package keccakpg: slices share arrays

`Write` keeps the slice it is given (`k.buf = b`, keccak.go:106) and later appends to it (keccak.go:90). Here a slice is a
reference to an array with an offset, a length and a capacity, and `append` writes in place when the capacity allows, as in Go.

Simplification: the arrays that `append` allocates are kept apart from the caller's arrays (`Ref.own`), because the caller never
receives a reference to the hasher's buffer; the result of `Sum` is returned as a value (the caller is not modelled as
writing to it). The extra capacity of a reallocated slice is an arbitrary function `grow` of its length. The `buf` field of
`core` is not used.
-/

namespace Verif.Model.KeccakHeap
open Verif
open Verif.Model.Keccak (Keccak newKeccak putUint64le)

/-- Which array: one of the caller's, or one allocated by `append`. For keccak.go:82-109. -/
inductive Ref where
  | caller (i : Nat)
  | own (i : Nat)
  deriving DecidableEq

/-- A Go slice: array, offset, length and capacity (run-time representation, not in the source). -/
structure Slice where
  ref : Ref
  off : Nat
  len : Nat
  cap : Nat

/-- The nil slice. For keccak.go:39-56. -/
def nil : Slice := ⟨.caller 0, 0, 0, 0⟩

/-- The caller's arrays and those allocated by `append` (run-time memory, not in the source). -/
structure Heap where
  caller : List (List U8)
  own : List (List U8)

/-- The contents of an array. -/
def Heap.arr (h : Heap) : Ref → List U8
  | .caller i => h.caller.getD i []
  | .own i => h.own.getD i []

/-- The bytes a slice denotes. -/
def Heap.read (h : Heap) (s : Slice) : List U8 := ((h.arr s.ref).drop s.off).take s.len

/-- Copy `bs` to positions `pos, pos+1, ...` of an array. For keccak.go:82-123. -/
def overwrite (a : List U8) (pos : Nat) (bs : List U8) : List U8 := a.take pos ++ (bs ++ a.drop (pos + bs.length))

/-- Store `bs` into an array from position `pos`. -/
def Heap.put (h : Heap) (r : Ref) (pos : Nat) (bs : List U8) : Heap :=
  match r with
  | .caller i => { h with caller := h.caller.set i (overwrite (h.caller.getD i []) pos bs) }
  | .own i => { h with own := h.own.set i (overwrite (h.own.getD i []) pos bs) }

/-- Go's `append(s, bs...)`. Language semantics, for keccak.go:90, 122. -/
def append (grow : Nat → Nat) (h : Heap) (s : Slice) (bs : List U8) : Heap × Slice :=
  if s.len + bs.length ≤ s.cap then (h.put s.ref (s.off + s.len) bs, { s with len := s.len + bs.length })
  else
    let data := h.read s ++ bs
    ({ h with own := h.own ++ [data ++ List.replicate (grow data.length) 0#8] }, ⟨.own h.own.length, 0, data.length, data.length + grow data.length⟩)

/-- `s[:n]` (the bound is the capacity) and `s[n:]` (the bound is the length). Language semantics, for keccak.go:82-109. -/
def Slice.upto (s : Slice) (n : Int) : Go Slice := if 0 ≤ n ∧ n ≤ s.cap then .ok { s with len := n.toNat } else .error .slice
/-- `s[n:]` (language semantics). -/
def Slice.after (s : Slice) (n : Int) : Go Slice :=
  if 0 ≤ n ∧ n ≤ s.len then .ok ⟨s.ref, s.off + n.toNat, s.len - n.toNat, s.cap - n.toNat⟩ else .error .slice

/-- `keccak`, keccak.go:39-45, with `buf` a slice. -/
structure KH where
  core : Keccak
  buf : Slice

/-- `newKeccak`, keccak.go:47-56. -/
def new (bits rounds : Nat) : KH := ⟨newKeccak bits rounds, nil⟩

/-- keccak.go:101-104. -/
def loopBody (h : Heap) (q : Keccak × Slice) : Go (Keccak × Slice) := do
  let blk ← q.2.upto q.1.blockSize
  let k ← q.1.f (h.read blk)
  let b ← q.2.after k.blockSize
  return (k, b)

/-- keccak.go:101-106. -/
def KH.writeBlocks (k : KH) (h : Heap) (b : Slice) : Go KH := do
  let (core, b) ← Go.while_ (b.len + 1) (fun q => decide ((q.2.len : Int) ≥ q.1.blockSize)) (loopBody h) (k.core, b)
  return ⟨core, b⟩

/-- `Write`, keccak.go:82-109. -/
def KH.Write (grow : Nat → Nat) (k : KH) (h : Heap) (b : Slice) : Go (Heap × KH × Nat) := do
  let n := b.len
  if k.buf.len > 0 then
    let x := k.core.blockSize - k.buf.len
    let x := if x > b.len then (b.len : Int) else x
    let pre ← b.upto x
    let (h, buf) := append grow h k.buf (h.read pre)
    let b ← b.after x
    if (buf.len : Int) < k.core.blockSize then
      return (h, { k with buf := buf }, n)
    else
      let core ← k.core.f (h.read buf)
      let k ← (⟨core, nil⟩ : KH).writeBlocks h b
      return (h, k, n)
  else
    let k ← k.writeBlocks h b
    return (h, k, n)

/-- `Sum`, keccak.go:111-123: the padded block and the digest are in fresh memory; only the final `append` can touch the
caller's. -/
def KH.Sum (grow : Nat → Nat) (k : KH) (h : Heap) (b : Slice) : Go (Heap × List U8) := do
  let last ← ({ k.core with buf := h.read k.buf } : Keccak).pad
  let k' ← k.core.f last
  let d ← Go.slice (k'.S.flatMap putUint64le) 0 k'.size
  let (h, r) := append grow h b d
  return (h, h.read r)

/-- `Reset`, keccak.go:125-130. -/
def KH.Reset (k : KH) : KH := ⟨k.core.Reset, nil⟩

/-! ## Callers -/

/-- A slice of one of the caller's arrays. The caller of keccak.go:82-123. -/
structure CSlice where
  arr : Nat
  off : Nat
  len : Nat
  cap : Nat

/-- The same as a slice of the heap. -/
def CSlice.slice (s : CSlice) : Slice := ⟨.caller s.arr, s.off, s.len, s.cap⟩

/-- What a caller can do: call a method, or store a byte into one of its own arrays. The caller of keccak.go:82-130, not in the source. -/
inductive Op where
  | write (s : CSlice)
  | sum (b : CSlice)
  | reset
  | poke (arr i : Nat) (v : U8)

/-- The caller stores a byte (the caller is not in the source). -/
def poke (mem : List (List U8)) (a i : Nat) (v : U8) : List (List U8) := mem.set a ((mem.getD a []).set i v)

/-- Run a caller; the results are the outputs of the method calls and the caller's memory at the end. The caller of keccak.go:82-130, not in the source. -/
def run (grow : Nat → Nat) : Heap → KH → List Op → Go (List HOut × List (List U8))
  | h, _, [] => .ok ([], h.caller)
  | h, k, .write s :: ops => do
    let (h, k, n) ← k.Write grow h s.slice
    let (o, m) ← run grow h k ops
    return (.wrote n :: o, m)
  | h, k, .sum b :: ops => do
    let (h, d) ← k.Sum grow h b.slice
    let (o, m) ← run grow h k ops
    return (.bytes d :: o, m)
  | h, k, .reset :: ops => do
    let (o, m) ← run grow h k.Reset ops
    return (.done :: o, m)
  | h, k, .poke a i v :: ops => run grow { h with caller := poke h.caller a i v } k ops

end Verif.Model.KeccakHeap
