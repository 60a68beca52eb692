import Verif.Go

/-! Specification vocabulary for the hash table properties (independent of the model). -/

namespace Verif.Spec.HashTable
open Verif

/-- Number of pairs `i < j` with equal entries. -/
def eqPairs [DecidableEq α] : List α → Nat
  | [] => 0
  | x :: xs => xs.countP (fun y => y = x) + eqPairs xs

/-- Length of the longest list in a list of lists. -/
def longest (bs : List (List α)) : Nat := bs.foldr (fun b m => max b.length m) 0

/-- Number of non-empty lists. -/
def occupied (bs : List (List α)) : Nat := bs.countP (fun b => !b.isEmpty)

/-- The bucket a hash selects: `h mod size` for prime sizes, `h & (size-1)` otherwise. -/
def homeOf (prime : Bool) (size : Nat) (h : U64) : Nat :=
  if prime then h.toNat % size else h.toNat &&& (size - 1)

/-- Circular distance from slot `a` to slot `b` in a table of `n` slots. -/
def dist (n a b : Nat) : Nat := (b + n - a) % n

/-- Sum over slots `i` and the keys `k` stored there of `f i k`. -/
def sumSlots (f : Nat → α → Nat) (bs : List (List α)) : Nat :=
  (bs.zipIdx.map fun p => (p.1.map (f p.2)).sum).sum

/-- The caller's view of its own buffers: the list of their contents. -/
abbrev Buffers := List (List U8)

/-- What the program around the table can do. -/
inductive Event where
  /-- allocate a fresh buffer -/
  | alloc (bytes : List U8)
  /-- store into the `i`-th buffer the caller holds -/
  | write (i off : Nat) (b : U8)
  /-- `ht.Insert(buf_i[off:off+len])` -/
  | insert (i off len : Nat)

/-- The keys the caller passes to `Insert`, computed from the caller's buffers alone. -/
def keysInserted : Buffers → List Event → List (List U8)
  | _, [] => []
  | C, .alloc b :: es => keysInserted (C ++ [b]) es
  | C, .write i off b :: es => keysInserted (C.modify i (fun buf => buf.set off b)) es
  | C, .insert i off len :: es => (((C[i]?).getD []).drop off).take len :: keysInserted C es

/-- The caller stays within its own buffers: every store hits an existing byte and every key passed to `Insert` is a piece of an
existing buffer. -/
def Legal : Buffers → List Event → Prop
  | _, [] => True
  | C, .alloc b :: es => Legal (C ++ [b]) es
  | C, .write i off b :: es => (∃ buf, C[i]? = some buf ∧ off < buf.length) ∧ Legal (C.modify i (fun buf => buf.set off b)) es
  | C, .insert i off len :: es => (∃ buf, C[i]? = some buf ∧ off + len ≤ buf.length) ∧ Legal C es

/-- Number of 1 bits of a 64-bit word. -/
def popcount (d : U64) : Nat := (List.range 64).countP (fun i => d.getLsbD i)

end Verif.Spec.HashTable
