import Verif.Spec.HashTable

/-! Specification vocabulary for what `Insert` prints (independent of the model). -/

namespace Verif.Spec.Trace
open Verif

/-- A line printed by `Insert`. -/
inductive Line where
  /-- a trace record `{"i": i, "l": l, "op": op, "t": t, "b": b, "s": s, "k": k, "v": v},` -/
  | record (i l : Nat) (op : String) (t b s k v : Nat)
  /-- a line `hash=h, idx=idx, key=key` -/
  | dup (h : U64) (idx : Nat) (key : List U8)
  deriving DecidableEq

/-- The integer a trace record shows for a key: its first four bytes, little-endian. -/
def shown (k : List U8) : Nat := leNat (k.take 4)

/-- The numbers `"i"` of the trace records among some lines. -/
def numbers : List Line → List Nat
  | [] => []
  | .record i _ _ _ _ _ _ _ :: ls => i :: numbers ls
  | .dup .. :: ls => numbers ls

/-- Number of records with a given `"op"`. -/
def count (op : String) : List Line → Nat
  | [] => 0
  | .record _ _ o _ _ _ _ _ :: ls => (if o = op then 1 else 0) + count op ls
  | .dup .. :: ls => count op ls

/-- Rebuild a table from its trace: an `"I"` record puts its value `v` at position `t` of bucket
`b`, which must be the next free position there. -/
def replay : List (List Nat) → List Line → Option (List (List Nat))
  | bs, [] => some bs
  | bs, .record _ _ "I" t b _ _ v :: ls =>
    match bs[b]? with
    | some c => if c.length = t then replay (bs.set b (c ++ [v])) ls else none
    | none => none
  | bs, _ :: ls => replay bs ls

/-- The two lines that report that the keys `k` and `k'` have the same hash. -/
def dupLines (pd : Bool) (H : List U8 → U64) (k k' : List U8) (slot : Nat) : List Line :=
  if pd = true ∧ H k' = H k then [.dup (H k) slot k, .dup (H k) slot k'] else []

/-- What the probe number `l` prints that finds the key `k'` in its slot. -/
def probeLines (trace pd : Bool) (H : List U8 → U64) (first : Nat) (k k' : List U8) (l slot : Nat) :
    List Line :=
  (if trace then [.record (first + l) l "P" 0 slot 0 (shown k) (shown k)] else []) ++
    dupLines pd H k k' slot

/-- What the end of an insert prints. -/
def insertLines (trace : Bool) (first : Nat) (k : List U8) (l t slot : Nat) : List Line :=
  if trace then [.record (first + l) l "I" t slot 0 (shown k) (shown k)] else []

/-- A hash function without state. -/
def pureHash (H : List U8 → U64 → U64) : Unit → List U8 → U64 → U64 × Unit := fun _ k s => (H k s, ())

end Verif.Spec.Trace
