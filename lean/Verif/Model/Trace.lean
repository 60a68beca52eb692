import Verif.Model.HashTable
import Verif.Spec.Trace

/-! Model of what `Insert` prints: /repo/hashtable/hashtable.go:116-118, 138-259 again, this time
with the variable `Trace`, the counter `Tcnt` and the lines printed. -/

namespace Verif.Model.Trace
open Verif Verif.HashTable
open Verif.Spec.Trace (Line)

/-- A computation that prints lines and may panic (what was printed before stays printed). For hashtable.go:138-259. -/
structure Out (α : Type) where
  lines : List Line
  result : Go α

instance : Monad Out where
  pure a := ⟨[], .ok a⟩
  bind x f := match x with
    | ⟨o, .error e⟩ => ⟨o, .error e⟩
    | ⟨o, .ok a⟩ => ⟨o ++ (f a).lines, (f a).result⟩

/-- A computation that prints nothing. For hashtable.go:138-259. -/
def Out.lift (x : Go α) : Out α := ⟨[], x⟩
/-- `fmt.Printf`. The format is not modelled, only the values printed. For hashtable.go:138-259. -/
def Out.print (l : Line) : Out Unit := ⟨[l], .ok ()⟩

/-- hashtable.go:116-118 `btoi`. -/
def btoi (b : List U8) : Go Nat := do
  let b3 ← Go.idx b 3
  let b2 ← Go.idx b 2
  let b1 ← Go.idx b 1
  let b0 ← Go.idx b 0
  pure (b3.toNat <<< 24 ||| b2.toNat <<< 16 ||| b1.toNat <<< 8 ||| b0.toNat)

variable {ω : Type}

/-- hashtable.go:168-171, 193-200, 241-245: one trace record (nothing unless `Trace`), and
`ht.Tcnt++`. The result is the new `Tcnt`. -/
def traceRecord (trace : Bool) (tcnt cnt : Nat) (op : String) (t : Nat) (idx : U64) (k : List U8) :
    Out Nat :=
  if trace then do
    let a ← Out.lift (btoi k)
    let b ← Out.lift (btoi k)
    Out.print (.record tcnt cnt op t idx.toNat 0 a b)
    pure (tcnt + 1)
  else pure tcnt

/-- hashtable.go:203-207, the lines printed under `pd` in open addressing. -/
def printDup (pd : Bool) (bh h idx : U64) (k k0 : List U8) : Out Unit :=
  if bh = h then
    if pd then do
      Out.print (.dup h idx.toNat k)
      Out.print (.dup bh idx.toNat k0)
    else pure ()
  else pure ()

/-- hashtable.go:161-250, the loop of `Insert`, with its output. Under `pd` the chaining branch
prints nothing (225-229: its `Printf`s are commented out). -/
def insertLoop (hash : ω → List U8 → U64 → U64 × ω) (trace : Bool) (k : List U8) (h : U64) :
    Nat → ω → HT (List U8) → Nat → U64 → Nat → Nat → Out (ω × HT (List U8) × Nat)
  | 0, _, _, _, _, _, _ => Out.lift (.error .diverge)
  | fuel + 1, w, ht, tcnt, idx, cnt, pass => do
    let b ← Out.lift (Go.idx ht.buckets idx.toNat)
    if b.isEmpty then
      -- 162-185
      let bs ← Out.lift (Go.set ht.buckets idx.toNat [k])
      let tcnt ← traceRecord trace tcnt cnt "I" 0 idx k
      pure (w, { ht with buckets := bs, probes := ht.probes + 1, heads := ht.heads + 1 }, tcnt)
    else if ht.oa then
      -- 186-218
      let ht := ht.countProbe cnt
      let tcnt ← traceRecord trace tcnt cnt "P" 0 idx k
      let k0 ← Out.lift (Go.idx b 0)
      let (bh, w) := hash w k0 ht.seed
      printDup ht.pd bh h idx k k0
      let ht := ht.countDup bh h
      let idx := idx + 1
      if idx > ht.size - 1 then
        if pass + 1 > 1 then Out.lift (Go.panic "Add: pass")
        else insertLoop hash trace k h fuel w ht tcnt 0 (cnt + 1) (pass + 1)
      else insertLoop hash trace k h fuel w ht tcnt idx (cnt + 1) pass
    else
      -- 219-249
      let (d, w) := scanDups { hash := hash, traceOK := fun _ => true } ht.seed h b w ht.dups
      let b' := b ++ [k]
      let bs ← Out.lift (Go.set ht.buckets idx.toNat b')
      let tcnt ← traceRecord trace tcnt cnt "I" (b'.length - 1) idx k
      pure (w, { ht with buckets := bs, dups := d,
                         longestChain := if b'.length > ht.longestChain then b'.length
                                         else ht.longestChain,
                         nbuckets := ht.nbuckets + 1, probes := ht.probes + 1 }, tcnt)

/-- hashtable.go:138-259 `Insert` with its output. -/
def insert (hash : ω → List U8 → U64 → U64 × ω) (trace : Bool) (w : ω) (ht : HT (List U8))
    (tcnt : Nat) (k : List U8) : Out (ω × HT (List U8) × Nat) := do
  let ht := { ht with inserts := ht.inserts + 1 }
  let (h, w) := hash w k ht.seed
  let idx ← Out.lift (if ht.prime then
      (if ht.size = 0 then .error .divZero else .ok (h % ht.size))
    else .ok (h &&& ht.sizeMask))
  insertLoop hash trace k h (2 * ht.size.toNat + 1) w ht tcnt idx 0 0

/-- A history of `Insert` calls (`Tcnt` starts at 0 in a new table). The caller of hashtable.go:138-259. -/
def insertAll (hash : ω → List U8 → U64 → U64 × ω) (trace : Bool) :
    ω → HT (List U8) → Nat → List (List U8) → Out (ω × HT (List U8) × Nat)
  | w, ht, tcnt, [] => pure (w, ht, tcnt)
  | w, ht, tcnt, k :: ks => do
    let (w, ht, tcnt) ← insert hash trace w ht tcnt k
    insertAll hash trace w ht tcnt ks

end Verif.Model.Trace
