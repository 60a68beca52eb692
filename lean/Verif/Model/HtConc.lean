import Verif.Model.HashTable

/-!
# Concurrent calls of `Insert` on one table (/repo/hashtable/hashtable.go:138-259)

`Insert` is written as a small-step program: every step makes at most one access to a field of the table or to a bucket (the nil check, the `range` length,
the element read, the `append`, the store of its result, and the read and the write of every `x++` are separate steps). Goroutines are interleaved step by step (sequentially
consistent; finer or weaker behaviours, which Go also allows, only add to these). The slices of hashtable.go are in a heap: a bucket is nil or a header (array, length), and `append`
writes in place while the array has room. The hash function is a function of key and seed, `Trace` is off. Not modelled: the package variable `ph`, which `Insert` writes but nothing uses (hashtable.go:251-258), and the copy of the
key (139-144), which only touches the caller's memory (C10).
-/

namespace Verif.Model.HtConc
open Verif Verif.HashTable

/-- The memory of a table. `arrays`: capacity and elements written so far of each array of `Bucket`s; `slots`: `ht.Buckets`, each nil or an array and a length;
`rest`: the other fields of the table (its `buckets` field is not used). hashtable.go:14-55. -/
structure Mem (κ : Type) where
  arrays : List (Nat × List κ)
  slots : List (Option (Nat × Nat))
  rest : HT κ

variable {κ : Type}

/-- The keys a bucket header denotes. hashtable.go:14-16, 22. -/
def Mem.chain (m : Mem κ) : Option (Nat × Nat) → List κ
  | none => []
  | some (a, l) => ((m.arrays[a]?).getD (0, [])).2.take l

/-- `len(bucket)`. hashtable.go:221, 235, 237. -/
def hdLen : Option (Nat × Nat) → Nat
  | none => 0
  | some (_, l) => l

/-- The table a reader of the memory sees. hashtable.go:14-55. -/
def Mem.view (m : Mem κ) : HT κ := { m.rest with buckets := m.slots.map m.chain }

/-- A table laid out in memory, one array per non-empty bucket without spare room. hashtable.go:14-55, 111. -/
def Mem.of (ht : HT κ) : Mem κ where
  arrays := ht.buckets.map fun b => (b.length, b)
  slots := ht.buckets.mapIdx fun i b => if b.isEmpty then none else some (i, b.length)
  rest := { ht with buckets := [] }

/-- `append(bucket, Bucket{Key: k})`: in place while the array has room, else into a new array; `grow l` is the extra room the runtime gives an array of `l + 1` elements.
hashtable.go:164, 234. -/
def Mem.append (grow : Nat → Nat) (m : Mem κ) (hd : Option (Nat × Nat)) (k : κ) : Mem κ × (Nat × Nat) :=
  match hd with
  | none => ({ m with arrays := m.arrays ++ [(1 + grow 0, [k])] }, (m.arrays.length, 1))
  | some (a, l) =>
    let (c, d) := (m.arrays[a]?).getD (0, [])
    if l < c then ({ m with arrays := m.arrays.set a (c, d.take l ++ k :: d.drop (l + 1)) }, (a, l + 1))
    else ({ m with arrays := m.arrays ++ [(l + 1 + grow l, d.take l ++ [k])] }, (m.arrays.length, l + 1))

/-- The counters `Insert` increments. hashtable.go:18-26. -/
inductive Ctr where
  | inserts | cols | probes | heads | dups | nbuckets
  deriving DecidableEq

/-- Read a counter. hashtable.go:145, 182, 183, 189, 191, 208, 230, 246, 247. -/
def Ctr.get (ht : HT κ) : Ctr → Nat
  | .inserts => ht.inserts
  | .cols => ht.cols
  | .probes => ht.probes
  | .heads => ht.heads
  | .dups => ht.dups
  | .nbuckets => ht.nbuckets

/-- Write a counter. hashtable.go:145, 182, 183, 189, 191, 208, 230, 246, 247. -/
def Ctr.set (ht : HT κ) (v : Nat) : Ctr → HT κ
  | .inserts => { ht with inserts := v }
  | .cols => { ht with cols := v }
  | .probes => { ht with probes := v }
  | .heads => { ht with heads := v }
  | .dups => { ht with dups := v }
  | .nbuckets => { ht with nbuckets := v }

/-- Where a call of `Insert` is. hashtable.go:138-259. -/
inductive Pc where
  /-- about to read the counter of a `c++` -/
  | inc (c : Ctr) (next : Pc)
  /-- has read `v`, about to write `v + 1` -/
  | incw (c : Ctr) (v : Nat) (next : Pc)
  /-- 147-153 -/
  | hash
  /-- 162: `ht.Buckets[idx] == nil` -/
  | look (h idx : U64) (cnt pass : Nat)
  /-- 202: hash the key at `ht.Buckets[idx][0]` -/
  | key (h idx : U64) (cnt pass : Nat)
  /-- 221: `range ht.Buckets[idx]` -/
  | rng (h idx : U64)
  /-- 222: hash the key at `ht.Buckets[idx][j]`, `j` of `n` -/
  | scan (h idx : U64) (j n : Nat)
  /-- 164 (`first`) or 234: evaluate the `append` -/
  | app (idx : U64) (first : Bool)
  /-- 164 or 234: store its result -/
  | put (idx : U64) (hd : Nat × Nat) (first : Bool)
  /-- 235 -/
  | longest (idx : U64)
  /-- 237 -/
  | setLongest (idx : U64)
  /-- returned -/
  | done
  /-- panicked -/
  | fail (f : Fault)
  deriving DecidableEq

/-- A call of `Insert` that has not begun. hashtable.go:145. -/
def Pc.start : Pc := .inc .inserts .hash

/-- hashtable.go:210-218: `idx++; cnt++`, wrap around once. -/
def advance (size h idx : U64) (cnt pass : Nat) : Pc :=
  if idx + 1 > size - 1 then
    if pass + 1 > 1 then .fail (.explicit "Add: pass") else .look h 0 (cnt + 1) (pass + 1)
  else .look h (idx + 1) (cnt + 1) pass

/-- One step of the call `Insert(k)`; `none` when it has returned or panicked. hashtable.go:138-259. -/
def step (H : κ → U64 → U64) (grow : Nat → Nat) (k : κ) (m : Mem κ) : Pc → Option (Mem κ × Pc)
  | .inc c next => some (m, .incw c (c.get m.rest) next)
  | .incw c v next => some ({ m with rest := c.set m.rest (v + 1) }, next)
  | .hash =>
    let h := H k m.rest.seed
    if m.rest.prime then
      some (m, if m.rest.size = 0 then .fail .divZero else .look h (h % m.rest.size) 0 0)
    else some (m, .look h (h &&& m.rest.sizeMask) 0 0)
  | .look h idx cnt pass =>
    match m.slots[idx.toNat]? with
    | none => some (m, .fail .index)
    | some none => some (m, .app idx true)
    | some (some _) =>
      if m.rest.oa then some (m, .inc (if cnt = 0 then .probes else .cols) (.key h idx cnt pass))
      else some (m, .rng h idx)
  | .key h idx cnt pass =>
    match (m.chain ((m.slots[idx.toNat]?).getD none))[0]? with
    | none => some (m, .fail .index)
    | some k0 =>
      if H k0 m.rest.seed = h then some (m, .inc .dups (advance m.rest.size h idx cnt pass))
      else some (m, advance m.rest.size h idx cnt pass)
  | .rng h idx =>
    match m.slots[idx.toNat]? with
    | none => some (m, .fail .index)
    | some hd => some (m, .scan h idx 0 (hdLen hd))
  | .scan h idx j n =>
    if j < n then
      match (m.chain ((m.slots[idx.toNat]?).getD none))[j]? with
      | none => some (m, .fail .index)
      | some k0 =>
        if H k0 m.rest.seed = h then some (m, .inc .dups (.scan h idx (j + 1) n))
        else some (m, .scan h idx (j + 1) n)
    else some (m, .app idx false)
  | .app idx first =>
    match m.slots[idx.toNat]? with
    | none => some (m, .fail .index)
    | some hd =>
      let (m', hd') := m.append grow hd k
      some (m', .put idx hd' first)
  | .put idx hd first =>
    if idx.toNat < m.slots.length then
      some ({ m with slots := m.slots.set idx.toNat (some hd) },
        if first then .inc .probes (.inc .heads .done) else .longest idx)
    else some (m, .fail .index)
  | .longest idx =>
    match m.slots[idx.toNat]? with
    | none => some (m, .fail .index)
    | some hd =>
      if hdLen hd > m.rest.longestChain then some (m, .setLongest idx)
      else some (m, .inc .nbuckets (.inc .probes .done))
  | .setLongest idx =>
    match m.slots[idx.toNat]? with
    | none => some (m, .fail .index)
    | some hd => some ({ m with rest := { m.rest with longestChain := hdLen hd } }, .inc .nbuckets (.inc .probes .done))
  | .done => none
  | .fail _ => none

/-- `n` goroutines, the `i`-th in the middle of its call. Callers of hashtable.go:138-259. -/
structure Conc (κ : Type) (n : Nat) where
  m : Mem κ
  pcs : Fin n → Pc

/-- Goroutine `i` makes a step (nothing happens when it has finished). Callers of hashtable.go:138-259. -/
def Conc.step (H : κ → U64 → U64) (grow : Nat → Nat) (ks : Fin n → κ) (c : Conc κ n) (i : Fin n) : Conc κ n :=
  match HtConc.step H grow (ks i) c.m (c.pcs i) with
  | none => c
  | some (m, pc) => ⟨m, fun j => if j = i then pc else c.pcs j⟩

/-- The goroutines call `Insert` without a lock and run in the order of `sched`. Callers of hashtable.go:138-259. -/
def Conc.run (H : κ → U64 → U64) (grow : Nat → Nat) (ks : Fin n → κ) (c : Conc κ n) (sched : List (Fin n)) : Conc κ n :=
  sched.foldl (Conc.step H grow ks) c

/-- A goroutine that executes `mu.Lock(); ht.Insert(k); mu.Unlock()`. Callers of hashtable.go:138-259. -/
inductive LPc where
  | waiting
  | inside (pc : Pc)
  | returned

/-- Goroutines that share a lock; `order` records who took it (a history variable). Callers of hashtable.go:138-259. -/
structure Locked (κ : Type) (n : Nat) where
  m : Mem κ
  holder : Option (Fin n)
  order : List (Fin n)
  pcs : Fin n → LPc

/-- Goroutine `i` makes a step: takes the lock if it is free (else stays blocked), runs its call, releases the lock when the call has returned; a panicked call releases nothing. Callers of hashtable.go:138-259. -/
def Locked.step (H : κ → U64 → U64) (grow : Nat → Nat) (ks : Fin n → κ) (c : Locked κ n) (i : Fin n) : Locked κ n :=
  match c.pcs i with
  | .waiting =>
    match c.holder with
    | none => { c with holder := some i, order := c.order ++ [i], pcs := fun j => if j = i then .inside .start else c.pcs j }
    | some _ => c
  | .inside .done => { c with holder := none, pcs := fun j => if j = i then .returned else c.pcs j }
  | .inside pc =>
    match HtConc.step H grow (ks i) c.m pc with
    | none => c
    | some (m, pc) => { c with m := m, pcs := fun j => if j = i then .inside pc else c.pcs j }
  | .returned => c

/-- The goroutines with a lock run in the order of `sched`. Callers of hashtable.go:138-259. -/
def Locked.run (H : κ → U64 → U64) (grow : Nat → Nat) (ks : Fin n → κ) (c : Locked κ n) (sched : List (Fin n)) : Locked κ n :=
  sched.foldl (Locked.step H grow ks) c

end Verif.Model.HtConc
