import Verif.Go
import Verif.Spec.HashTable

/-! Model of /repo/hashtable/hashtable.go -/

namespace Verif.HashTable
open Verif
open Verif.Spec.HashTable (Event)

/-- hashtable.go:57-90 `NextLog2`. -/
def nextLog2 (x : U32) : U32 :=
  if x ≤ 1 then x else
  let x := x - 1
  let n : U32 := 0
  let y := x >>> 16
  let (n, x) := if y ≠ 0 then (n + 16, y) else (n, x)
  let y := x >>> 8
  let (n, x) := if y ≠ 0 then (n + 8, y) else (n, x)
  let y := x >>> 4
  let (n, x) := if y ≠ 0 then (n + 4, y) else (n, x)
  let y := x >>> 2
  let (n, x) := if y ≠ 0 then (n + 2, y) else (n, x)
  let y := x >>> 1
  if y ≠ 0 then n + 2 else n + x

/-- hashtable.go:16-55 `Bucket`, `Stats`, `HashTable`. `κ` is the type of stored keys (a byte
string, or a slice header in the heap model of C10). A nil bucket is `[]`: `append` never leaves an
empty non-nil bucket. The counters are Go `int`s, here `Nat` (no overflow below 2^63 inserts).
Simplified: fields that are only printed or never written (`Dur`, `Entries`, `Dups2`, `tbs`; `Tcnt` is in `Model/Trace.lean`)
are left out; `Q` is the result of `HashQuality`. -/
structure HT (κ : Type) where
  buckets : List (List κ)
  inserts : Nat
  cols : Nat
  probes : Nat
  heads : Nat
  dups : Nat
  nbuckets : Nat
  longestChain : Nat
  lines : Int
  size : U64
  sizeLog2 : U64
  sizeMask : U64
  seed : U64
  extra : Int
  pd : Bool
  oa : Bool
  prime : Bool
  deriving DecidableEq

/-- hashtable.go:96-106, the part of `NewHashTable` that computes `Size` and `SizeLog2`.
`nextPrime` is the external `primes.NextPrime`. -/
def tableSize (nextPrime : Int → Int) (size extra : Int) (prime : Bool) : U64 × U64 :=
  let (sz, szlog2) : U64 × U64 :=
    if size < 0 then (BitVec.ofInt 64 (-size), 0)
    else
      let l : U64 := (nextLog2 (BitVec.ofInt 32 size) + BitVec.ofInt 32 extra).setWidth 64
      (1#64 <<< l, l)
  (if prime then BitVec.ofInt 64 (nextPrime sz.toInt) else sz, szlog2)

/-- hashtable.go:92-114 `NewHashTable`.
`make([][]Bucket, Size)` panics when `Size * 24` bytes exceed the address space (2^48 on
linux/amd64); running out of real memory is not modelled. -/
def newHashTable (nextPrime : Int → Int) (size : Int) (seed : Int) (extra : Int)
    (pd oa prime : Bool) : Go (HT κ) :=
  let s := tableSize nextPrime size extra prime
  if s.1.toNat * 24 ≤ 2 ^ 48 then
    .ok { buckets := List.replicate s.1.toNat [], inserts := 0, cols := 0, probes := 0, heads := 0,
          dups := 0, nbuckets := 0, longestChain := 0, lines := size, size := s.1,
          sizeLog2 := s.2, sizeMask := s.1 - 1, seed := BitVec.ofInt 64 seed,
          extra := extra, pd := pd, oa := oa, prime := prime }
  else Go.panic "makeslice: len out of range"

/-- hashtable.go:122-123 `Ones`, `Zeros`. -/
def ones : List Nat := [0, 1, 1, 2, 1, 2, 2, 3, 1, 2, 2, 3, 2, 3, 3, 4]
/-- `Zeros`, hashtable.go:123. -/
def zeros : List Nat := [4, 3, 3, 2, 3, 2, 2, 1, 3, 2, 2, 1, 2, 1, 1, 0]

/-- hashtable.go:125-136 `diff`. -/
def diff (d : U64) : Go (Nat × Nat) := do
  let (_, z, o) ← Go.forRange 0 16 (fun _ (s : U64 × Nat × Nat) => do
    let (d, z, o) := s
    let four := (d &&& 0xF).toNat
    let z' ← Go.idx zeros four
    let o' ← Go.idx ones four
    pure (d >>> 4, z + z', o + o')) (d, 0, 0)
  if z + o ≠ 64 then Go.panic "diff" else pure (z, o)

/-- What `Insert` needs from outside: the configured hash function `hashf.Hashf` (possibly
stateful, like nullhash, so it threads a state `ω`), and whether `btoi(k)` (hashtable.go:116-118),
which is evaluated only while `Trace` is set, is in range: `!Trace || len(k) >= 4`. -/
structure Env (ω κ : Type) where
  hash : ω → κ → U64 → U64 × ω
  traceOK : κ → Bool

variable {ω κ : Type}

/-- `btoi(k)` evaluated by the tracing `Printf`s of `Insert`. hashtable.go:116-118 as called in 138-259. -/
def traceChk (e : Env ω κ) (k : κ) : Go Unit :=
  if e.traceOK k then .ok () else .error .index

/-- hashtable.go:221-231, the duplicate scan of a chain (all elements are rehashed). -/
def scanDups (e : Env ω κ) (seed h : U64) : List κ → ω → Nat → Nat × ω
  | [], w, n => (n, w)
  | k :: ks, w, n =>
    let (bh, w) := e.hash w k seed
    scanDups e seed h ks w (if bh = h then n + 1 else n)

/-- hashtable.go:188-192 -/
def HT.countProbe (ht : HT κ) (cnt : Nat) : HT κ :=
  if cnt = 0 then { ht with probes := ht.probes + 1 } else { ht with cols := ht.cols + 1 }

/-- hashtable.go:203-209 (printing under `pd` is not modelled) -/
def HT.countDup (ht : HT κ) (bh h : U64) : HT κ :=
  if bh = h then { ht with dups := ht.dups + 1 } else ht

/-- hashtable.go:161-250, the `for { ... }` loop of `Insert`. -/
def insertLoop (e : Env ω κ) (k : κ) (h : U64) :
    Nat → ω → HT κ → U64 → Nat → Nat → Go (ω × HT κ)
  | 0, _, _, _, _, _ => .error .diverge
  | fuel + 1, w, ht, idx, cnt, pass => do
    let b ← Go.idx ht.buckets idx.toNat
    if b.isEmpty then
      -- 162-185: no entry or chain at this location, make it
      let bs ← Go.set ht.buckets idx.toNat [k]
      traceChk e k
      pure (w, { ht with buckets := bs, probes := ht.probes + 1, heads := ht.heads + 1 })
    else if ht.oa then
      -- 186-218: open addressing
      let ht := ht.countProbe cnt
      traceChk e k
      let k0 ← Go.idx b 0
      let (bh, w) := e.hash w k0 ht.seed
      let ht := ht.countDup bh h
      let idx := idx + 1
      if idx > ht.size - 1 then
        if pass + 1 > 1 then Go.panic "Add: pass"
        else insertLoop e k h fuel w ht 0 (cnt + 1) (pass + 1)
      else insertLoop e k h fuel w ht idx (cnt + 1) pass
    else
      -- 219-249: chaining
      let (d, w) := scanDups e ht.seed h b w ht.dups
      let b' := b ++ [k]
      let bs ← Go.set ht.buckets idx.toNat b'
      traceChk e k
      pure (w, { ht with buckets := bs, dups := d,
                         longestChain := if b'.length > ht.longestChain then b'.length
                                         else ht.longestChain,
                         nbuckets := ht.nbuckets + 1, probes := ht.probes + 1 })

/-- hashtable.go:138-259 `Insert`, after the key has been copied (139-144; the copy itself is
modelled in the heap model below). The fuel is what the two passes of the loop can need. -/
def insert (e : Env ω κ) (w : ω) (ht : HT κ) (k : κ) : Go (ω × HT κ) := do
  let ht := { ht with inserts := ht.inserts + 1 }
  let (h, w) := e.hash w k ht.seed
  let idx ← if ht.prime then
      (if ht.size = 0 then .error .divZero else .ok (h % ht.size))
    else .ok (h &&& ht.sizeMask)
  insertLoop e k h (2 * ht.size.toNat + 1) w ht idx 0 0

/-- A history of `Insert` calls. The caller of hashtable.go:138-259, e.g. ht.go:89-110. -/
def insertAll (e : Env ω κ) : ω → HT κ → List κ → Go (ω × HT κ)
  | w, ht, [] => .ok (w, ht)
  | w, ht, k :: ks => do
    let (w, ht) ← insert e w ht k
    insertAll e w ht ks

/-- hashtable.go:261-285 `HashQuality`, over exact rationals instead of `float64`. -/
def hashQuality (ht : HT κ) : Rat :=
  if ht.inserts = 0 then 0 else
  let n : Rat := ht.buckets.foldl
    (fun (n : Rat) v => if v.isEmpty then n else n + (v.length : Rat) * ((v.length : Rat) + 1)) 0
  let n := n * (ht.size.toNat : Rat)
  let d : Rat := (ht.inserts : Rat) * ((ht.inserts : Rat) + 2 * (ht.size.toNat : Rat) - 1)
  n / d

/-! ### Heap model of the key copy in `Insert` (hashtable.go:139-144) -/

/-- A slice header: backing array, offset, length. Go's representation of the slices of hashtable.go:14-16, 138-143. -/
structure Slice where
  arr : Nat
  off : Nat
  len : Nat
  deriving DecidableEq

/-- The arrays the program has allocated (Go run-time memory, not in the source). -/
abbrev Heap := List (List U8)

/-- Bytes a slice header denotes in a heap. For hashtable.go:138-143. -/
def Heap.read (hp : Heap) (s : Slice) : List U8 := (((hp[s.arr]?).getD []).drop s.off).take s.len

/-- The table together with the memory it shares with its caller. `caller` lists the arrays the
caller holds references to. For the copy made in hashtable.go:139-143. -/
structure World where
  heap : Heap
  caller : List Nat
  ht : HT Slice

/-- One event. hashtable.go:139-144: `k := make([]byte, len(ka)); copy(k, ka)` allocates a new
array, and it is `k`, not `ka`, that goes into the table (hashtable.go:164, 234). -/
def World.step (H : List U8 → U64 → U64) (w : World) : Event → Go World
  | .alloc bytes => .ok { w with heap := w.heap ++ [bytes], caller := w.caller ++ [w.heap.length] }
  | .write i off b => do
    let a ← Go.idx w.caller i
    let arr ← Go.idx w.heap a
    let arr ← Go.set arr off b
    let hp ← Go.set w.heap a arr
    pure { w with heap := hp }
  | .insert i off len => do
    let a ← Go.idx w.caller i
    let arr ← Go.idx w.heap a
    if off + len ≤ arr.length then
      let ka : Slice := ⟨a, off, len⟩
      let k : Slice := ⟨w.heap.length, 0, len⟩
      let hp := w.heap ++ [w.heap.read ka]
      let (_, ht) ← HashTable.insert
        { hash := fun (_ : Unit) s seed => (H (Heap.read hp s) seed, ()), traceOK := fun _ => true }
        () w.ht k
      pure { w with heap := hp, ht := ht }
    else .error .slice

/-- A whole history of the events above; the sequence is the caller's, not in the source. -/
def World.run (H : List U8 → U64 → U64) : World → List Event → Go World
  | w, [] => .ok w
  | w, e :: es => do
    let w ← w.step H e
    World.run H w es

end Verif.HashTable
