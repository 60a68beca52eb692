import Verif.Model.HashTable

/-!
# `Insert` with a hash function that can panic

`HashTable.insert` (Model/HashTable.lean) takes the hash function as a total function. The functions behind `hashf.Hashf` can panic (an
unknown name, a key that is too short, ...), and `Insert` calls it not only on the new key but on keys already in the table. Here
every call can panic.
-/

namespace Verif.HashTable
open Verif

/-- What `Insert` needs from outside, as `Env`, but with a hash function that can panic. For hashtable.go:147, 202, 222. -/
structure EnvF (ω κ : Type) where
  hash : ω → κ → U64 → Go (U64 × ω)
  traceOK : κ → Bool

variable {ω κ : Type}

/-- `btoi(k)` (hashtable.go:116-118) evaluated by the tracing `Printf`s of `Insert`. -/
def traceChkF (e : EnvF ω κ) (k : κ) : Go Unit :=
  if e.traceOK k then .ok () else .error .index

/-- hashtable.go:221-231, the duplicate scan of a chain (all elements are rehashed). -/
def scanDupsF (e : EnvF ω κ) (seed h : U64) : List κ → ω → Nat → Go (Nat × ω)
  | [], w, n => .ok (n, w)
  | k :: ks, w, n => do
    let (bh, w) ← e.hash w k seed
    scanDupsF e seed h ks w (if bh = h then n + 1 else n)

/-- hashtable.go:161-250, the `for { ... }` loop of `Insert`. -/
def insertLoopF (e : EnvF ω κ) (k : κ) (h : U64) : Nat → ω → HT κ → U64 → Nat → Nat → Go (ω × HT κ)
  | 0, _, _, _, _, _ => .error .diverge
  | fuel + 1, w, ht, idx, cnt, pass => do
    let b ← Go.idx ht.buckets idx.toNat
    if b.isEmpty then
      -- 162-185: no entry or chain at this location, make it
      let bs ← Go.set ht.buckets idx.toNat [k]
      traceChkF e k
      pure (w, { ht with buckets := bs, probes := ht.probes + 1, heads := ht.heads + 1 })
    else if ht.oa then
      -- 186-218: open addressing
      let ht := ht.countProbe cnt
      traceChkF e k
      let k0 ← Go.idx b 0
      let (bh, w) ← e.hash w k0 ht.seed
      let ht := ht.countDup bh h
      let idx := idx + 1
      if idx > ht.size - 1 then
        if pass + 1 > 1 then Go.panic "Add: pass"
        else insertLoopF e k h fuel w ht 0 (cnt + 1) (pass + 1)
      else insertLoopF e k h fuel w ht idx (cnt + 1) pass
    else
      -- 219-249: chaining
      let (d, w) ← scanDupsF e ht.seed h b w ht.dups
      let b' := b ++ [k]
      let bs ← Go.set ht.buckets idx.toNat b'
      traceChkF e k
      pure (w, { ht with buckets := bs, dups := d,
                         longestChain := if b'.length > ht.longestChain then b'.length
                                         else ht.longestChain,
                         nbuckets := ht.nbuckets + 1, probes := ht.probes + 1 })

/-- hashtable.go:138-259 `Insert`, after the key has been copied (139-144). -/
def insertF (e : EnvF ω κ) (w : ω) (ht : HT κ) (k : κ) : Go (ω × HT κ) := do
  let ht := { ht with inserts := ht.inserts + 1 }
  let (h, w) ← e.hash w k ht.seed
  let idx ← if ht.prime then
      (if ht.size = 0 then .error .divZero else .ok (h % ht.size))
    else .ok (h &&& ht.sizeMask)
  insertLoopF e k h (2 * ht.size.toNat + 1) w ht idx 0 0

/-- A history of `Insert` calls. The caller of hashtable.go:138-259. -/
def insertAllF (e : EnvF ω κ) : ω → HT κ → List κ → Go (ω × HT κ)
  | w, ht, [] => .ok (w, ht)
  | w, ht, k :: ks => do
    let (w, ht) ← insertF e w ht k
    insertAllF e w ht ks

end Verif.HashTable
