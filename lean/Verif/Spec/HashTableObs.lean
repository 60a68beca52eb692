import Verif.Model.HashTable

/-!
# Words for statements about whole tables

These are about the model's tables, but nothing in the model uses them.
-/

namespace Verif.HashTable
open Verif

variable {κ κ' : Type}

/-- The environment of a program whose hash function `H` depends on key and seed only, with keys of any kind; `tr` says which keys the printing code accepts. -/
def pureEnv (H : κ → U64 → U64) (tr : κ → Bool) : Env Unit κ :=
  { hash := fun w k s => (H k s, w), traceOK := tr }

/-- What `NewHashTable` establishes and `Insert` keeps. -/
structure WF (ht : HT κ) : Prop where
  len : ht.buckets.length = ht.size.toNat
  mask : ht.sizeMask = ht.size - 1
  pos : 0 < ht.size.toNat

/-- The same table with each stored key replaced, e.g. a buffer by its contents. -/
def HT.map (f : κ → κ') (ht : HT κ) : HT κ' :=
  { buckets := ht.buckets.map (List.map f), inserts := ht.inserts, cols := ht.cols,
    probes := ht.probes, heads := ht.heads, dups := ht.dups, nbuckets := ht.nbuckets,
    longestChain := ht.longestChain, lines := ht.lines, size := ht.size, sizeLog2 := ht.sizeLog2,
    sizeMask := ht.sizeMask, seed := ht.seed, extra := ht.extra, pd := ht.pd, oa := ht.oa,
    prime := ht.prime }

end Verif.HashTable
