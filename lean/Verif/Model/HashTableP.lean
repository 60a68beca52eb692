import Verif.Model.HashTableF

/-!
# What a panicking `Insert` leaves behind

A caller can recover from a panic in `Insert` and go on using the table. Here the state of the table (and of the hash functions) at the
point of the panic is kept. The fields that only tracing uses (`Tcnt`, `tbs`) and the unused global `ph` are left out, as in Model/HashTable.lean.
-/

namespace Verif.HashTable
open Verif

/-- As `EnvF`; the hash functions keep the state they have at the panic. For hashtable.go:147, 202, 222. -/
structure EnvP (ω κ : Type) where
  hash : ω → κ → U64 → Go U64 × ω
  traceOK : κ → Bool

/-- The state in which a call ends, and the panic, if it ended with one. For hashtable.go:138-259. -/
structure Ended (ω κ : Type) where
  w : ω
  ht : HT κ
  panic : Option Fault

variable {ω κ : Type}

/-- The outcome, without the state at a panic. For hashtable.go:138-259. -/
def Ended.out (r : Ended ω κ) : Go (ω × HT κ) :=
  match r.panic with
  | none => .ok (r.w, r.ht)
  | some f => .error f

/-- The hash functions, without the state at a panic. For hashtable.go:138-259. -/
def EnvP.toF (e : EnvP ω κ) : EnvF ω κ where
  hash w k s := match (e.hash w k s).1 with
    | .ok h => .ok (h, (e.hash w k s).2)
    | .error f => .error f
  traceOK := e.traceOK

/-- hashtable.go:221-231, the duplicate scan of a chain: `ht.Dups` and the state of the hash functions at the end or the panic. -/
def scanDupsP (e : EnvP ω κ) (seed h : U64) : List κ → ω → Nat → Nat × ω × Option Fault
  | [], w, n => (n, w, none)
  | k :: ks, w, n =>
    match e.hash w k seed with
    | (.error f, w) => (n, w, some f)
    | (.ok bh, w) => scanDupsP e seed h ks w (if bh = h then n + 1 else n)

/-- hashtable.go:161-250, the `for { ... }` loop of `Insert`. -/
def insertLoopP (e : EnvP ω κ) (k : κ) (h : U64) : Nat → ω → HT κ → U64 → Nat → Nat → Ended ω κ
  | 0, w, ht, _, _, _ => ⟨w, ht, some .diverge⟩
  | fuel + 1, w, ht, idx, cnt, pass =>
    match ht.buckets[idx.toNat]? with
    | none => ⟨w, ht, some .index⟩
    | some b =>
      if b.isEmpty then
        -- 164: the key goes in; 169-181: tracing; 182-183: the counters
        let ht := { ht with buckets := ht.buckets.set idx.toNat [k] }
        if e.traceOK k then ⟨w, { ht with probes := ht.probes + 1, heads := ht.heads + 1 }, none⟩ else ⟨w, ht, some .index⟩
      else if ht.oa then
        -- 188-192: the counters; 193-200: tracing
        let ht := ht.countProbe cnt
        if e.traceOK k then
          match b[0]? with
          | none => ⟨w, ht, some .index⟩
          | some k0 =>
            match e.hash w k0 ht.seed with
            | (.error f, w) => ⟨w, ht, some f⟩
            | (.ok bh, w) =>
              let ht := ht.countDup bh h
              let idx := idx + 1
              if idx > ht.size - 1 then
                if pass + 1 > 1 then ⟨w, ht, some (.explicit "Add: pass")⟩ else insertLoopP e k h fuel w ht 0 (cnt + 1) (pass + 1)
              else insertLoopP e k h fuel w ht idx (cnt + 1) pass
        else ⟨w, ht, some .index⟩
      else
        -- 221-231: duplicates; 233-237: the key goes in; 240-244: tracing; 245-246: the counters
        match scanDupsP e ht.seed h b w ht.dups with
        | (d, w, some f) => ⟨w, { ht with dups := d }, some f⟩
        | (d, w, none) =>
          let ht := { ht with dups := d, buckets := ht.buckets.set idx.toNat (b ++ [k]),
                              longestChain := if (b ++ [k]).length > ht.longestChain then (b ++ [k]).length else ht.longestChain }
          if e.traceOK k then ⟨w, { ht with nbuckets := ht.nbuckets + 1, probes := ht.probes + 1 }, none⟩ else ⟨w, ht, some .index⟩

/-- hashtable.go:138-259 `Insert`, after the key has been copied (139-144). -/
def insertP (e : EnvP ω κ) (w : ω) (ht : HT κ) (k : κ) : Ended ω κ :=
  let ht := { ht with inserts := ht.inserts + 1 }
  match e.hash w k ht.seed with
  | (.error f, w) => ⟨w, ht, some f⟩
  | (.ok h, w) =>
    if ht.prime then
      if ht.size = 0 then ⟨w, ht, some .divZero⟩ else insertLoopP e k h (2 * ht.size.toNat + 1) w ht (h % ht.size) 0 0
    else insertLoopP e k h (2 * ht.size.toNat + 1) w ht (h &&& ht.sizeMask) 0 0

/-- A history of `Insert` calls by a caller that recovers from every panic: the final state and how each call ended. The caller of hashtable.go:138-259, not in the source. -/
def recoverAll (e : EnvP ω κ) : ω → HT κ → List κ → ω × HT κ × List (Option Fault)
  | w, ht, [] => (w, ht, [])
  | w, ht, k :: ks =>
    let r := insertP e w ht k
    let q := recoverAll e r.w r.ht ks
    (q.1, q.2.1, r.panic :: q.2.2)

end Verif.HashTable
