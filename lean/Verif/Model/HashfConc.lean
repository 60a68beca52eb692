import Verif.Model.Hashf

/-!
# Concurrent calls of `Hashf` (/repo/hashf/hashf.go)

Goroutines that call `Hashf` share its package variables. Each `case` of the switch is written here as the list of its statements, and
goroutines are interleaved statement by statement (sequentially consistent). Statements are executed as a whole; the two-step `ctr++; return ctr` of the null
hashes (nullhash.go:39-42, 52-55) counts as two. Finer interleavings, which Go also allows, only add behaviours.
-/

namespace Verif.Model.HashfConc
open Verif Verif.Model.Hashf

/-- The shared variables: those of `Model.Hashf.State` and, for the hash objects from outside the repository, the bytes written since the last `Reset`. hashf.go:40-56. -/
structure Shared where
  g : State
  a32 : List U8
  k224 : List U8
  wp : List U8
  b2b : List U8
  sha1160 : List U8

/-- One statement: it sees the arguments `k`, `seed` and the local result `h`, and changes shared variables and `h`. One statement of hashf.go:256-520. -/
abbrev Stmt := Ext → Shared → List U8 → U64 → U64 → Go (Shared × U64)

/-- A case of a single statement. hashf.go:256-520. -/
def whole (f : Case) : Stmt := fun e s k seed _ => do
  let (g, h) ← f e s.g k seed
  return ({ s with g := g }, h)

/-- A statement that changes the shared variables only. hashf.go:256-520. -/
def upd (f : Ext → Shared → List U8 → U64 → Go Shared) : Stmt := fun e s k seed h => do
  let s ← f e s k seed
  return (s, h)

/-- The last statement of a case: `h = ...` of shared variables. hashf.go:256-520. -/
def ret (f : Ext → Shared → Go U64) : Stmt := fun e s _ _ _ => do
  let h ← f e s
  return (s, h)

/-- hashf.go:264-267; `Sum64` is `ctr++; return ctr` (nullhash.go:39-42), `Reset` and `Write` do nothing. -/
def nullhash : List Stmt := [
  upd fun _ s _ _ => .ok { s with g := { s.g with nh := (NullHash.call s.g.nh .reset).1 } },
  upd fun _ s k _ => .ok { s with g := { s.g with nh := (NullHash.call s.g.nh (.write k)).1 } },
  upd fun _ s _ _ => .ok { s with g := { s.g with nh := ⟨s.g.nh.ctr + 1#64⟩ } },
  ret fun _ s => .ok s.g.nh.ctr]

/-- hashf.go:268-269; nullhash.go:52-55. -/
def nullhashF64ns : List Stmt := [
  upd fun _ s _ _ => .ok { s with g := { s.g with nhf64 := ⟨s.g.nhf64.ctr + 1#64⟩ } },
  ret fun _ s => .ok s.g.nhf64.ctr]

/-- hashf.go:282-285. -/
def adler32 : List Stmt := [
  upd fun _ s _ _ => .ok { s with a32 := [] },
  upd fun _ s k _ => .ok { s with a32 := s.a32 ++ k },
  ret fun e s => .ok (u64 (e.adler32 s.a32))]

/-- hashf.go:294-296. -/
def j364 : List Stmt := [
  upd (fun _ s k seed => do
    let (c, b) ← Jenkins.Jenkins364 k k.length (u32 seed) (u32 seed)
    return { s with g := { s.g with c := c, b := b } }),
  ret fun _ s => .ok (u64 s.g.b <<< 32 ||| u64 s.g.c)]

/-- hashf.go:297-299. -/
def j332c : List Stmt := [
  upd (fun _ s k seed => do
    let (c, _) ← Jenkins.Jenkins364 k k.length (u32 seed) (u32 seed)
    return { s with g := { s.g with c := c } }),
  ret fun _ s => .ok (u64 s.g.c)]

/-- hashf.go:300-302. -/
def j332b : List Stmt := [
  upd (fun _ s k seed => do
    let (_, b) ← Jenkins.Jenkins364 k k.length (u32 seed) (u32 seed)
    return { s with g := { s.g with b := b } }),
  ret fun _ s => .ok (u64 s.g.b)]

/-- `t, l = f(k, seed); h = t ^ l`, hashf.go:325-327, 349-351, 359-361, 367-369. -/
def xor128 (f : List U8 → U64 → Go (U64 × U64)) : List Stmt := [
  upd (fun _ s k seed => do
    let (t, l) ← f k seed
    return { s with g := { s.g with t := t, l := l } }),
  ret fun _ s => .ok (s.g.t ^^^ s.g.l)]

/-- hashf.go:328-331. -/
def murmur332 : List Stmt := [
  upd fun _ s _ _ => .ok { s with g := { s.g with m332 := s.g.m332.reset Murmur3.mixer32 } },
  upd (fun _ s k _ => do
    let (d, _) ← s.g.m332.write Murmur3.mixer32 k
    return { s with g := { s.g with m332 := d } }),
  ret fun _ s => do return u64 (← s.g.m332.sum32)]

/-- hashf.go:332-335. -/
def murmur364 : List Stmt := [
  upd fun _ s _ _ => .ok { s with g := { s.g with m364 := s.g.m364.reset Murmur3.mixer128 } },
  upd (fun _ s k _ => do
    let (d, _) ← s.g.m364.write Murmur3.mixer128 k
    return { s with g := { s.g with m364 := d } }),
  ret fun _ s => s.g.m364.sum64]

/-- hashf.go:338-340. -/
def siphash64pg : List Stmt := [
  upd (fun _ s _ seed => do
    let g ← sipSeedSet s.g seed
    return { s with g := g }),
  fun _ s k _ _ => do
    let (h, _) ← SipHash.Siphash k s.g.seeds 2 4 false
    return (s, h)]

/-- The five statements of the cases that use a fingerprint buffer and an object of package keccakpg, hashf.go:411-447. -/
def keccakpg (fp : State → List U8) (setFp : State → List U8 → State) (obj : State → Keccak.Keccak) (setObj : State → Keccak.Keccak → State) : List Stmt := [
  upd (fun _ s _ _ => do return { s with g := setFp s.g (← Go.slice (fp s.g) 0 0) }),
  upd fun _ s _ _ => .ok { s with g := setObj s.g (obj s.g).Reset },
  upd (fun _ s k _ => do
    let (o, _) ← (obj s.g).Write k
    return { s with g := setObj s.g o }),
  upd (fun _ s _ _ => do
    let (o, d) ← (obj s.g).Sum (fp s.g)
    return { s with g := setObj (setFp s.g d) o }),
  ret fun _ s => be8 (fp s.g)]

/-- hashf.go:401-410. -/
def keccak224 : List Stmt := [
  upd (fun _ s _ _ => do return { s with g := { s.g with fp28 := (← Go.slice s.g.fp28 0 0) } }),
  upd fun _ s _ _ => .ok { s with k224 := [] },
  upd fun _ s k _ => .ok { s with k224 := s.k224 ++ k },
  upd fun e s _ _ => .ok { s with g := { s.g with fp28 := s.g.fp28 ++ e.keccak224 s.k224 } },
  ret fun _ s => be8 s.g.fp28]

/-- hashf.go:482-489. -/
def whirlpool : List Stmt := [
  upd (fun _ s _ _ => do return { s with g := { s.g with fp64 := (← Go.slice s.g.fp64 0 0) } }),
  upd fun _ s _ _ => .ok { s with wp := [] },
  upd fun _ s k _ => .ok { s with wp := s.wp ++ k },
  upd fun e s _ _ => .ok { s with g := { s.g with fp64 := s.g.fp64 ++ e.whirlpool s.wp } },
  ret fun _ s => be8 s.g.fp64]

/-- hashf.go:491-498. -/
def blake2b : List Stmt := [
  upd (fun _ s _ _ => do return { s with g := { s.g with fp32 := (← Go.slice s.g.fp32 0 0) } }),
  upd fun _ s _ _ => .ok { s with b2b := [] },
  upd fun _ s k _ => .ok { s with b2b := s.b2b ++ k },
  upd fun e s _ _ => .ok { s with g := { s.g with fp32 := s.g.fp32 ++ e.blake2b s.b2b } },
  ret fun _ s => be8 s.g.fp32]

/-- hashf.go:500-515; here the buffer is cut after the key is written. -/
def sha1 : List Stmt := [
  upd fun _ s _ _ => .ok { s with sha1160 := [] },
  upd fun _ s k _ => .ok { s with sha1160 := s.sha1160 ++ k },
  upd (fun _ s _ _ => do return { s with g := { s.g with fp20 := (← Go.slice s.g.fp20 0 0) } }),
  upd fun e s _ _ => .ok { s with g := { s.g with fp20 := s.g.fp20 ++ e.sha1 s.sha1160 } },
  ret fun _ s => be8 s.g.fp20]

/-- The cases of the switch in source order, hashf.go:257-515. -/
def stmts : List (String × List Stmt) := [
  ("perfecthash", [whole perfecthash]), ("nullhash", nullhash), ("nullhashF64ns", nullhashF64ns), ("gomap64", [whole gomap64]), ("gomap32", [whole gomap32]),
  ("aeshash64", [whole aeshash64]), ("aeshash32I", [whole aeshash32I]), ("aeshash64I", [whole aeshash64I]), ("adler32", adler32), ("sbox", [whole sbox]),
  ("CrapWow", [whole crapWow]), ("MaHash8v64", [whole maHash8v64]), ("j364", j364), ("j332c", j332c), ("j332b", j332b), ("j232", [whole j232]),
  ("j264", [whole j264]), ("j264l", [whole j264l]), ("j264h", [whole j264h]), ("j264xor", [whole j264xor]), ("spooky32", [whole spooky32]),
  ("spooky64", [whole spooky64]), ("spooky128h", [whole spooky128h]), ("spooky128l", [whole spooky128l]), ("spooky128xor", xor128 Spooky.Hash128),
  ("murmur332", murmur332), ("murmur364", murmur364), ("siphash64", [whole siphash64]), ("siphash64pg", siphash64pg), ("FarmHash32", [whole farmHash32]),
  ("FarmHash64", [whole farmHash64]), ("FarmHash128-high", [whole farmHash128high]), ("FarmHash128-low", [whole farmHash128low]),
  ("FarmHash128-xor", xor128 fun k _ => Farm.Fingerprint128 k), ("MetroHash64-1", [whole metroHash64_1]), ("MetroHash64-2", [whole metroHash64_2]),
  ("MetroHash128-1h", [whole metroHash128_1h]), ("MetroHash128-1l", [whole metroHash128_1l]),
  ("MetroHash128-1xor", xor128 fun k seed => Metro.Hash128_1 k (u32 seed)),
  ("MetroHash128-2h", [whole metroHash128_2h]), ("MetroHash128-2l", [whole metroHash128_2l]),
  ("MetroHash128-2xor", xor128 fun k seed => Metro.Hash128_2 k (u32 seed)),
  ("keccak224", keccak224),
  ("keccakpg643", keccakpg (·.fp8) (fun s x => { s with fp8 := x }) (·.k643) (fun s o => { s with k643 := o })),
  ("keccakpg644", keccakpg (·.fp8) (fun s x => { s with fp8 := x }) (·.k644) (fun s o => { s with k644 := o })),
  ("keccakpg648", keccakpg (·.fp8) (fun s x => { s with fp8 := x }) (·.k648) (fun s o => { s with k648 := o })),
  ("keccakpg160", keccakpg (·.fp32) (fun s x => { s with fp32 := x }) (·.k160) (fun s o => { s with k160 := o })),
  ("whirlpool", whirlpool), ("blake2b", blake2b), ("sha1", sha1)]

/-- The statements executed by a call with `Hf2 = name`, hashf.go:256-521. -/
def body (name : String) : List Stmt := (stmts.lookup name).getD [fun _ _ _ _ _ => Go.panic "hashf"]

/-- A goroutine inside `Hashf`: its arguments, the statements still to be executed, and the local result. For hashf.go:256-520. -/
structure Thread where
  k : List U8
  seed : U64
  left : List Stmt
  h : U64

/-- A goroutine about to call `Hashf(k, seed)`. For hashf.go:256-520. -/
def start (name : String) (c : List U8 × U64) : Thread := ⟨c.1, c.2, body name, 0#64⟩

/-- Goroutine `i` executes its next statement, if it has one. A panic ends the program. Go's scheduler, not in the source; for hashf.go:256-520. -/
def step (e : Ext) (i : Nat) : Shared × List Thread → Go (Shared × List Thread)
  | (s, ts) =>
    match ts[i]? with
    | none => .ok (s, ts)
    | some t => match t.left with
      | [] => .ok (s, ts)
      | f :: rest => do
        let (s, h) ← f e s t.k t.seed t.h
        return (s, ts.set i { t with left := rest, h := h })

/-- The scheduler lets the goroutines `sched` run one statement each, in this order. Go's scheduler, not in the source; for hashf.go:256-520. -/
def run (e : Ext) : List Nat → Shared × List Thread → Go (Shared × List Thread)
  | [], x => .ok x
  | i :: sched, x => do
    let x ← step e i x
    run e sched x

/-- The package variables after a sequence of calls one after the other, each with its `Hf2`; a call that panics leaves them unchanged
(see `Model.Hashf.session`). The callers of hashf.go:256-520. -/
def after (e : Ext) : State → List (String × List U8 × U64) → State
  | s, [] => s
  | s, (name, k, seed) :: rest =>
    match Hashf e { s with Hf2 := name } k seed with
    | .ok (s', _) => after e s' rest
    | .error _ => after e s rest

end Verif.Model.HashfConc
