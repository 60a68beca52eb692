import Verif.Model.Gomap
import Verif.Model.Small
import Verif.Model.Jenkins
import Verif.Model.Spooky
import Verif.Model.Murmur3
import Verif.Model.SipHash
import Verif.Model.Farm
import Verif.Model.Metro
import Verif.Model.Keccak

/-!
# Model of package hashf (/repo/hashf/hashf.go)

`Hashf` dispatches on the global string `Hf2`. It works on global hash objects and buffers, so a call transforms a `State`.
The functions it calls outside /repo (aeshash, sha1, adler32, whirlpool, blake2b) and the C code behind keccak224 are parameters
(`Ext`): the theorems hold whatever they compute.
-/

namespace Verif.Model.Hashf
open Verif

/-- The functions called that are not modelled: `aeshash.Hash`, `aeshash.Hash64`, and the digests of adler32, keccak (C), whirlpool,
blake2b and sha1 (each used as `Reset; Write(k); Sum`, so only the digest of `k` matters). hashf.go:3-40 (imports). -/
structure Ext where
  aesHash : List U8 → U64 → U64
  aesHash64 : U64 → U64 → U64
  adler32 : List U8 → U32
  keccak224 : List U8 → List U8
  whirlpool : List U8 → List U8
  blake2b : List U8 → List U8
  sha1 : List U8 → List U8

/-- The globals of hashf.go:33-57, 222-228, 251-254 that `Hashf` reads or writes. -/
structure State where
  Hf2 : String
  nh : NullHash.State
  nhf64 : NullHash.State
  m332 : Murmur3.Digest U32
  m364 : Murmur3.Digest (U64 × U64)
  k643 : Keccak.Keccak
  k644 : Keccak.Keccak
  k648 : Keccak.Keccak
  k160 : Keccak.Keccak
  fp8 : List U8
  fp20 : List U8
  fp28 : List U8
  fp32 : List U8
  fp64 : List U8
  seeds : List U8
  t : U64
  l : U64
  b : U32
  c : U32

/-- The globals after `init`, hashf.go:222-228, 251-254, 523-540. -/
def init : State where
  Hf2 := ""
  nh := NullHash.New
  nhf64 := NullHash.New
  m332 := Murmur3.new Murmur3.mixer32
  m364 := Murmur3.new Murmur3.mixer128
  k643 := Keccak.NewCustom 64 3
  k644 := Keccak.NewCustom 64 4
  k648 := Keccak.NewCustom 64 8
  k160 := Keccak.New160
  fp8 := List.replicate 8 0#8
  fp20 := List.replicate 20 0#8
  fp28 := List.replicate 28 0#8
  fp32 := List.replicate 32 0#8
  fp64 := List.replicate 64 0#8
  seeds := [0#8, 1#8, 2#8, 3#8, 4#8, 5#8, 6#8, 7#8, 8#8, 9#8, 10#8, 11#8, 12#8, 13#8, 14#8, 15#8]
  t := 0#64
  l := 0#64
  b := 0#32
  c := 0#32

/-- One `case` of the switch: it may change globals and assigns `h`. hashf.go:256-520. -/
abbrev Case := Ext → State → List U8 → U64 → Go (State × U64)

/-- `uint64(x)` of a `uint32`. Go conversion, e.g. hashf.go:262-270. -/
def u64 (x : U32) : U64 := x.setWidth 64

/-- `uint32(x)` of a `uint64`. Go conversion, e.g. hashf.go:262-270. -/
def u32 (x : U64) : U32 := x.setWidth 32

/-- `uint64(fp[0])<<56 | uint64(fp[1])<<48 | ... | uint64(fp[7])<<0`, e.g. hashf.go:281, 410, 417, 445-446. -/
def be8 (fp : List U8) : Go U64 := do
  return (← Go.idx fp 0).setWidth 64 <<< 56 ||| (← Go.idx fp 1).setWidth 64 <<< 48 ||| (← Go.idx fp 2).setWidth 64 <<< 40 |||
    (← Go.idx fp 3).setWidth 64 <<< 32 ||| (← Go.idx fp 4).setWidth 64 <<< 24 ||| (← Go.idx fp 5).setWidth 64 <<< 16 |||
    (← Go.idx fp 6).setWidth 64 <<< 8 ||| (← Go.idx fp 7).setWidth 64 <<< 0

/-- hashf.go:258-263 (the printing is not modelled). -/
def perfecthash : Case := fun _ s k _ => do
  return (s, (← Go.idx k 3).setWidth 64 <<< 24 ||| (← Go.idx k 2).setWidth 64 <<< 16 ||| (← Go.idx k 1).setWidth 64 <<< 8 |||
    (← Go.idx k 0).setWidth 64 <<< 0)

/-- The number in what a nullhash method returned. nullhash/nullhash.go:32-55. -/
def retValue : NullHash.Ret → U64
  | .value v => v
  | _ => 0#64

/-- hashf.go:264-267. -/
def nullhash : Case := fun _ s k _ =>
  let n := (NullHash.call s.nh .reset).1
  let n := (NullHash.call n (.write k)).1
  let r := NullHash.call n .sum64
  .ok ({ s with nh := r.1 }, retValue r.2)

/-- hashf.go:268-269. -/
def nullhashF64ns : Case := fun _ s k _ =>
  let r := NullHash.call s.nhf64 (.hash64S k 0#64)
  .ok ({ s with nhf64 := r.1 }, retValue r.2)

/-- hashf.go:270-271. -/
def gomap64 : Case := fun _ s k seed => do return (s, ← Gomap.Hash64 k seed)
/-- hashf.go:272-273. -/
def gomap32 : Case := fun _ s k seed => do return (s, u64 (← Gomap.Hash32 k (u32 seed)))
/-- hashf.go:274-276. -/
def aeshash64 : Case := fun e s k seed => .ok (s, e.aesHash k seed)
/-- hashf.go:277-279. -/
def aeshash32I : Case := fun e s k seed => do
  return (s, e.aesHash64 ((← Go.idx k 0).setWidth 64 <<< 24 ||| (← Go.idx k 1).setWidth 64 <<< 16 ||| (← Go.idx k 2).setWidth 64 <<< 8 |||
    (← Go.idx k 3).setWidth 64 <<< 0) seed)
/-- hashf.go:280-281. -/
def aeshash64I : Case := fun e s k seed => do return (s, e.aesHash64 (← be8 k) seed)
/-- hashf.go:282-286. -/
def adler32 : Case := fun e s k _ => .ok (s, u64 (e.adler32 k))
/-- hashf.go:287-288. -/
def sbox : Case := fun _ s k seed => do return (s, u64 (← Sbox.Sbox k (u32 seed)))
/-- hashf.go:289-291. -/
def crapWow : Case := fun _ s k seed => do return (s, u64 (← CrapWow.CrapWow k (u32 seed)))
/-- hashf.go:292-293. -/
def maHash8v64 : Case := fun _ s k _ => do return (s, ← MaHash.MaHash8v64 k)
/-- hashf.go:294-296. -/
def j364 : Case := fun _ s k seed => do
  let (c, b) ← Jenkins.Jenkins364 k k.length (u32 seed) (u32 seed)
  return ({ s with c := c, b := b }, u64 b <<< 32 ||| u64 c)
/-- hashf.go:297-299. -/
def j332c : Case := fun _ s k seed => do
  let (c, _) ← Jenkins.Jenkins364 k k.length (u32 seed) (u32 seed)
  return ({ s with c := c }, u64 c)
/-- hashf.go:300-302. -/
def j332b : Case := fun _ s k seed => do
  let (_, b) ← Jenkins.Jenkins364 k k.length (u32 seed) (u32 seed)
  return ({ s with b := b }, u64 b)
/-- hashf.go:303-304. -/
def j232 : Case := fun _ s k seed => do return (s, u64 (← Jenkins.Hash232 k (u32 seed)))
/-- hashf.go:305-306. -/
def j264 : Case := fun _ s k seed => do return (s, ← Jenkins.Hash264 k seed)
/-- hashf.go:307-308. -/
def j264l : Case := fun _ s k seed => do return (s, (← Jenkins.Hash264 k seed) &&& 0xFFFFFFFF#64)
/-- hashf.go:309-311. -/
def j264h : Case := fun _ s k seed => do
  let h ← Jenkins.Hash264 k seed
  return (s, (h >>> 32) &&& 0xFFFFFFFF#64)
/-- hashf.go:313-315. -/
def j264xor : Case := fun _ s k seed => do
  let h ← Jenkins.Hash264 k seed
  return (s, u64 (u32 (h &&& 0xFFFFFFFF#64) ^^^ u32 ((h >>> 32) &&& 0xFFFFFFFF#64)))
/-- hashf.go:317-318. -/
def spooky32 : Case := fun _ s k seed => do return (s, u64 (← Spooky.Hash32 k (u32 seed)))
/-- hashf.go:319-320. -/
def spooky64 : Case := fun _ s k seed => do return (s, ← Spooky.Hash64 k seed)
/-- hashf.go:321-322. -/
def spooky128h : Case := fun _ s k seed => do
  let (h, _) ← Spooky.Hash128 k seed
  return (s, h)
/-- hashf.go:323-324. -/
def spooky128l : Case := fun _ s k seed => do
  let (_, h) ← Spooky.Hash128 k seed
  return (s, h)
/-- hashf.go:325-327. -/
def spooky128xor : Case := fun _ s k seed => do
  let (t, l) ← Spooky.Hash128 k seed
  return ({ s with t := t, l := l }, t ^^^ l)
/-- hashf.go:328-331. -/
def murmur332 : Case := fun _ s k _ => do
  let d := s.m332.reset Murmur3.mixer32
  let (d, _) ← d.write Murmur3.mixer32 k
  let v ← d.sum32
  return ({ s with m332 := d }, u64 v)
/-- hashf.go:332-335. -/
def murmur364 : Case := fun _ s k _ => do
  let d := s.m364.reset Murmur3.mixer128
  let (d, _) ← d.write Murmur3.mixer128 k
  let v ← d.sum64
  return ({ s with m364 := d }, v)
/-- hashf.go:336-337. -/
def siphash64 : Case := fun _ s k _ => do return (s, ← SipHash.Hash 0#64 0#64 k)

/-- `sipSeedSet`, hashf.go:232-237: the eight bytes of the seed, then `seeds[8..15]` from the new `seeds[0..7]`. -/
def sipSeedSet (s : State) (seed : U64) : Go State := do
  let x ← Go.set s.seeds 0 ((seed &&& 0xFF#64).setWidth 8)
  let x ← Go.set x 1 (((seed >>> 8) &&& 0xFF#64).setWidth 8)
  let x ← Go.set x 2 (((seed >>> 16) &&& 0xFF#64).setWidth 8)
  let x ← Go.set x 3 (((seed >>> 24) &&& 0xFF#64).setWidth 8)
  let x ← Go.set x 4 (((seed >>> 32) &&& 0xFF#64).setWidth 8)
  let x ← Go.set x 5 (((seed >>> 40) &&& 0xFF#64).setWidth 8)
  let x ← Go.set x 6 (((seed >>> 48) &&& 0xFF#64).setWidth 8)
  let x ← Go.set x 7 (((seed >>> 56) &&& 0xFF#64).setWidth 8)
  let y ← Go.set x 8 (← Go.idx x 0)
  let y ← Go.set y 9 (← Go.idx x 1)
  let y ← Go.set y 10 (← Go.idx x 2)
  let y ← Go.set y 11 (← Go.idx x 3)
  let y ← Go.set y 12 (← Go.idx x 4)
  let y ← Go.set y 13 (← Go.idx x 5)
  let y ← Go.set y 14 (← Go.idx x 6)
  let y ← Go.set y 15 (← Go.idx x 7)
  return { s with seeds := y }

/-- hashf.go:338-340; `Crounds`, `Drounds` are 2 and 4 (siphashpg/siphash.go:22-25). -/
def siphash64pg : Case := fun _ s k seed => do
  let s ← sipSeedSet s seed
  let (h, _) ← SipHash.Siphash k s.seeds 2 4 false
  return (s, h)
/-- hashf.go:341-342. -/
def farmHash32 : Case := fun _ s k _ => do return (s, u64 ((← Farm.Fingerprint32 k) &&& 0xFFFFFFFF#32))
/-- hashf.go:343-344. -/
def farmHash64 : Case := fun _ s k _ => do return (s, ← Farm.Fingerprint64 k)
/-- hashf.go:345-346. -/
def farmHash128high : Case := fun _ s k _ => do
  let (h, _) ← Farm.Fingerprint128 k
  return (s, h)
/-- hashf.go:347-348. -/
def farmHash128low : Case := fun _ s k _ => do
  let (_, h) ← Farm.Fingerprint128 k
  return (s, h)
/-- hashf.go:349-351. -/
def farmHash128xor : Case := fun _ s k _ => do
  let (t, l) ← Farm.Fingerprint128 k
  return ({ s with t := t, l := l }, t ^^^ l)
/-- hashf.go:352-353. -/
def metroHash64_1 : Case := fun _ s k seed => do return (s, ← Metro.Hash64_1 k (u32 seed))
/-- hashf.go:354-355. -/
def metroHash64_2 : Case := fun _ s k seed => do return (s, ← Metro.Hash64_2 k (u32 seed))
/-- hashf.go:356-357. -/
def metroHash128_1h : Case := fun _ s k seed => do
  let (h, _) ← Metro.Hash128_1 k (u32 seed)
  return (s, h)
/-- hashf.go:358-359. -/
def metroHash128_1l : Case := fun _ s k seed => do
  let (_, h) ← Metro.Hash128_1 k (u32 seed)
  return (s, h)
/-- hashf.go:360-362. -/
def metroHash128_1xor : Case := fun _ s k seed => do
  let (t, l) ← Metro.Hash128_1 k (u32 seed)
  return ({ s with t := t, l := l }, t ^^^ l)
/-- hashf.go:363-364. -/
def metroHash128_2h : Case := fun _ s k seed => do
  let (h, _) ← Metro.Hash128_2 k (u32 seed)
  return (s, h)
/-- hashf.go:365-366. -/
def metroHash128_2l : Case := fun _ s k seed => do
  let (_, h) ← Metro.Hash128_2 k (u32 seed)
  return (s, h)
/-- hashf.go:367-369. -/
def metroHash128_2xor : Case := fun _ s k seed => do
  let (t, l) ← Metro.Hash128_2 k (u32 seed)
  return ({ s with t := t, l := l }, t ^^^ l)
/-- hashf.go:401-410: `fp28 = fp28[0:0]`, then the digest is appended to it. -/
def keccak224 : Case := fun e s k _ => do
  let fp ← Go.slice s.fp28 0 0
  let fp := fp ++ e.keccak224 k
  return ({ s with fp28 := fp }, ← be8 fp)
/-- `Reset; Write(k); Sum(fp)` on a keccakpg object, hashf.go:413-415. -/
def keccakSum (o : Keccak.Keccak) (k fp : List U8) : Go (Keccak.Keccak × List U8) := do
  let (o, _) ← o.Reset.Write k
  o.Sum fp
/-- hashf.go:411-417. -/
def keccakpg643 : Case := fun _ s k _ => do
  let fp ← Go.slice s.fp8 0 0
  let (o, fp) ← keccakSum s.k643 k fp
  return ({ s with fp8 := fp, k643 := o }, ← be8 fp)
/-- hashf.go:418-424. -/
def keccakpg644 : Case := fun _ s k _ => do
  let fp ← Go.slice s.fp8 0 0
  let (o, fp) ← keccakSum s.k644 k fp
  return ({ s with fp8 := fp, k644 := o }, ← be8 fp)
/-- hashf.go:425-431. -/
def keccakpg648 : Case := fun _ s k _ => do
  let fp ← Go.slice s.fp8 0 0
  let (o, fp) ← keccakSum s.k648 k fp
  return ({ s with fp8 := fp, k648 := o }, ← be8 fp)
/-- hashf.go:432-447 (the `if false` branch is dead). -/
def keccakpg160 : Case := fun _ s k _ => do
  let fp ← Go.slice s.fp32 0 0
  let (o, fp) ← keccakSum s.k160 k fp
  return ({ s with fp32 := fp, k160 := o }, ← be8 fp)
/-- hashf.go:482-489. -/
def whirlpool : Case := fun e s k _ => do
  let fp ← Go.slice s.fp64 0 0
  let fp := fp ++ e.whirlpool k
  return ({ s with fp64 := fp }, ← be8 fp)
/-- hashf.go:491-498. -/
def blake2b : Case := fun e s k _ => do
  let fp ← Go.slice s.fp32 0 0
  let fp := fp ++ e.blake2b k
  return ({ s with fp32 := fp }, ← be8 fp)
/-- hashf.go:500-515 (the `if false` branch is dead). -/
def sha1 : Case := fun e s k _ => do
  let fp ← Go.slice s.fp20 0 0
  let fp := fp ++ e.sha1 k
  return ({ s with fp20 := fp }, ← be8 fp)

/-- The cases of the switch of `Hashf` in source order, hashf.go:257-515. -/
def cases : List (String × Case) := [
  ("perfecthash", perfecthash), ("nullhash", nullhash), ("nullhashF64ns", nullhashF64ns), ("gomap64", gomap64), ("gomap32", gomap32),
  ("aeshash64", aeshash64), ("aeshash32I", aeshash32I), ("aeshash64I", aeshash64I), ("adler32", adler32), ("sbox", sbox),
  ("CrapWow", crapWow), ("MaHash8v64", maHash8v64), ("j364", j364), ("j332c", j332c), ("j332b", j332b), ("j232", j232),
  ("j264", j264), ("j264l", j264l), ("j264h", j264h), ("j264xor", j264xor), ("spooky32", spooky32), ("spooky64", spooky64),
  ("spooky128h", spooky128h), ("spooky128l", spooky128l), ("spooky128xor", spooky128xor), ("murmur332", murmur332), ("murmur364", murmur364),
  ("siphash64", siphash64), ("siphash64pg", siphash64pg), ("FarmHash32", farmHash32), ("FarmHash64", farmHash64),
  ("FarmHash128-high", farmHash128high), ("FarmHash128-low", farmHash128low), ("FarmHash128-xor", farmHash128xor),
  ("MetroHash64-1", metroHash64_1), ("MetroHash64-2", metroHash64_2),
  ("MetroHash128-1h", metroHash128_1h), ("MetroHash128-1l", metroHash128_1l), ("MetroHash128-1xor", metroHash128_1xor),
  ("MetroHash128-2h", metroHash128_2h), ("MetroHash128-2l", metroHash128_2l), ("MetroHash128-2xor", metroHash128_2xor),
  ("keccak224", keccak224), ("keccakpg643", keccakpg643), ("keccakpg644", keccakpg644), ("keccakpg648", keccakpg648), ("keccakpg160", keccakpg160),
  ("whirlpool", whirlpool), ("blake2b", blake2b), ("sha1", sha1)]

/-- `Hashf`, hashf.go:256-521: the first case whose string equals `Hf2`, else `panic("hashf")`. -/
def Hashf (e : Ext) (s : State) (k : List U8) (seed : U64) : Go (State × U64) :=
  match cases.lookup s.Hf2 with
  | some f => f e s k seed
  | none => Go.panic "hashf"

/-- A user of the package sets `hashf.Hf2` and calls `Hashf`. A call that panics (and is recovered) leaves the globals as they were:
the panics possible (the default case and the index checks of perfecthash, aeshash32I, aeshash64I, gomap32 and gomap64) come before
any assignment. The caller of hashf.go:256-520, e.g. ht.go:706-796. -/
def session (e : Ext) : State → List (String × List U8 × U64) → List (Go U64)
  | _, [] => []
  | s, (name, k, seed) :: rest =>
    match Hashf e { s with Hf2 := name } k seed with
    | .ok (s', h) => .ok h :: session e s' rest
    | .error f => .error f :: session e s rest

/-- The entries of `HashFunctions` (hashf.go:92-159): map key, `Name`, `Size`, `Crypto`. -/
def HashFunctions : List (String × String × Nat × Bool) := [
  ("perfecthash", "perfecthash", 64, true),
  ("nullhash", "nullhash", 64, true),
  ("nullhashF64ns", "nullhashF64ns", 64, true),
  ("aeshash64", "aeshash64", 64, true),
  ("siphash64", "siphash64", 64, true),
  ("siphash64pg", "siphash64pg", 64, true),
  ("MaHash8v64", "MaHash8v64", 64, false),
  ("spooky32", "spooky32", 32, false),
  ("spooky64", "spooky64", 64, false),
  ("spooky128h", "spooky128h", 64, false),
  ("spooky128l", "spooky128l", 64, false),
  ("spooky128xor", "spooky128xor", 64, false),
  ("j364", "j364", 64, false),
  ("j264", "j264", 64, false),
  ("j332c", "j332c", 32, false),
  ("j332b", "j332b", 32, false),
  ("j232", "j232", 32, false),
  ("j264l", "j264l", 32, false),
  ("j264h", "j264h", 32, false),
  ("j264xor", "j264xor", 32, false),
  ("sbox", "sbox", 32, false),
  ("gomap32", "gomap32", 32, false),
  ("gomap64", "gomap64", 64, false),
  ("murmur332", "murmur332", 32, false),
  ("murmur364", "murmur364", 64, false),
  ("FarmHash32", "FarmHash32", 32, false),
  ("FarmHash64", "FarmHash64", 64, false),
  ("FarmHash128", "FarmHash128", 128, false),
  ("MetroHash64-1", "MetroHash64-1", 64, false),
  ("MetroHash64-2", "MetroHash64-2", 64, false),
  ("MetroHash128-1", "MetroHash128-1", 128, false),
  ("MetroHash128-2", "MetroHash128-2", 128, false),
  ("keccak224", "keccak224", 64, true),
  ("keccakpg643", "keccak643", 64, true),
  ("keccakpg644", "keccak644", 64, true),
  ("keccakpg648", "keccak648", 64, true),
  ("sha1", "sha1", 64, true),
  ("keccak160", "keccak160", 64, true),
  ("whirlpool", "whirlpool", 64, true),
  ("blake2b", "blake2b", 64, true),
  ("CrapWow", "CrapWow", 32, false),
  ("adler32", "adler32", 32, false)]

/-- `HashFunctions[name]`: the zero entry if absent. hashf.go:78-181. -/
def entry (name : String) : String × Nat × Bool := (HashFunctions.lookup name).getD ("", 0, false)

/-- `TestHashFunctions`, hashf.go:167-181. -/
def TestHashFunctions : List String := ["nullhash",
  "aeshash64", "gomap64", "j364", "j264", "murmur364",
  "siphash64",
  "siphash64pg",
  "MaHash8v64", "spooky64", "spooky128h", "spooky128l", "spooky128xor",
  "murmur332", "j332c", "j332b", "j232", "j264l", "j264h", "j264xor", "spooky32", "sbox", "gomap32",
  "FarmHash32",
  "FarmHash64",
  "FarmHash128-low", "FarmHash128-high", "FarmHash128-xor",
  "MetroHash128-2l", "MetroHash128-2h", "MetroHash128-2xor",
  "MetroHash64-1", "MetroHash64-2",
  "MetroHash128-1l", "MetroHash128-1h", "MetroHash128-1xor",
  "MetroHash128-2l", "MetroHash128-2h", "MetroHash128-2xor",
  "sha1", "keccakpg643", "keccak224", "skein256", "whirlpool", "blake2b"]

/-- The hash functions ht.go runs a test with (ht.go:722-732, 858-868, 880-890): the listed ones that pass the flags
`-c` (crypto only), `-h32` and `-h64`. -/
def selected (c h32 h64 : Bool) (hf : List String) : List String :=
  hf.filter fun name =>
    let hi := entry name
    !(c && !hi.2.2) && !(h32 && decide (hi.2.1 ≠ 32)) && !(h64 && decide (hi.2.1 ≠ 64))

end Verif.Model.Hashf
