import Verif.Model.Ht
import Verif.Model.HashTableF
import Verif.Model.Hashf

/-!
# Model of the test program's control flow: the test functions of /repo/ht.go, `runTestsWithFileAndHashes` and `main`

Printing is modelled as a list of events: one per completed run of a test with a hash function (what `Print` then formats), one
per call of the benchmarks or of SMHasher. Timing is not modelled. What the benchmarks and SMHasher do is not modelled here.
-/

namespace Verif.Model.HtMain
open Verif Verif.Model.Ht
open Verif.HashTable (HT EnvF newHashTable)

/-- The flags that switch tests on, ht.go:779-791. -/
inductive Flag where
  | A | B | C | D | E | F | G | H | I | J | K | L | M
  deriving DecidableEq, Repr

/-- The test functions. ht.go:683-704. -/
inductive Fn where
  | file (t : FileTest)
  | H | I | J | K | L | M
  deriving DecidableEq, Repr

/-- The `Tests` table, ht.go:690-704: name, flag, function (the description is left out). -/
def Tests : List (String × Flag × Fn) :=
  [("TestA", .A, .file .A), ("TestB", .B, .file .B), ("TestC", .C, .file .C), ("TestD", .D, .file .D), ("TestE", .E, .file .E),
   ("TestF", .F, .file .F), ("TestG", .G, .file .F), ("TestH", .H, .H), ("TestI", .I, .I), ("TestJ", .J, .J), ("TestK", .K, .K),
   ("TestL", .L, .L), ("TestL", .M, .M)]

/-- `TestPointers`, ht.go:796. -/
def TestPointers : List Flag := [.A, .B, .C, .D, .E, .F, .G, .H, .I, .J, .K, .L, .M]

/-- The command line, ht.go:744-793: the flags that matter for what is run, and the positional arguments. -/
structure Flags where
  file : String
  lines : Int
  hf : String
  extra : Int
  prime : Bool
  all : Bool
  pd : Bool
  oa : Bool
  s : Int
  rr : Bool
  c : Bool
  h32 : Bool
  h64 : Bool
  b : Bool
  hcb : Bool
  sm : Bool
  ni : Int
  n : Int
  dru : Bool
  ns : Int
  trace : Bool
  t0 : Bool
  on : Flag → Bool
  args : List String

/-- What is outside the program. `hash` is `hashf.Hashf` under a name; it has a state of type `ω` (package hashf keeps global
objects, and two of its functions count calls). `rnd i` is the result of the `i`th call of `rbetween(0, 1<<63)`. For ht.go:1-35 (imports). -/
structure Sys (ω : Type) where
  hash : ω → String → List U8 → U64 → Go (U64 × ω)
  nextPrime : Int → Int
  files : String → Option File
  rnd : Nat → U64
  /-- the eight bytes read from crypto/rand, `none` if that fails -/
  cr : Option (List U8)

/-- The variables that survive from one test to the next: the state of the hash functions, `*n`, and the number of random seeds drawn. Package variables used by ht.go:706-796. -/
structure St (ω : Type) where
  w : ω
  n : Int
  drawn : Nat

/-- What a test function leaves behind: its table, `Dups2` (TestL), the histogram (TestM), the printed lines (TestK). -/
structure Result where
  ht : HT (List U8)
  dups2 : Nat := 0
  hist : List Nat := []
  printed : List (U64 × List U8 × U64) := []
  deriving DecidableEq

section tests
variable {ω : Type} (sys : Sys ω) (fl : Flags) (name : String)

/-- `hashf.Hashf` as `Insert` uses it: on the new key, and on keys already in the table; each call can panic. hashtable.go:147, 202, 222. -/
def env : EnvF ω (List U8) where
  hash w k s := sys.hash w name k s
  traceOK k := !fl.trace || decide (4 ≤ k.length)

/-- `ht.Insert(k)`. ht.go:89-397. -/
def insert1 (w : ω) (ht : HT (List U8)) (k : List U8) : Go (ω × HT (List U8)) := HashTable.insertF (env sys fl name) w ht k

/-- A sequence of `ht.Insert` calls. ht.go:89-397. -/
def insertKeys : ω → HT (List U8) → List (List U8) → Go (ω × HT (List U8))
  | w, ht, [] => .ok (w, ht)
  | w, ht, k :: ks => do
    let (w, ht) ← insert1 sys fl name w ht k
    insertKeys w ht ks

/-- The loop of `TestL`, ht.go:272-280: every key is hashed, the hash recorded, and the key inserted. -/
def insertL : ω → HT (List U8) → List U64 → List (List U8) → Go (ω × HT (List U8) × List U64)
  | w, ht, hs, [] => .ok (w, ht, hs)
  | w, ht, hs, k :: ks => do
    let (h, w) ← sys.hash w name k ht.seed
    let (w, ht) ← insert1 sys fl name w ht k
    insertL w ht (hs ++ [h]) ks

/-- `ReadFile(file, hashLine)` in `TestK`, ht.go:362-367, 373: the printed lines. -/
def hashLines (rseed : U64) : ω → List (List U8) → Go (ω × List (U64 × List U8 × U64))
  | w, [] => .ok (w, [])
  | w, l :: ls => do
    let (h, w) ← sys.hash w name (List.replicate 1000 0#8) rseed
    let p ← hashLine (fun _ _ => h) rseed (List.replicate 1000 0#8) l
    let (w, ps) ← hashLines rseed w ls
    return (w, p :: ps)

/-- The loop of `TestK` over `ns` seeds, ht.go:371-374. -/
def seedLoop (f : Option File) : Nat → ω → Nat → Go (ω × Nat × List (U64 × List U8 × U64))
  | 0, w, d => .ok (w, d, [])
  | a + 1, w, d => do
    let r := ReadFile f
    let (w, ps) ← hashLines sys name (sys.rnd d) w r.calls
    let _ ← r.out
    let (w, d, qs) ← seedLoop f a w (d + 1)
    return (w, d, ps ++ qs)

/-- The loop of `TestM`, ht.go:302-307. -/
def modLoop (seed : U64) (mod : U64) : Nat → Nat → ω → List U8 × List Nat → Go (ω × List U8 × List Nat)
  | _, 0, w, q => .ok (w, q)
  | i, k + 1, w, q => do
    let (h, w) ← sys.hash w name [BitVec.ofNat 8 i, BitVec.ofNat 8 (i >>> 8), BitVec.ofNat 8 (i >>> 16), BitVec.ofNat 8 (i >>> 24)] seed
    let q ← testMBody (fun _ => h) mod i q
    modLoop seed mod (i + 1) k w q

/-- `NewHashTable(size, seed, *extra, *pd, *oa, *prime)`. ht.go:89-397, e.g. 91. -/
def newTable (seed size : Int) : Go (HT (List U8)) := newHashTable sys.nextPrime size seed fl.extra fl.pd fl.oa fl.prime

/-- The test functions: TestA-TestG ht.go:89-196, TestH 198-215, TestI 218-235, TestJ 238-256, TestL 259-287, TestM 290-313, TestK
358-378. `seed` is the global of that name. -/
def runFn (seed : Int) (file : String) (lines : Int) (st : St ω) : Fn → Go (Result × St ω)
  | .file t => do
    let ht ← newTable sys fl seed lines
    let r := ReadFile (sys.files file)
    let (w, ht) ← insertKeys sys fl name st.w ht (r.calls.map t.key)
    let _ ← r.out
    return ({ ht := ht }, { st with w := w })
  | .H => do
    let r := genWords letters
    let _ ← r.out
    let ht ← newTable sys fl seed r.calls.length
    let (w, ht) ← insertKeys sys fl name st.w ht r.calls
    return ({ ht := ht }, { st with w := w })
  | .I => do
    let n := if fl.dru then -st.n else st.n
    let ht ← newTable sys fl seed n
    let (_, keys) ← testI fl.ni
    let (w, ht) ← insertKeys sys fl name st.w ht keys
    return ({ ht := ht }, { st with w := w, n := n })
  | .J => do
    let ht ← newTable sys fl seed (900 * 8)
    let (_, keys) ← testJ 900
    let (w, ht) ← insertKeys sys fl name st.w ht keys
    return ({ ht := ht }, { st with w := w })
  | .K => do
    let ht ← newTable sys fl seed lines
    let (w, d, ps) ← seedLoop sys name (sys.files file) (BitVec.ofInt 64 fl.ns).toNat st.w st.drawn
    return ({ ht := ht, printed := ps }, { st with w := w, drawn := d })
  | .L => do
    let ht ← newTable sys fl seed (256 * 256 * 256)
    let (_, keys) ← testL
    let (w, ht, hs) ← insertL sys fl name st.w ht [] keys
    return ({ ht := ht, dups2 := hs.length - hs.dedup.length }, { st with w := w })
  | .M => do
    let n := if fl.dru then -st.n else st.n
    if n < 0 ∨ 2 ^ 48 < 8 * n then Go.panic "makeslice: len out of range" else
    let ht ← newTable sys fl seed n
    let (w, _, hist) ← modLoop sys name ht.seed (BitVec.ofInt 64 n) 0 fl.ni.toNat st.w (List.replicate 4 0#8, List.replicate n.toNat 0)
    if n = 0 then .error .divZero else -- ht.go:310, `*ni / *n`
    return ({ ht := ht, hist := hist }, { st with w := w, n := n })

end tests

/-! ## Events -/

/-- What the program does, in order. ht.go:706-947. -/
inductive Event where
  /-- `Test0` read the file and its (empty) table was printed -/
  | readOnly (file : String) (ht : HT (List U8))
  /-- a test, announced as `test`, ran with the hash `hash` on `file` and its result was printed -/
  | run (test : String) (flag : Flag) (hash file : String) (r : Result)
  /-- `smhasher.RunSMhasher(hash, *v)` -/
  | smhasher (hash : String)
  /-- `benchmark32g(nil, hash, n)` -/
  | bench (hash : String) (n : Int)
  /-- `benchmark32s(n)` -/
  | hardcoded (n : Int)
  deriving DecidableEq

/-- Events up to the end or the first panic, and how it ended. For ht.go:706-947. -/
structure Tr (α : Type) where
  events : List Event
  out : Go α

/-- Go's sequencing: the rest does not run after a panic (language semantics, not in the source). -/
def Tr.bind {α β : Type} (x : Tr α) (f : α → Tr β) : Tr β :=
  match x.out with
  | .error e => ⟨x.events, .error e⟩
  | .ok a => ⟨x.events ++ (f a).events, (f a).out⟩

/-- `for _, v := range l { body }`. For ht.go:706-796. -/
def forEach {α σ : Type} (body : α → σ → Tr σ) : List α → σ → Tr σ
  | [], s => ⟨[], .ok s⟩
  | a :: l, s => (body a s).bind (forEach body l)

section
variable {ω : Type} (sys : Sys ω) (fl : Flags)

/-- The inner loop's body, ht.go:734-740. -/
def runOne (seed : Int) (file : String) (lines : Int) (t : String × Flag × Fn) (name : String) (st : St ω) : Tr (St ω) :=
  match runFn sys fl name seed file lines st t.2.2 with
  | .error e => ⟨[], .error e⟩
  | .ok (r, st) => ⟨[.run t.1 t.2.1 name file r], .ok st⟩

/-- `Test0`, ht.go:76-87. -/
def test0 (seed : Int) (file : String) (lines : Int) : Go (HT (List U8)) := do
  let ht ← newTable sys fl seed lines
  let _ ← (ReadFile (sys.files file)).out
  return ht

/-- `runTestsWithFileAndHashes`, ht.go:706-742. `on` are the flags as they are when it is called. -/
def runTests (on : Flag → Bool) (seed : Int) (file : String) (lines : Int) (hf : List String) (st : St ω) : Tr (St ω) :=
  let pre : Tr Int :=
    if file ≠ "" then
      match (if lines ≤ 0 then (ReadFile (sys.files file)).out.map Int.ofNat else .ok lines) with
      | .error e => ⟨[], .error e⟩
      | .ok lines =>
        if fl.t0 then
          match test0 sys fl seed file lines with
          | .error e => ⟨[], .error e⟩
          | .ok ht => ⟨[.readOnly file ht], .ok lines⟩
        else ⟨[], .ok lines⟩
    else ⟨[], .ok lines⟩
  pre.bind fun lines =>
    forEach (fun t st =>
      if on t.2.1 then
        forEach (fun name st =>
          if Hashf.selected fl.c fl.h32 fl.h64 [name] = [] then ⟨[], .ok st⟩ else runOne sys fl seed file lines t name st) hf st
      else ⟨[], .ok st⟩) Tests st

/-- `allTestsOn`, ht.go:798-800: every flag but `K`. -/
def allTestsOn (on : Flag → Bool) : Flag → Bool := fun f => if f = .K then on f else true

/-- `allTestsOff`, ht.go:802-804: every flag but `K`. -/
def allTestsOff (on : Flag → Bool) : Flag → Bool := fun f => if f = .K then on f else false

/-- The seed from eight random bytes, ht.go:846-847. -/
def seedOf (b : List U8) : Go Int := do
  let b0 ← Go.idx b 0
  let b1 ← Go.idx b 1
  let b2 ← Go.idx b 2
  let b3 ← Go.idx b 3
  let b4 ← Go.idx b 4
  let b5 ← Go.idx b 5
  let b6 ← Go.idx b 6
  let b7 ← Go.idx b 7
  return (b0.setWidth 64 <<< 56 ||| b1.setWidth 64 <<< 48 ||| b2.setWidth 64 <<< 40 ||| b3.setWidth 64 <<< 32 |||
    b4.setWidth 64 <<< 24 ||| b5.setWidth 64 <<< 16 ||| b6.setWidth 64 <<< 8 ||| b7.setWidth 64 <<< 0 : U64).toInt

/-- The hash functions a test run goes through: all of `TestHashFunctions` or the one given. ht.go:806-947. -/
def hashes : List String := if fl.hf = "all" then Hashf.TestHashFunctions else [fl.hf]

/-- ht.go:858-875, 879-897: the loop over the selected names. -/
def eachSelected (ev : String → Event) : List Event :=
  (Hashf.TestHashFunctions.filter fun name => Hashf.selected fl.c fl.h32 fl.h64 [name] ≠ []).map ev

/-- The switch of `main`, ht.go:856-940, with the seed chosen. -/
def mainSwitch (on : Flag → Bool) (b : Bool) (seed : Int) (st : St ω) : Tr (St ω) :=
  if fl.sm then
    if fl.hf = "all" then ⟨eachSelected fl .smhasher, .ok st⟩ else ⟨[.smhasher fl.hf], .ok st⟩
  else if b then
    if fl.hf = "all" then ⟨eachSelected fl (fun h => .bench h st.n), .ok st⟩
    else if fl.hcb then ⟨[.hardcoded st.n], .ok st⟩ else ⟨[.bench fl.hf st.n], .ok st⟩
  else if fl.file ≠ "" then runTests sys fl on seed fl.file fl.lines (hashes fl) st
  else if fl.args ≠ [] then forEach (fun v st => runTests sys fl on seed v fl.lines (hashes fl) st) fl.args st
  else
    let cnt := (TestPointers.filter on).length
    let on : Flag → Bool := if cnt = 0 then (fun f => if f = .I ∨ f = .J then true else allTestsOff on f) else on
    runTests sys fl on seed "" fl.lines (hashes fl) st

/-- `main`, ht.go:806-941. -/
def main (w : ω) : Tr (St ω) :=
  let on := if fl.all then allTestsOn fl.on else fl.on
  let b := if fl.hcb then true else fl.b
  let st : St ω := ⟨w, fl.n, 0⟩
  if fl.rr then
    match sys.cr with
    | none => ⟨[], .ok st⟩
    | some bs =>
      match seedOf bs with
      | .error e => ⟨[], .error e⟩
      | .ok seed => mainSwitch sys fl on b seed st
  else mainSwitch sys fl on b (BitVec.ofInt 64 fl.s).toInt st

end

end Verif.Model.HtMain
