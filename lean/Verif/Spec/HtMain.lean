import Verif.Spec.Ht
import Verif.Spec.HashTable
import Verif.Spec.Hashf
import Verif.Model.HtMain
import Mathlib.Data.Nat.Log
import Mathlib.Data.Finset.Card
import Mathlib.Data.Finset.Dedup

/-!
# What a run of the test program should do (C99, C100)

From the model this file uses only types: the command line (`Flags`, `Flag`), the outside world (`Sys`: hash functions and files), what
the program did (`Event`, `Result`) and a table (`HT`); and the lists of hash functions of package hashf.
-/

namespace Verif.Spec.HtMain
open Verif Verif.Spec.Ht Verif.Spec.HashTable
open Verif.Model.HtMain (Flag Flags Sys Result)
open Verif.HashTable (HT)

/-- The alphabets of the words of test H. -/
def alphabets : List (List U8) := ["abcdefgh", "efghijkl", "ijklmnop", "mnopqrst", "qrstuvwx", "uvwxyz01"].map fun s => s.toList.map fun c => BitVec.ofNat 8 c.toNat

/-- The keys of each test, in order: `ls` are the lines of the file, `ni` the option of that name. -/
def keysFor (ls : List (List U8)) (ni : Int) : Flag → List (List U8)
  | .A => ls.map strip
  | .B => ls.map fun l => strip l ++ [10#8]
  | .C => ls.map fun l => strip l ++ strip l ++ [10#8, 10#8, 10#8, 10#8]
  | .D => ls.map fun l => [65#8, 66#8, 67#8, 68#8, 69#8] ++ strip l
  | .E => ls.map fun l => strip l ++ strip l
  | .F => ls.map fun l => strip l ++ strip l ++ strip l ++ strip l
  | .G => ls.map fun l => strip l ++ strip l ++ strip l ++ strip l
  | .H => (combos alphabets).map spell
  | .I => (List.range ni.toNat).map (leBytes 4)
  | .J => (List.range 7200).map fun j => leBytes 900 (2 ^ j)
  | .L => (List.range (2 ^ 24)).map (beBytes 3)
  | .K => []
  | .M => []

/-- The tests that read the file. -/
def readsFile : Flag → Bool
  | .A | .B | .C | .D | .E | .F | .G | .K => true
  | _ => false

/-- The number of keys a table is asked to hold: `lines` is the number of lines given or counted, `n` the option of that name. -/
def sizeFor (lines n : Int) : Flag → Int
  | .H => 262144
  | .I => n
  | .J => 7200
  | .L => 16777216
  | .M => n
  | _ => lines

/-- The number of buckets of a table asked to hold `size` keys with `extra` extra bits: the least power of two that is not less than
`size` modulo 2^32 (2 for size 1), times `2^extra`; exactly `-size` for a negative size. -/
def slots (extra : Nat) (size : Int) : Nat :=
  if size < 0 then size.natAbs
  else 2 ^ ((if size.toNat % 2 ^ 32 = 1 then 1 else Nat.clog 2 (size.toNat % 2 ^ 32)) + extra)

/-- The tests in the order in which they run. -/
def order : List Flag := [.A, .B, .C, .D, .E, .F, .G, .H, .I, .J, .K, .L, .M]

/-- The tests that are on: those asked for, all but K with `-a`, and I and J if none is asked for and there is no file. -/
def isOn (fl : Flags) (f : Flag) : Bool :=
  let asked : Flag → Bool := fun g => fl.on g || (fl.all && decide (g ≠ .K))
  if fl.file = "" ∧ fl.args = [] ∧ ∀ g ∈ order, asked g = false then f = .I ∨ f = .J else asked f

/-- The files the tests run on. -/
def filesOf (fl : Flags) : List String := if fl.file ≠ "" then [fl.file] else if fl.args ≠ [] then fl.args else [""]

/-- The counters of a chaining table into which these keys have been inserted. -/
structure Counted (keys : List (List U8)) (ht : HT (List U8)) : Prop where
  inserts : ht.inserts = keys.length
  probes : ht.probes = keys.length
  cols : ht.cols = 0
  heads : ht.heads = occupied ht.buckets
  nbuckets : ht.nbuckets = keys.length - ht.heads
  longestChain : ht.longestChain = if longest ht.buckets ≤ 1 then 0 else longest ht.buckets

/-- The counters and contents of an open-addressing table into which these keys have been inserted. -/
structure Opened (keys : List (List U8)) (ht : HT (List U8)) : Prop where
  inserts : ht.inserts = keys.length
  heads : ht.heads = keys.length
  nbuckets : ht.nbuckets = 0
  longestChain : ht.longestChain = 0
  single : ∀ b ∈ ht.buckets, b.length ≤ 1
  contents : ht.buckets.flatten.Perm keys

/-- An open-addressing table of `m` slots into which these keys, with these hashes, have been inserted: between its home slot and the
slot it is in there is no free slot; `Probes` beyond one per key count the keys that are not at home, and with `Cols` the distances. -/
structure OpenFilled (prime : Bool) (m : Nat) (hash : List U8 → U64) (keys : List (List U8)) (ht : HT (List U8)) : Prop where
  probing : ∀ i k, ht.buckets[i]? = some [k] → ∀ d, d < dist m (homeOf prime m (hash k)) i → ht.buckets[(homeOf prime m (hash k) + d) % m]? ≠ some []
  probes : ht.probes = keys.length + sumSlots (fun i k => if homeOf prime m (hash k) = i then 0 else 1) ht.buckets
  cols : ht.cols + sumSlots (fun i k => if homeOf prime m (hash k) = i then 0 else 1) ht.buckets = sumSlots (fun i k => dist m (homeOf prime m (hash k)) i) ht.buckets
  dups : ht.dups = eqPairs (keys.map hash)

/-- A chaining table of `m` buckets into which these keys, with these hashes, have been inserted. -/
structure Filled (prime : Bool) (m : Nat) (hash : List U8 → U64) (keys : List (List U8)) (ht : HT (List U8)) : Prop where
  buckets : ht.buckets = (List.range m).map fun i => keys.filter fun k => homeOf prime m (hash k) = i
  dups : ht.dups = eqPairs (keys.map hash)

/-! ## What a single run leaves behind -/

section one
variable {ω : Type}

/-- The hash of these keys under this name does not panic. -/
def Hashes (sys : Sys ω) (name : String) (seed : U64) (ks : List (List U8)) : Prop := ∀ k ∈ ks, ∀ w, ∃ r, sys.hash w name k seed = .ok r

/-- The number of buckets of a table asked to hold `size` keys: as above, and with `-p` what `primes.NextPrime` makes of that. -/
def room (sys : Sys ω) (fl : Flags) (size : Int) : Nat :=
  if fl.prime then (sys.nextPrime (slots fl.extra.toNat size)).toNat else slots fl.extra.toNat size

/-- With `-p`, `primes.NextPrime` does not make tables smaller, nor too large to be allocated. -/
def PrimeSizes (sys : Sys ω) (fl : Flags) : Prop :=
  fl.prime = true → ∀ m : Nat, 0 < m → m ≤ 2 ^ 43 → (m : Int) ≤ sys.nextPrime m ∧ sys.nextPrime m * 24 ≤ 2 ^ 48

/-- The results of the hash under this name depend only on key and seed. -/
def Determined (sys : Sys ω) (name : String) (G : List U8 → U64 → Go U64) : Prop := ∀ w k s, (sys.hash w name k s).map Prod.fst = G k s

/-- The value where there is one. -/
def valueOf (G : List U8 → U64 → Go U64) (k : List U8) (s : U64) : U64 :=
  match G k s with
  | .ok h => h
  | .error _ => 0#64

/-- The file consists of these newline-terminated lines (and perhaps an unterminated rest), none of them empty or a lone carriage return. -/
def GoodFile (sys : Sys ω) (file : String) (ls : List (List U8)) : Prop :=
  ∃ rest, sys.files file = some ⟨fileOf ls rest, false⟩ ∧ (∀ l ∈ ls, 10#8 ∉ l) ∧ 10#8 ∉ rest ∧ ∀ l ∈ ls, l ≠ [] ∧ l ≠ [13#8]

/-- Why a line cannot be decoded as hexadecimal, if it cannot: it is longer than the buffer, of odd length, or has a character that is no
digit. -/
def hexFault (s : List U8) : Option Fault :=
  if 2002 ≤ s.length then some .slice
  else if s.length % 2 = 1 then some (.explicit "gethex: string must be even")
  else if ∃ c ∈ s, digit c = none then some (.explicit "unhex: bad input")
  else none

/-- The bytes of a hexadecimal string, two digits to a byte, the high one first. -/
def unhexed (s : List U8) : List U8 := (List.range (s.length / 2)).map fun i => BitVec.ofNat 8 (16 * (digit (s.getD (2 * i) 0)).getD 0 + (digit (s.getD (2 * i + 1) 0)).getD 0)

/-- The buffer test K hashes instead of its keys. -/
def zeroKey : List U8 := List.replicate 1000 0#8

/-- What is known about the table of a run: its size and counters, and its contents if the hash depends on key and seed only. -/
structure Table (sys : Sys ω) (fl : Flags) (name : String) (seed : Int) (m : Nat) (keys : List (List U8)) (ht : HT (List U8)) : Prop where
  length : ht.buckets.length = m
  counted : fl.oa = false → Counted keys ht
  filled : fl.oa = false → ∀ G, Determined sys name G → Filled fl.prime m (fun k => valueOf G k (BitVec.ofInt 64 seed)) keys ht
  opened : fl.oa = true → Opened keys ht
  openFilled : fl.oa = true → ∀ G, Determined sys name G → OpenFilled fl.prime m (fun k => valueOf G k (BitVec.ofInt 64 seed)) keys ht

/-- What the run of a test leaves behind: the table; for test L the number of keys minus the number of distinct hashes; for test M the
number of integers in each of the `n` residue classes of the hash; for test K, for each of `ns` consecutive random seeds and each line of
the file, the seed, the line decoded, and the hash of a thousand zero bytes. -/
structure Describes (sys : Sys ω) (fl : Flags) (name : String) (seed lines n : Int) (ls : List (List U8)) (f : Flag) (r : Result) : Prop where
  table : Table sys fl name seed (room sys fl (sizeFor lines n f)) (keysFor ls fl.ni f) r.ht
  dups2 : ∀ G, Determined sys name G → r.dups2 = if f = .L then (keysFor ls fl.ni f).length - ((keysFor ls fl.ni f).map fun k => valueOf G k (BitVec.ofInt 64 seed)).toFinset.card else 0
  hist : ∀ G, Determined sys name G → r.hist = if f = .M then (List.range n.toNat).map (binCount (fun i => (valueOf G (leBytes 4 i) (BitVec.ofInt 64 seed)).toNat % n.toNat) fl.ni.toNat) else []
  printed : ∃ d, ∀ G, Determined sys name G → r.printed = if f = .K then (List.range (fl.ns % 2 ^ 64).toNat).flatMap fun a => ls.map fun l => (sys.rnd (d + a), unhexed (strip l), valueOf G zeroKey (sys.rnd (d + a))) else []

/-- Test K decodes and hashes nothing, or everything. -/
def KRuns (sys : Sys ω) (fl : Flags) (name : String) (ls : List (List U8)) : Prop :=
  fl.ns % 2 ^ 64 = 0 ∨ ls = [] ∨ ((∀ s, Hashes sys name s [zeroKey]) ∧ ∀ l ∈ ls, hexFault (strip l) = none)

/-- Test K panics with `e` in its first round: because there is no hash, or at the first line that cannot be decoded. -/
def KPanics (sys : Sys ω) (fl : Flags) (name : String) (ls : List (List U8)) (e : Fault) : Prop :=
  fl.ns % 2 ^ 64 ≠ 0 ∧ ((ls ≠ [] ∧ ∀ s w, sys.hash w name zeroKey s = .error e) ∨
    ((∀ s, Hashes sys name s [zeroKey]) ∧ ∃ before l after, ls = before ++ l :: after ∧ (∀ x ∈ before, hexFault (strip x) = none) ∧ hexFault (strip l) = some e))

/-- The keys a test hashes: those it inserts, and the integers for test M. -/
def hashedBy (ls : List (List U8)) (ni : Int) (f : Flag) : List (List U8) := if f = .M then (List.range ni.toNat).map (leBytes 4) else keysFor ls ni f

end one

/-! ## What the program does, in order -/

/-- One thing the program does. -/
inductive Step where
  /-- test 0: read the file, print an empty table -/
  | read (file : String)
  /-- this test on this file with this hash function -/
  | test (file : String) (f : Flag) (hash : String)
  | smhasher (hash : String)
  | bench (hash : String)
  | hardcoded
  deriving DecidableEq

/-- The name under which a test is announced; test M calls itself `TestL`. -/
def label : Flag → String
  | .A => "TestA" | .B => "TestB" | .C => "TestC" | .D => "TestD" | .E => "TestE" | .F => "TestF" | .G => "TestG"
  | .H => "TestH" | .I => "TestI" | .J => "TestJ" | .K => "TestK" | .L => "TestL" | .M => "TestL"

/-- What an event is about. -/
def stepOf : Model.HtMain.Event → Step
  | .readOnly file _ => .read file
  | .run _ f hash file _ => .test file f hash
  | .smhasher h => .smhasher h
  | .bench h _ => .bench h
  | .hardcoded _ => .hardcoded

/-- The flags `-c`, `-h32` and `-h64` let this name through: the table of hash functions lists it as cryptographic, of 32 bits, of 64 bits. -/
def passes (fl : Flags) (name : String) : Bool :=
  (!fl.c || (Model.Hashf.entry name).2.2) && (!fl.h32 || (Model.Hashf.entry name).2.1 == 32) && (!fl.h64 || (Model.Hashf.entry name).2.1 == 64)

/-- The hash functions that are tested. -/
def chosen (fl : Flags) : List String := (if fl.hf = "all" then Model.Hashf.TestHashFunctions else [fl.hf]).filter (passes fl)

/-- Everything the program is to do, in order: `-sm` before `-b` and `-hcb` before the tests; the tests file by file, on each file test by
test, and each test with one hash function after the other. -/
def plan (fl : Flags) : List Step :=
  if fl.sm then (if fl.hf = "all" then (chosen fl).map .smhasher else [.smhasher fl.hf])
  else if fl.b ∨ fl.hcb then (if fl.hf = "all" then (chosen fl).map .bench else if fl.hcb then [.hardcoded] else [.bench fl.hf])
  else (filesOf fl).flatMap fun file =>
    (if fl.t0 ∧ file ≠ "" then [.read file] else []) ++ (order.filter (isOn fl)).flatMap fun f => (chosen fl).map (.test file f)

/-- The number of lines a table is made for: the number given, or the number counted. -/
def linesFor (fl : Flags) (file : String) (ls : List (List U8)) : Int := if file ≠ "" ∧ fl.lines ≤ 0 then ls.length else fl.lines

/-- The option `n` as it is used in a step, when it was `n` after the step before: with `-dru` tests I and M change its sign, for good. -/
def next (fl : Flags) (n : Int) : Step → Int
  | .test _ f _ => if fl.dru = true ∧ (f = .I ∨ f = .M) then -n else n
  | _ => n

/-- The seed: the option `-s`, or with `-rr` eight random bytes as a big-endian number. -/
def seedFor {ω : Type} (sys : Sys ω) (fl : Flags) : Option Int :=
  if fl.rr then sys.cr.map fun b => (BitVec.ofNat 64 (beNat b)).toInt
  else some (BitVec.ofInt 64 fl.s).toInt

section chain
variable {ω : Type} (sys : Sys ω) (fl : Flags) (seed : Int) (content : String → List (List U8))

/-- A step that cannot fail when it runs with this `n`: the file can be read, the hash function has a result for all the keys, they are
long enough to be traced, the table can be made, and with open addressing it has room for all the keys. -/
def Runnable (n : Int) : Step → Prop
  | .test file f hash => (f = .K → KRuns sys fl hash (content file)) ∧ (readsFile f = true → file ≠ "") ∧ (f = .I → -(2 : Int) ^ 43 ≤ n) ∧ (f = .M → 0 < n ∧ n ≤ 2 ^ 45) ∧
      Hashes sys hash (BitVec.ofInt 64 seed) (hashedBy (content file) fl.ni f) ∧ (fl.trace = true → ∀ k ∈ keysFor (content file) fl.ni f, 4 ≤ k.length) ∧
      (fl.oa = true → (keysFor (content file) fl.ni f).length ≤ room sys fl (sizeFor (linesFor fl file (content file)) n f))
  | _ => True

/-- This event is the given step, run with this `n`, with the result it should have. -/
def Matches (n : Int) : Step → Model.HtMain.Event → Prop
  | .read file, e => ∃ ht, e = .readOnly file ht ∧ ht.inserts = 0 ∧ ht.probes = 0 ∧ ht.cols = 0 ∧ ht.heads = 0 ∧ ht.nbuckets = 0 ∧ ht.dups = 0 ∧ ht.buckets = List.replicate (room sys fl (linesFor fl file (content file))) []
  | .test file f hash, e => ∃ r, e = .run (label f) f hash file r ∧ Describes sys fl hash seed (linesFor fl file (content file)) n (content file) f r
  | .smhasher h, e => e = .smhasher h
  | .bench h, e => e = .bench h n
  | .hardcoded, e => e = .hardcoded n

/-- The events are these steps, in order, starting with this `n`. -/
def Follows : Int → List Step → List Model.HtMain.Event → Prop
  | _, [], es => es = []
  | n, s :: l, es => ∃ e es', es = e :: es' ∧ Matches sys fl seed content (next fl n s) s e ∧ Follows (next fl n s) l es'

/-- No step of the list can fail, starting with this `n`. -/
def AllRunnable : Int → List Step → Prop
  | _, [] => True
  | n, s :: l => Runnable sys fl seed content (next fl n s) s ∧ AllRunnable (next fl n s) l

/-- A test that panics with `e`: test K as said above; any other at one of its keys: the keys before it go in, and this one has no hash, or with `-t` is too short to be
traced, or with open addressing finds the table full. -/
def Broken (n : Int) : Step → Fault → Prop
  | .test file f hash, e => (readsFile f = true → file ≠ "") ∧ (f = .I → -(2 : Int) ^ 43 ≤ n) ∧ (f = .M → 0 < n ∧ n ≤ 2 ^ 45) ∧
      if f = .K then KPanics sys fl hash (content file) e else ∃ before k after, hashedBy (content file) fl.ni f = before ++ k :: after ∧ Hashes sys hash (BitVec.ofInt 64 seed) before ∧
        (f ≠ .M → fl.trace = true → ∀ x ∈ before, 4 ≤ x.length) ∧
        (f ≠ .M → fl.oa = true → before.length ≤ room sys fl (sizeFor (linesFor fl file (content file)) n f)) ∧
        ((∀ w, sys.hash w hash k (BitVec.ofInt 64 seed) = .error e) ∨
          ((∀ w, ∃ r, sys.hash w hash k (BitVec.ofInt 64 seed) = .ok r) ∧ f ≠ .M ∧
            ((fl.trace = true ∧ k.length < 4 ∧ e = .index) ∨
              ((fl.trace = true → 4 ≤ k.length) ∧ fl.oa = true ∧ before.length = room sys fl (sizeFor (linesFor fl file (content file)) n f) ∧
                e = .explicit "Add: pass"))))
  | _, _ => False

/-- A step that can be run if its keys can be hashed, traced and stored: there is a file where one is needed, and the table size can be
allocated. -/
def Possible (n : Int) : Step → Prop
  | .test file f _ => (readsFile f = true → file ≠ "") ∧ (f = .I → -(2 : Int) ^ 43 ≤ n) ∧ (f = .M → 0 < n ∧ n ≤ 2 ^ 45)
  | _ => True

/-- Every step of the list can be run in that sense, starting with this `n`. -/
def AllPossible : Int → List Step → Prop
  | _, [] => True
  | n, s :: l => Possible (next fl n s) s ∧ AllPossible (next fl n s) l

/-- Whether the hash of a key panics, and how, depends on the key only. -/
def Decided (name : String) : Prop := ∀ k, (∀ s w, ∃ r, sys.hash w name k s = .ok r) ∨ ∃ e, ∀ s w, sys.hash w name k s = .error e

end chain

/-- The number of runs of tests I and M among these steps. -/
def flips (l : List Step) : Nat := l.countP fun
  | .test _ f _ => f = .I ∨ f = .M
  | _ => false

/-- The program with the hash functions of package hashf: what a call returns is what `Hashf` returns after the calls made so far. -/
def hashfSys (e : Model.Hashf.Ext) (nextPrime : Int → Int) (files : String → Option Model.Ht.File) (rnd : Nat → U64) (cr : Option (List U8)) :
    Sys (List (String × List U8 × U64)) where
  hash hist name k s := (Spec.Hashf.resultAfter e hist name k s).map fun h => (h, hist ++ [(name, k, s)])
  nextPrime := nextPrime
  files := files
  rnd := rnd
  cr := cr

end Verif.Spec.HtMain
