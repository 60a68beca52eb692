import Verif.Model.Smhasher
import Verif.Model.Hashf

/-!
# Model of a whole run of package smhasher (/repo/smhasher/smhasher.go, `RunSMhasher`)

The hash function is any operation that may change global state and may panic (`Hash`); with `Hashf.Hashf` it is the one of package
hashf. The random number generator (every test seeds its own with 1234) is an arbitrary sequence `r` of 32-bit numbers. No test looks at
a hash value to choose its next key, so where `Model.Smhasher` has the keys of a test as a list, the model first makes the list and then
hashes the keys one after the other. What is printed apart from the reports (names of the tests, sizes, times) is not modelled, nor is
how many reports precede a panic.
-/

namespace Verif.Model.RunSM
open Verif Verif.Model.Smhasher

/-- `hashf.Hashf(k, seed)` in the global state `ω`. smhasher.go:96-127. -/
abbrev Hash (ω : Type) := ω → List U8 → U64 → Go (ω × U64)

/-- The two reports: smhasher.go:154 and 196 (of the latter only the number of collisions). -/
inductive Event where
  | depends
  | collisions (got : Nat)
  deriving DecidableEq, Repr

/-- What a test did: its result (which `RunSMhasher` ignores, line 696) and its reports. -/
structure Out where
  ret : Bool
  events : List Event
  deriving DecidableEq

section
variable {ω : Type} (hf : Hash ω) (r : Nat → U32)

/-- `randBytes`, smhasher.go:637-641: `n` bytes from the generator after `pos` numbers have been drawn. -/
def randBytes (pos n : Nat) : List U8 := (List.range n).map fun i => (r (pos + i)).setWidth 8

/-- `BytesHash`, smhasher.go:96-100. -/
def BytesHash (w : ω) (b : List U8) (seed : U64) : Go (ω × U64) := hf w b seed

/-- `StringHash`, smhasher.go:102-109. -/
def StringHash (w : ω) (s : List U8) (seed : U64) : Go (ω × U64) :=
  let b := List.replicate s.length 0#8
  let b := s.take b.length ++ b.drop s.length
  hf w b seed

/-- `Key.hash`, smhasher.go:434-436, 457-459, 480-482, with `BytesHash`, `Int32Hash` and `Int64Hash` (96-100, 111-128). -/
def keyHash (w : ω) : Key → Go (ω × U64)
  | .bytes b => BytesHash hf w b 0
  | .int32 i => hf w [(i &&& 0xFF).setWidth 8, ((i >>> 8) &&& 0xFF).setWidth 8, ((i >>> 16) &&& 0xFF).setWidth 8, ((i >>> 24) &&& 0xFF).setWidth 8] 0
  | .int64 i => hf w [(i &&& 0xFF).setWidth 8, ((i >>> 8) &&& 0xFF).setWidth 8, ((i >>> 16) &&& 0xFF).setWidth 8, ((i >>> 24) &&& 0xFF).setWidth 8,
     ((i >>> 32) &&& 0xFF).setWidth 8, ((i >>> 40) &&& 0xFF).setWidth 8, ((i >>> 48) &&& 0xFF).setWidth 8, ((i >>> 56) &&& 0xFF).setWidth 8] 0

/-- One iteration of `TestSmhasherSanity`, smhasher.go:147-156. State: globals, numbers drawn, result and reports. -/
def sanityBody (n i : Nat) (q : ω × Nat × Out) : Go (ω × Nat × Out) := do
  let (w, pos, o) := q
  let b := randBytes r pos 176
  let c := randBytes r (pos + 176) 176
  let (x, y) ← sanityStep b c n i
  let (w, h1) ← BytesHash hf w x 0
  let (w, h2) ← BytesHash hf w y 0
  return (w, pos + 352, if h1 ≠ h2 then ⟨true, o.events ++ [.depends]⟩ else o)

/-- `TestSmhasherSanity`, smhasher.go:138-163. -/
def sanity (w : ω) : Go (ω × Out) := do
  let (w, _, o) ← Go.forRange 0 10 (fun _ => Go.forRange 0 128 fun n => Go.forRange 0 16 fun i => sanityBody hf r n i) (w, 0, ⟨false, []⟩)
  return (w, o)

/-- `check`, smhasher.go:186-199: its result and what it prints. -/
noncomputable def check (s : HashSet) : Out :=
  open Classical in if s.check then ⟨true, [.collisions (s.n - s.m.length)]⟩ else ⟨false, []⟩

/-- `h.add(hash of a key)` for each key of a list, in order: `hash` is `addB`, `addS` (smhasher.go:177-182) or `h.add(k.hash())` (line 582). -/
def addEach {α : Type} (hash : ω → α → Go (ω × U64)) : ω → HashSet → List α → Go (ω × HashSet)
  | w, s, [] => .ok (w, s)
  | w, s, k :: ks => do
    let (w, h) ← hash w k
    addEach hash w (s.add h) ks

/-- `newHashSet()`, an `add` for each key, and `check()`. smhasher.go:165-199. -/
noncomputable def checkSet {α : Type} (hash : ω → α → Go (ω × U64)) (w : ω) (keys : List α) : Go (ω × Out) := do
  let (w, s) ← addEach hash w HashSet.new keys
  return (w, check s)

/-- `h.addB(b)`, smhasher.go:180-182. -/
def hashB (w : ω) (b : List U8) : Go (ω × U64) := BytesHash hf w b 0

/-- Two tests one after the other; the result is true if one of them is. smhasher.go:689-703. -/
def Out.append (a b : Out) : Out := ⟨a.ret || b.ret, a.events ++ b.events⟩

/-- One set after the other, `ret` true if one `check` was. smhasher.go:202-340. -/
noncomputable def checkSets {α : Type} (hash : ω → α → Go (ω × U64)) : ω → List (List α) → Go (ω × Out)
  | w, [] => .ok (w, ⟨false, []⟩)
  | w, keys :: rest => do
    let (w, o) ← checkSet hash w keys
    let (w, p) ← checkSets hash w rest
    return (w, o.append p)

/-- A test that returns false whatever the checks found. E.g. smhasher.go:202-210. -/
def Out.silent (o : Out) : Out := ⟨false, o.events⟩

/-- `TestSmhasherSeed`, smhasher.go:624-632. -/
noncomputable def seed (w : ω) : Go (ω × Out) :=
  checkSet (fun w (i : Nat) => StringHash hf w [104#8, 101#8, 108#8, 108#8, 111#8] (BitVec.ofNat 64 i)) w (List.range 100000)

/-- "Foo", "Bar", "FooBar". smhasher.go:589-597. -/
def Foo : List U8 := [70#8, 111#8, 111#8]
@[inherit_doc Foo] def Bar : List U8 := [66#8, 97#8, 114#8]

/-- `TestSmhasherText`, smhasher.go:589-597; each `text` fills a set of its own (598-621). -/
noncomputable def textTest (w : ω) : Go (ω × Out) := do
  let (_, k1) ← text textS Foo Bar
  let (_, k2) ← text textS (Foo ++ Bar) []
  let (_, k3) ← text textS [] (Foo ++ Bar)
  let (w, o) ← checkSets (hashB hf) w [k1, k2, k3]
  return (w, o.silent)

/-- `TestSmhasherWindowed`, smhasher.go:561-566; each `windowed` (567-586) fills one set per bit of the key. -/
noncomputable def windowedTest (w : ω) : Go (ω × Out) := do
  let (_, s1) ← windowed (.int32 0)
  let (_, s2) ← windowed (.int64 0)
  let (_, s3) ← windowed (.bytes (List.replicate 128 0))
  let (w, o) ← checkSets (keyHash hf) w (s1 ++ s2 ++ s3)
  return (w, o.silent)

/-- `random`, smhasher.go:425-427, 448-450, 471-473: the key and the numbers drawn. -/
def random (pos : Nat) : Key → Key × Nat
  | .bytes b => (.bytes (randBytes r pos b.length), pos + b.length)
  | .int32 _ => (.int32 (r pos), pos + 1)
  | .int64 _ => (.int64 ((r pos).setWidth 64 + (r (pos + 1)).setWidth 64 <<< 32), pos + 2)

/-- smhasher.go:522-531. -/
def avalancheBit (h : U64) (i : Nat) (q : ω × Key × List (List Nat)) : Go (ω × Key × List (List Nat)) := do
  let (w, k, grid) := q
  let k ← k.flipBit i
  let (w, x) ← keyHash hf w k
  let d := h ^^^ x
  let k ← k.flipBit i
  let g ← Go.idx grid i
  let g ← addBits d g
  let grid ← Go.set grid i g.2
  return (w, k, grid)

/-- smhasher.go:515-532, one round. -/
def avalancheRound (n : Nat) (q : ω × Nat × Key × List (List Nat)) : Go (ω × Nat × Key × List (List Nat)) := do
  let (w, pos, k, grid) := q
  let (k, pos) := random r pos k
  let (w, h) ← keyHash hf w k
  let (w, k, grid) ← Go.forRange 0 n (avalancheBit hf h) (w, k, grid)
  return (w, pos, k, grid)

/-- `avalancheTest1`, smhasher.go:505-558: 100000 rounds; what is computed from the grid afterwards has no effect (lines 534-557; that the search
for `c` in line 545 ends is C110). -/
def avalanche1 (k : Key) (w : ω) : Go ω := do
  let n := k.bits
  let (w, _) ← Go.forRange 0 100000 (fun _ => avalancheRound hf r n) (w, 0, k, List.replicate n (List.replicate hashSize 0))
  return w

/-- The keys of `TestSmhasherAvalanche`, smhasher.go:495-502. -/
def avalancheKeys : List Key :=
  [.bytes (List.replicate 2 0), .bytes (List.replicate 4 0), .bytes (List.replicate 8 0), .bytes (List.replicate 16 0), .bytes (List.replicate 32 0),
   .bytes (List.replicate 200 0), .int32 0, .int64 0]

/-- `TestSmhasherAvalanche`, smhasher.go:488-504. -/
def avalancheTest (w : ω) : Go (ω × Out) := do
  let w ← avalancheKeys.foldlM (fun w k => avalanche1 hf r k w) w
  return (w, ⟨false, []⟩)

/-- `TestSmhasherPermutation`, smhasher.go:374-386. -/
noncomputable def permutationTest (w : ω) : Go (ω × Out) := do
  let sets ← Permutations.mapM fun p => do
    let (_, keys) ← permutation p.2 p.1
    return keys
  let (w, o) ← checkSets (hashB hf) w sets
  return (w, o.silent)

/-- `TestSmhasherSparse`, smhasher.go:328-338. -/
noncomputable def sparseTest (w : ω) : Go (ω × Out) := do
  let sets ← pairs.mapM fun p => do
    let (_, keys) ← sparse p.1 p.2
    return keys
  checkSets (hashB hf) w sets

/-- `TestSmhasherCyclic`, smhasher.go:289-318: one generator for all the periods `n`, each iteration draws `n - 4` numbers. -/
noncomputable def cyclicTest (w : ω) : Go (ω × Out) := do
  let sets ← [4, 5, 6, 7, 8, 9, 10, 11, 12].mapM fun n => do
    let pos := ((List.range n).map fun m => 1000000 * (m - 4)).sum
    let (_, keys) ← cyclic 1000000 n fun i p => (r (pos + i * (n - 4) + p)).setWidth 8
    return keys
  checkSets (hashB hf) w sets

/-- `TestSmhasherTwoNonzero`, smhasher.go:247-256. -/
noncomputable def twoNonzeroTest (w : ω) : Go (ω × Out) := do
  let keys ← twoNonZeroAll
  checkSet (hashB hf) w keys

/-- `TestSmhasherSmallKeys`, smhasher.go:212-230. -/
noncomputable def smallKeysTest (w : ω) : Go (ω × Out) := do
  let (_, keys) ← smallKeys
  checkSet (hashB hf) w keys

/-- `TestSmhasherZeros`, smhasher.go:233-244. -/
noncomputable def zerosTest (w : ω) : Go (ω × Out) := do
  let (_, keys) ← zeros (256 * 1024)
  checkSet (hashB hf) w keys

/-- `TestSmhasherAppendedZeros`, smhasher.go:202-209. -/
noncomputable def appendedZerosTest (w : ω) : Go (ω × Out) := do
  let (_, keys) ← appendedZeros
  checkSet (fun w s => StringHash hf w s 0) w keys

/-- The test functions. smhasher.go:660-677. -/
noncomputable def runTest : TestFn → ω → Go (ω × Out)
  | .Sanity => sanity hf r
  | .Seed => seed hf
  | .Text => textTest hf
  | .Windowed => windowedTest hf
  | .Avalanche => avalancheTest hf r
  | .Permutation => permutationTest hf
  | .Sparse => sparseTest hf
  | .Cyclic => cyclicTest hf r
  | .TwoNonzero => twoNonzeroTest hf
  | .SmallKeys => smallKeysTest hf
  | .Zeros => zerosTest hf
  | .AppendedZeros => appendedZerosTest hf

/-- The loop of `RunSMhasher`, smhasher.go:690-701, over a table of tests. -/
noncomputable def runTests : List (TestFn × TestFn) → ω → Go (ω × List (TestFn × Out))
  | [], w => .ok (w, [])
  | t :: ts, w => do
    let (w, o) ← runTest hf r t.1 w
    let (w, os) ← runTests ts w
    return (w, (t.1, o) :: os)

/-- `RunSMhasher`, smhasher.go:688-703. The arguments go into a `TState` that no test reads, and decide what else is printed. -/
noncomputable def RunSMhasher (_hashf : String) (_v : Bool) (w : ω) : Go (ω × List (TestFn × Out)) := runTests hf r tests w

end

/-- The `-sm` case of `main`, ht.go:857-876, for the list of names it goes through (the selected ones of `TestHashFunctions`, or the one given): the runs that
end, and how the last one ended. `Hf2` is the global the hash function looks at (ht.go:15 is a dot import, so `Hf2` is `hashf.Hf2`). -/
noncomputable def smMain (e : Hashf.Ext) (r : Nat → U32) (v : Bool) : List String → Hashf.State → List (String × List (TestFn × Out)) × Go Hashf.State
  | [], s => ([], .ok s)
  | name :: rest, s =>
    match RunSMhasher (Hashf.Hashf e) r name v { s with Hf2 := name } with
    | .error f => ([], .error f)
    | .ok (s, os) =>
      let q := smMain e r v rest s
      ((name, os) :: q.1, q.2)

end Verif.Model.RunSM
