import Verif.Go
import Verif.Model.FloatR
import Mathlib.Data.Real.Sqrt

/-!
# Model of /repo/smhasher/smhasher.go

The hash function under test (`hashf.Hashf`) is the parameter `H : key → seed → hash`; `uintptr` is 64 bits wide. The key
enumerations are modelled with the shared, mutated buffer and the list of the keys passed to `addB`, in order. Printing and
timing are not modelled, `float64` arithmetic is that of Model/FloatR.lean, Go `int`s are unbounded where not said otherwise, and the random number generator is an
arbitrary function.
-/

namespace Verif.Model.Smhasher
open Verif

/-! ## Hashing of integers, strings and byte slices -/

/-- `BytesHash`, smhasher.go:96-100. -/
def BytesHash (H : List U8 → U64 → U64) (b : List U8) (seed : U64) : U64 := H b seed

/-- `StringHash`, smhasher.go:102-109; a string is the list of its bytes. `copy` into a slice of the same length. -/
def StringHash (H : List U8 → U64 → U64) (s : List U8) (seed : U64) : U64 :=
  let b := List.replicate s.length 0#8
  let b := s.take b.length ++ b.drop s.length
  H b seed

/-- `Int32Hash`, smhasher.go:111-118. -/
def Int32Hash (H : List U8 → U64 → U64) (i : U32) (seed : U64) : U64 :=
  H [(i &&& 0xFF).setWidth 8, ((i >>> 8) &&& 0xFF).setWidth 8, ((i >>> 16) &&& 0xFF).setWidth 8, ((i >>> 24) &&& 0xFF).setWidth 8] seed

/-- `Int64Hash`, smhasher.go:120-128. -/
def Int64Hash (H : List U8 → U64 → U64) (i : U64) (seed : U64) : U64 :=
  H [(i &&& 0xFF).setWidth 8, ((i >>> 8) &&& 0xFF).setWidth 8, ((i >>> 16) &&& 0xFF).setWidth 8, ((i >>> 24) &&& 0xFF).setWidth 8,
     ((i >>> 32) &&& 0xFF).setWidth 8, ((i >>> 40) &&& 0xFF).setWidth 8, ((i >>> 48) &&& 0xFF).setWidth 8, ((i >>> 56) &&& 0xFF).setWidth 8] seed

/-! ## HashSet -/

/-- `HashSet`, smhasher.go:165-168. The map is the list of its keys. -/
structure HashSet where
  m : List U64
  n : Nat

/-- `newHashSet`, smhasher.go:170-172. -/
def HashSet.new : HashSet := ⟨[], 0⟩

/-- `add`, smhasher.go:173-176. -/
def HashSet.add (s : HashSet) (h : U64) : HashSet := ⟨if h ∈ s.m then s.m else h :: s.m, s.n + 1⟩

/-- A history of `add`s. For smhasher.go:173-175. -/
def HashSet.addAll (s : HashSet) (hs : List U64) : HashSet := hs.foldl HashSet.add s

/-- `hashSize`, smhasher.go:635, for a 64-bit `uintptr`. -/
def hashSize : Nat := 32 + ((~~~(0 : U64)) >>> 63 <<< 5).toNat

/-- `check`, smhasher.go:186-199: whether it reports. `pairs` is computed in `int64` (wrapping, division towards zero); every `float64`
operation is rounded, `math.Sqrt` being the correctly rounded root and `math.Pow(2.0, 64)` exact. (For a negative `pairs`, which needs more
than 3·10^9 hashes, Go's `expected` is negative and its root a NaN, which is not modelled.) -/
noncomputable def HashSet.check (s : HashSet) : Prop :=
  let collisions : ℤ := s.n - s.m.length
  let pairs : ℤ := (BitVec.ofInt 64 s.n * BitVec.ofInt 64 (s.n - 1) : U64).toInt.tdiv 2
  let expected : ℝ := FloatR.fl (FloatR.fl pairs / (2 : ℝ) ^ hashSize)
  let stddev : ℝ := FloatR.fl (Real.sqrt expected)
  FloatR.fl collisions > FloatR.fl (expected + FloatR.fl (10 * 3 * stddev))

/-! ## Key enumerations -/

/-- The shared buffer and the keys added so far. For smhasher.go:247-287. -/
abbrev St := List U8 × List (List U8)

/-- `h.addB(b[:])`. smhasher.go:180-182, 257-287. -/
def addB (q : St) : St := (q.1, q.2 ++ [q.1])

/-- `h.addB(b[:n])`. smhasher.go:180-182. -/
def addBTo (n : Nat) (q : St) : Go St := do
  let k ← Go.slice q.1 0 n
  return (q.1, q.2 ++ [k])

/-- `b[i] = v`. smhasher.go:257-287. -/
def put (i : Nat) (v : U8) (q : St) : Go St := do
  let b ← Go.set q.1 i v
  return (b, q.2)

/-- `TestSmhasherAppendedZeros`, smhasher.go:202-209: the keys. -/
def appendedZeros : Go St :=
  let s := [104#8, 101#8, 108#8, 108#8, 111#8] ++ List.replicate 256 0#8
  Go.forRange 0 (s.length + 1) addBTo (s, [])

/-- `TestSmhasherSmallKeys`, smhasher.go:212-230 (`Short()` is constant false, line 22). -/
def smallKeys : Go St :=
  Go.forRange 0 256 (fun i q => do
    let q ← put 0 (BitVec.ofNat 8 i) q
    let q ← addBTo 1 q
    Go.forRange 0 256 (fun j q => do
      let q ← put 1 (BitVec.ofNat 8 j) q
      let q ← addBTo 2 q
      Go.forRange 0 256 (fun k q => do
        let q ← put 2 (BitVec.ofNat 8 k) q
        addBTo 3 q) q) q) (List.replicate 3 0#8, [])

/-- `TestSmhasherZeros`, smhasher.go:233-244, with `N` = 256*1024 in the code. -/
def zeros (N : Nat) : Go St := Go.forRange 0 (N + 1) addBTo (List.replicate N 0#8, [])

/-- smhasher.go:266-268, 278-280. -/
def oneNonZero (i x : Nat) (q : St) : Go St := do
  let q ← put i (BitVec.ofNat 8 x) q
  put i 0#8 (addB q)

/-- smhasher.go:275-283. -/
def twoNonZeroBody (n i x : Nat) (q : St) : Go St := do
  let q ← put i (BitVec.ofNat 8 x) q
  let q ← Go.forRange (i + 1) (n - (i + 1)) (fun j q => Go.forRange 1 255 (fun y q => oneNonZero j y q) q) q
  put i 0#8 q

/-- `twoNonZero`, smhasher.go:257-286. -/
def twoNonZero (n : Nat) : Go St := do
  let q := addB (List.replicate n 0#8, [])
  let q ← Go.forRange 0 n (fun i q => Go.forRange 1 255 (fun x q => oneNonZero i x q) q) q
  Go.forRange 0 n (fun i q => Go.forRange 1 255 (fun x q => twoNonZeroBody n i x q) q) q

/-- smhasher.go:303-311, one iteration of the inner loop of `TestSmhasherCyclic`; `rnd` are the random bytes. -/
def cyclicBody (n : Nat) (rnd : Nat → Nat → U8) (i : Nat) (q : St) : Go St := do
  let q ← put 0 (BitVec.ofNat 8 (i * 79 % 97)) q
  let q ← put 1 (BitVec.ofNat 8 (i * 43 % 137)) q
  let q ← put 2 (BitVec.ofNat 8 (i * 151 % 197)) q
  let q ← put 3 (BitVec.ofNat 8 (i * 199 % 251)) q
  let q ← Go.forRange 4 (n - 4) (fun p q => put p (rnd i (p - 4)) q) q
  let q ← Go.forRange n (n * 8 - n) (fun j q => do
    let x ← Go.idx q.1 (j - n)
    put j x q) q
  return addB q

/-- `TestSmhasherCyclic`, smhasher.go:289-318, for one `n`, with `N` iterations (1000000 in the code). `b[4:n]` needs `4 ≤ n`. -/
def cyclic (N n : Nat) (rnd : Nat → Nat → U8) : Go St :=
  if 4 ≤ n then Go.forRange 0 N (cyclicBody n rnd) (List.replicate (8 * n) 0#8, []) else .error .slice

/-- `setbits`, smhasher.go:347-357 (for a non-negative `k`). -/
def setbits : Nat → Nat → St → Go St
  | 0, _, q => .ok (addB q)
  | k + 1, i, q =>
    Go.forRange i (q.1.length * 8 - i) (fun j q => do
      let x ← Go.idx q.1 (j / 8)
      let q ← put (j / 8) (x ||| 1#8 <<< (j % 8)) q
      let q ← setbits k (j + 1) q
      let x ← Go.idx q.1 (j / 8)
      put (j / 8) (x &&& ~~~(1#8 <<< (j % 8))) q) (addB q)

/-- `sparse`, smhasher.go:339-344: the keys. -/
def sparse (n k : Nat) : Go St := setbits k 0 (List.replicate (n / 8) 0#8, [])

/-- `genPerm`, smhasher.go:393-405. -/
def genPerm : Nat → List U32 → Nat → St → Go St
  | 0, _, _, _ => .error .diverge
  | fuel + 1, s, n, q => do
    let q ← addBTo n q
    if n = q.1.length then return q
    else s.foldlM (fun q (v : U32) => do
      let q ← put n (v.setWidth 8) q
      let q ← put (n + 1) ((v >>> 8).setWidth 8) q
      let q ← put (n + 2) ((v >>> 16).setWidth 8) q
      let q ← put (n + 3) ((v >>> 24).setWidth 8) q
      genPerm fuel s (n + 4) q) q

/-- `permutation`, smhasher.go:387-392: the keys. -/
def permutation (s : List U32) (n : Nat) : Go St := genPerm (n * 4 + 1) s 0 (List.replicate (n * 4) 0#8, [])

/-- `text`, smhasher.go:598-621: the keys, for the letters `S` (fifty in the code). -/
def text (S pre suf : List U8) : Go St :=
  let b := pre ++ List.replicate 4 0#8 ++ suf
  Go.forRange 0 S.length (fun i q => do
    let q ← put pre.length (S.getD i 0) q
    Go.forRange 0 S.length (fun j q => do
      let q ← put (pre.length + 1) (S.getD j 0) q
      Go.forRange 0 S.length (fun k q => do
        let q ← put (pre.length + 2) (S.getD k 0) q
        Go.forRange 0 S.length (fun x q => do
          let q ← put (pre.length + 3) (S.getD x 0) q
          return addB q) q) q) q) (b, [])

/-- The constant `S` of `text` ("ABCDEFGHIJKLMNOPQRSTabcdefghijklmnopqrst0123456789"), smhasher.go:600. -/
def textS : List U8 :=
  [65, 66, 67, 68, 69, 70, 71, 72, 73, 74, 75, 76, 77, 78, 79, 80, 81, 82, 83, 84, 97, 98, 99, 100, 101, 102, 103, 104, 105, 106, 107, 108, 109, 110, 111, 112, 113, 114, 115, 116, 48, 49, 50, 51, 52, 53, 54, 55, 56, 57]

/-- `TestSmhasherSanity`, smhasher.go:147-153, one iteration: the two keys compared. `b` and `c` are the random arrays. `copy` between two slices of
`n` bytes replaces those bytes of `c`. -/
def sanityStep (b c : List U8) (n i : Nat) : Go (List U8 × List U8) := do
  let src ← Go.slice b 16 (16 + n)
  let _ ← Go.slice c (16 + i) (16 + i + n)
  let c := c.take (16 + i) ++ src ++ c.drop (16 + i + n)
  let x ← Go.slice b 16 (16 + n)
  let y ← Go.slice c (16 + i) (16 + i + n)
  return (x, y)

/-- `TestSmhasherSeed`, smhasher.go:624-632, with `N` = 100000 in the code: the set after the loop. -/
def seedTest (H : List U8 → U64 → U64) (N : Nat) : HashSet :=
  (List.range N).foldl (fun h i => h.add (StringHash H [104#8, 101#8, 108#8, 108#8, 111#8] (BitVec.ofNat 64 i))) HashSet.new

/-- `TestSmhasherTwoNonzero`, smhasher.go:247-256: the keys added to the one set. -/
def twoNonZeroAll : Go (List (List U8)) :=
  Go.forRange 2 15 (fun n out => do
    let q ← twoNonZero n
    return out ++ q.2) []

/-- `pairs`, smhasher.go:325. -/
def pairs : List (Nat × Nat) := [(32, 6), (40, 6), (48, 5), (56, 5), (64, 5), (96, 4), (256, 3), (2048, 2)]

/-- `Permutations`, smhasher.go:364-370. -/
def Permutations : List (Nat × List U32) :=
  [(8, [0, 1, 2, 3, 4, 5, 6, 7]),
   (8, [0, 1 <<< 29, 2 <<< 29, 3 <<< 29, 4 <<< 29, 5 <<< 29, 6 <<< 29, 7 <<< 29]),
   (20, [0, 1]),
   (20, [0, 1 <<< 31]),
   (6, [0, 1, 2, 3, 4, 5, 6, 7, 1 <<< 29, 2 <<< 29, 3 <<< 29, 4 <<< 29, 5 <<< 29, 6 <<< 29, 7 <<< 29])]

/-- `newHashSet`, an `addB` for each key in order, and `check` (as in each test): whether it reports. smhasher.go:165-199. -/
def checkKeys (H : List U8 → U64 → U64) (keys : List (List U8)) : Prop :=
  (HashSet.new.addAll (keys.map fun b => BytesHash H b 0)).check

/-! ## Keys with bits -/

/-- The implementations of `Key`: `BytesKey`, `Int32Key`, `Int64Key`, smhasher.go:416-485. -/
inductive Key where
  | bytes (b : List U8)
  | int32 (i : U32)
  | int64 (i : U64)
  deriving DecidableEq

/-- `clear`, smhasher.go:420-424, 445-447, 468-470. -/
def Key.clear : Key → Key
  | .bytes b => .bytes (b.map fun _ => 0#8)
  | .int32 _ => .int32 0
  | .int64 _ => .int64 0

/-- `bits`, smhasher.go:428-430, 451-453, 474-476. -/
def Key.bits : Key → Nat
  | .bytes b => b.length * 8
  | .int32 _ => 32
  | .int64 _ => 64

/-- `flipBit`, smhasher.go:431-433, 454-456, 477-479. -/
def Key.flipBit (i : Nat) : Key → Go Key
  | .bytes b => do
    let x ← Go.idx b (i >>> 3)
    let b ← Go.set b (i >>> 3) (x ^^^ 1#8 <<< (i &&& 7))
    return .bytes b
  | .int32 k => .ok (.int32 (k ^^^ 1#32 <<< i))
  | .int64 k => .ok (.int64 (k ^^^ 1#64 <<< i))

/-- `hash`, smhasher.go:434-436, 457-459, 480-482. -/
def Key.hash (H : List U8 → U64 → U64) : Key → U64
  | .bytes b => BytesHash H b 0
  | .int32 i => Int32Hash H i 0
  | .int64 i => Int64Hash H i 0

/-- smhasher.go:576-581. -/
def windowKey (r i : Nat) (k : Key) : Go Key :=
  Go.forRange 0 16 (fun j k => if i >>> j &&& 1 ≠ 0 then k.flipBit ((j + r) % k.bits) else .ok k) k.clear

/-- smhasher.go:574-583: the keys hashed for one `r` of `windowed`. -/
def window (r : Nat) (k : Key) : Go (Key × List Key) :=
  Go.forRange 0 (1 <<< 16) (fun i q => do
    let k ← windowKey r i q.1
    return (k, q.2 ++ [k])) (k, [])

/-- `windowed`, smhasher.go:567-586: the sets of keys, one per `r`. -/
def windowed (k : Key) : Go (Key × List (List Key)) :=
  Go.forRange 0 k.bits (fun r q => do
    let w ← window r q.1
    return (w.1, q.2 ++ [w.2])) (k, [])

/-! ## Avalanche -/

/-- smhasher.go:528-531: add the bits of `d` to a row. -/
def addBits (d : U64) (g : List Nat) : Go (U64 × List Nat) :=
  Go.forRange 0 hashSize (fun j q => do
    let x ← Go.idx q.2 j
    let g ← Go.set q.2 j (x + (q.1 &&& 1).toNat)
    return (q.1 >>> 1, g)) (d, g)

/-- smhasher.go:522-531: flip bit `i`, compare, flip it back, record. -/
def avalancheBit (H : List U8 → U64 → U64) (h : U64) (i : Nat) (q : Key × List (List Nat)) : Go (Key × List (List Nat)) := do
  let k ← q.1.flipBit i
  let d := h ^^^ k.hash H
  let k ← k.flipBit i
  let g ← Go.idx q.2 i
  let g ← addBits d g
  let grid ← Go.set q.2 i g.2
  return (k, grid)

/-- smhasher.go:517-532, one round, with `k` the random key. -/
def avalancheRound (H : List U8 → U64 → U64) (n : Nat) (grid : List (List Nat)) (k : Key) : Go (List (List Nat)) := do
  let h := k.hash H
  let q ← Go.forRange 0 n (avalancheBit H h) (k, grid)
  return q.2

/-- `avalancheTest1`, smhasher.go:505-558: the grid after the rounds with the random keys `ks`. What the code computes from the grid afterwards has
no effect (the report is commented out; that it ends is C110). -/
def avalanche (H : List U8 → U64 → U64) (n : Nat) (ks : List Key) : Go (List (List Nat)) :=
  ks.foldlM (avalancheRound H n) (List.replicate n (List.replicate hashSize 0))

/-- smhasher.go:543-546: the search for the confidence bound, as a big-step semantics of the loop: `Search erf pow N c c'` says that the loop,
entered with `c`, ends with `c'`. `erf` is `math.Erf`, `pow x N` is `math.Pow(x, float64(N))`. -/
inductive Search (erf : ℝ → ℝ) (pow : ℝ → ℕ → ℝ) (N : ℕ) : ℝ → ℝ → Prop
  | stop (c : ℝ) : ¬ pow (erf (FloatR.fl (c / FloatR.fl (Real.sqrt 2)))) N < FloatR.fl 0.9999 → Search erf pow N c c
  | next (c c' : ℝ) : pow (erf (FloatR.fl (c / FloatR.fl (Real.sqrt 2)))) N < FloatR.fl 0.9999 →
      Search erf pow N (FloatR.fl (c + FloatR.fl 0.1)) c' → Search erf pow N c c'

/-- smhasher.go:547-551: `low` and `high` from the `c` found, with `REP` = 100000. -/
noncomputable def bounds (c : ℝ) : ℤ × ℤ :=
  let c := FloatR.fl (c * 4)
  let mean : ℝ := 50000
  let stddev := FloatR.fl (0.5 * FloatR.fl (Real.sqrt 100000))
  (⌊FloatR.fl (mean - FloatR.fl (c * stddev))⌋, ⌊FloatR.fl (mean + FloatR.fl (c * stddev))⌋)

/-! ## The table of tests -/

/-- The test functions. smhasher.go:660-677. -/
inductive TestFn where
  | Sanity | Seed | Text | Windowed | Avalanche | Permutation | Sparse | Cyclic | TwoNonzero | SmallKeys | Zeros | AppendedZeros
  deriving DecidableEq, Repr

/-- `Tests`, smhasher.go:665-677: the function run and the function its description names. -/
def tests : List (TestFn × TestFn) :=
  [(.Sanity, .Sanity), (.Seed, .Seed), (.Text, .Text), (.Windowed, .Windowed), (.Avalanche, .Avalanche), (.Permutation, .Permutation),
   (.Sparse, .Sparse), (.Cyclic, .Cyclic), (.TwoNonzero, .SmallKeys), (.SmallKeys, .Zeros), (.AppendedZeros, .AppendedZeros)]

end Verif.Model.Smhasher
