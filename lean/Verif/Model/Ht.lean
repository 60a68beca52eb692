import Verif.Model.HashTable

/-!
# Model of /repo/ht.go

The key generators, the file reader and the helpers of the test program. Calls to the callback are modelled as the list of its
arguments, paired with the outcome of the function that makes them. Printing and timing are not modelled. Go `int`s are
unbounded.
-/

namespace Verif.Model.Ht
open Verif

/-- Arguments of the callback, in order, and the outcome (return value or panic) after the last call. For ht.go:37-74, 399-440. -/
structure Calls (α : Type) where
  calls : List (List U8)
  out : Go α

/-! ## ReadFile -/

/-- A file: its bytes, and whether the device reports an error (other than end of file) after them. For ht.go:37-74. -/
structure File where
  content : List U8
  ioErr : Bool

/-- `rl.ReadString(10)` of bufio.Reader (standard library): the bytes up to and including the next newline and the rest,
or nothing when no newline is left. -/
def readString (rest : List U8) : Option (List U8 × List U8) :=
  if 10#8 ∈ rest then some (rest.takeWhile (· ≠ 10#8) ++ [10#8], (rest.dropWhile (· ≠ 10#8)).drop 1) else none

/-- `if s[len(s)-1] == c { s = s[:len(s)-1] }`, ht.go:59-61, 62-64, 65-67. -/
def trimLast (c : U8) (s : List U8) : Go (List U8) :=
  match s.getLast? with
  | none => .error .index
  | some x => .ok (if x = c then s.dropLast else s)

/-- ht.go:59-67. -/
def trimLine (s : List U8) : Go (List U8) := do
  let s ← trimLast 10#8 s
  let s ← trimLast 13#8 s
  trimLast 32#8 s

/-- ht.go:50-73; `acc` are the calls so far, whose number is `lines`. -/
def readLoop (ioErr : Bool) : Nat → List U8 → List (List U8) → Nat → Calls Nat
  | 0, _, acc, _ => ⟨acc, .error .diverge⟩
  | fuel + 1, rest, acc, lines =>
    match readString rest with
    | none => ⟨acc, if ioErr then Go.panic "reading file" else .ok lines⟩
    | some (s, rest) =>
      match trimLine s with
      | .error e => ⟨acc, .error e⟩
      | .ok s => readLoop ioErr fuel rest (acc ++ [s]) (lines + 1)

/-- `ReadFile`, ht.go:37-74. `none` is a file that cannot be opened. -/
def ReadFile (f : Option File) : Calls Nat :=
  match f with
  | none => ⟨[], Go.panic "ReadFile: opening file"⟩
  | some f => readLoop f.ioErr (f.content.length + 1) f.content [] 0

/-! ## The file tests -/

/-- `string(b)` for a byte `b`: the UTF-8 encoding of the code point `b`. For ht.go:177-182. -/
def ofByte (b : U8) : List U8 := if b < 0x80#8 then [b] else [0xC0#8 ||| b >>> 6, 0x80#8 ||| (b &&& 0x3F#8)]

/-- `reverse`, ht.go:177-182. -/
def reverse : List U8 → List U8
  | [] => []
  | c :: s => reverse s ++ ofByte c

/-- The tests that read keys from a file. ht.go:89-196. -/
inductive FileTest where
  | A | B | C | D | E | F | G
  deriving DecidableEq, Repr

/-- The key inserted for a line: TestA ht.go:96-98, TestB 113-116, TestC 126-129, TestD 139-142, TestE 152-155, TestF 165-168,
TestG 185-189. -/
def FileTest.key : FileTest → List U8 → List U8
  | .A, line => line
  | .B, line => line ++ [10#8]
  | .C, line => line ++ (line ++ [10#8, 10#8, 10#8, 10#8])
  | .D, line => [65#8, 66#8, 67#8, 68#8, 69#8] ++ line
  | .E, line => line ++ line
  | .F, line => line ++ line ++ line ++ line
  | .G, line => reverse line

open Verif.HashTable (HT Env insertAll) in
/-- `TestA` ... `TestG`, ht.go:89-196, on a table that has been made: every line's key is inserted. A panic of
`Insert` or of `ReadFile` ends the test. -/
def runFileTest {ω : Type} (e : Env ω (List U8)) (w : ω) (ht : HT (List U8)) (t : FileTest) (f : Option File) : Go (ω × HT (List U8)) := do
  let r := ReadFile f
  let q ← insertAll e w ht (r.calls.map t.key)
  let _ ← r.out
  return q

/-- The `Tests` table, ht.go:690-704, restricted to the file tests: the flag and the function it runs. -/
def testsTable : List (Char × FileTest) := [('A', .A), ('B', .B), ('C', .C), ('D', .D), ('E', .E), ('F', .F), ('G', .F)]

/-! ## genWords -/

/-- `inc`, ht.go:402-418, from position `idx`. -/
def inc (perms : List (List U8)) : Nat → Nat → List Nat → Go (Bool × List Nat)
  | 0, _, _ => .error .diverge
  | fuel + 1, idx, ind => do
    let i ← Go.idx ind idx
    let ind ← Go.set ind idx (i + 1)
    let p ← Go.idx perms idx
    if i + 1 ≥ p.length then do
      let ind ← Go.set ind idx 0
      if idx + 1 ≥ perms.length then return (true, ind) else inc perms fuel (idx + 1) ind
    else return (false, ind)

/-- `letter`, ht.go:419-421. -/
def letter (ind : List Nat) (idx : Nat) (s : List U8) : Go (List U8) := do
  let i ← Go.idx ind idx
  let c ← Go.idx s i
  return ofByte c

/-- `word`, ht.go:423-431; `n` is `len(perms)`. -/
def word (n : Nat) (ind : List Nat) : List (List U8) → Go (List U8)
  | [] => .ok []
  | p :: ps => do
    let a ← letter ind (n - (ps.length + 1)) p
    let b ← word n ind ps
    return a ++ b

/-- The loop ht.go:433-439. -/
def genLoop (perms : List (List U8)) : Nat → List Nat → List (List U8) → Calls Unit
  | 0, _, acc => ⟨acc, .error .diverge⟩
  | fuel + 1, ind, acc =>
    match word perms.length ind perms with
    | .error e => ⟨acc, .error e⟩
    | .ok w =>
      match inc perms (perms.length + 1) 0 ind with
      | .error e => ⟨acc ++ [w], .error e⟩
      | .ok (true, _) => ⟨acc ++ [w], .ok ()⟩
      | .ok (false, ind') => genLoop perms fuel ind' (acc ++ [w])

/-- `genWords`, ht.go:399-440. -/
def genWords (perms : List (List U8)) : Calls Unit :=
  genLoop perms ((perms.map List.length).foldr (· * ·) 1 + 1) (List.replicate perms.length 0) []

/-- `letters`, ht.go:795. -/
def letters : List (List U8) :=
  [[97, 98, 99, 100, 101, 102, 103, 104], [101, 102, 103, 104, 105, 106, 107, 108], [105, 106, 107, 108, 109, 110, 111, 112],
   [109, 110, 111, 112, 113, 114, 115, 116], [113, 114, 115, 116, 117, 118, 119, 120], [117, 118, 119, 120, 121, 122, 48, 49]]

/-! ## hexToBytes -/

/-- `unhex`, ht.go:315-325. -/
def unhex (c : U8) : Go U8 :=
  if 0x30#8 ≤ c ∧ c ≤ 0x39#8 then .ok (c - 0x30#8)
  else if 0x61#8 ≤ c ∧ c ≤ 0x66#8 then .ok (c - 0x61#8 + 10#8)
  else if 0x41#8 ≤ c ∧ c ≤ 0x46#8 then .ok (c - 0x41#8 + 10#8)
  else Go.panic "unhex: bad input"

/-- ht.go:336. -/
def hexStep (s : List U8) (i : Nat) (data : List U8) : Go (List U8) := do
  let a ← Go.idx s (2 * i)
  let x ← unhex a
  let b ← Go.idx s (2 * i + 1)
  let y ← unhex b
  Go.set data i (x <<< 4 ||| y)

/-- `hexToBytes`, ht.go:327-340. -/
def hexToBytes (s : List U8) : Go (List U8) :=
  if s.length / 2 ≤ 1000 then
    if s.length % 2 = 1 then Go.panic "gethex: string must be even"
    else Go.forRange 0 (s.length / 2) (hexStep s) (List.replicate (s.length / 2) 0#8)
  else .error .slice

/-- `hashLine` of `TestK`, ht.go:362-367: the seed, key and hash it prints for a line. `b` is the buffer of ht.go:361. -/
def hashLine (H : List U8 → U64 → U64) (rseed : U64) (b line : List U8) : Go (U64 × List U8 × U64) := do
  let h := H b rseed
  let k ← hexToBytes line
  return (rseed, k, h)

/-- The lines `TestK` prints for one seed, ht.go:373 (`ReadFile(file, hashLine)`): the lines before the first panic. -/
def testK (H : List U8 → U64 → U64) (rseed : U64) (f : Option File) : Go (List (U64 × List U8 × U64)) := do
  let r := ReadFile f
  let out ← r.calls.mapM (hashLine H rseed (List.replicate 1000 0#8))
  let _ ← r.out
  return out

/-! ## checkForDups32 -/

/-- Locals of `checkForDups32`. ht.go:457-481. -/
structure Dups where
  i : Nat
  run : Nat
  dups : Nat
  mrun : Nat
  deriving DecidableEq, Repr

/-- The body ht.go:461-474 for index `k`. -/
def dupStep (u : List U32) (k : Nat) (d : Dups) : Go Dups := do
  let v ← Go.idx u k
  if k = 0 ∨ d.i = k then return d
  else do
    let x ← Go.idx u d.i
    if x = v then return { d with run := d.run + 1, dups := d.dups + 1 }
    else return { d with i := k, run := 0, mrun := if d.run > d.mrun then d.run else d.mrun }

/-- `checkForDups32`, ht.go:457-477, and the same function in jenkins/example/example.go:153-173: `(dups, mrun)`. -/
def checkForDups32 (u : List U32) : Go (Nat × Nat) := do
  let d ← Go.forRange 0 u.length (dupStep u) ⟨0, 0, 0, 0⟩
  return (d.dups, d.mrun)

/-! ## Generated keys: the keys passed to `Insert`, with the reused buffer as loop state -/

/-- `TestI`, ht.go:221-231. -/
def testI (ni : Int) : Go (List U8 × List (List U8)) :=
  Go.forRange 0 ni.toNat (fun i q => do
    let bs ← Go.set q.1 0 (BitVec.ofNat 8 i)
    let bs ← Go.set bs 1 (BitVec.ofNat 8 (i >>> 8))
    let bs ← Go.set bs 2 (BitVec.ofNat 8 (i >>> 16))
    let bs ← Go.set bs 3 (BitVec.ofNat 8 (i >>> 24))
    return (bs, q.2 ++ [bs])) (List.replicate 4 0#8, [])

/-- ht.go:246-251. -/
def testJInner (k : Nat) (q : List U8 × List (List U8)) : Go (List U8 × List (List U8)) :=
  Go.forRange 0 8 (fun i q => do
    let key ← Go.set q.1 k (1#8 <<< i)
    let out := q.2 ++ [key]
    let key ← Go.set key k 0#8
    return (key, out)) q

/-- `TestJ`, ht.go:239-252, for a key of `length` bytes (900 in the code). -/
def testJ (length : Nat) : Go (List U8 × List (List U8)) :=
  Go.forRange 0 length testJInner (List.replicate length 0#8, [])

/-- ht.go:272-279. -/
def testLBody (i j k : Nat) (q : List U8 × List (List U8)) : Go (List U8 × List (List U8)) := do
  let key ← Go.set q.1 0 (BitVec.ofNat 8 i)
  let key ← Go.set key 1 (BitVec.ofNat 8 j)
  let key ← Go.set key 2 (BitVec.ofNat 8 k)
  return (key, q.2 ++ [key])

/-- `TestL`, ht.go:265-282. -/
def testL : Go (List U8 × List (List U8)) :=
  Go.forRange 0 256 (fun i q => Go.forRange 0 256 (fun j q => Go.forRange 0 256 (fun k q => testLBody i j k q) q) q) (List.replicate 3 0#8, [])

/-! ## TestM -/

/-- ht.go:303-305. -/
def testMBody (H : List U8 → U64) (mod : U64) (i : Nat) (q : List U8 × List Nat) : Go (List U8 × List Nat) := do
  let bs ← Go.set q.1 0 (BitVec.ofNat 8 i)
  let bs ← Go.set bs 1 (BitVec.ofNat 8 (i >>> 8))
  let bs ← Go.set bs 2 (BitVec.ofNat 8 (i >>> 16))
  let bs ← Go.set bs 3 (BitVec.ofNat 8 (i >>> 24))
  let h := H bs
  if mod = 0#64 then .error .divZero
  else do
    let x ← Go.idx q.2 (h % mod).toNat
    let hist ← Go.set q.2 (h % mod).toNat (x + 1)
    return (bs, hist)

/-- `TestM`, ht.go:291-313: the histogram it prints. `H` is the configured hash at the table's seed. The table it also makes
(line 299) and never uses is not modelled. `make([]int, n)` panics for a negative `n` and when `8n` bytes exceed the address
space (2^48 on linux/amd64). -/
def testM (H : List U8 → U64) (n ni : Int) (dru : Bool) : Go (List Nat) :=
  let n := if dru then -n else n
  if n < 0 ∨ 2 ^ 48 < 8 * n then Go.panic "makeslice: len out of range"
  else do
    let q ← Go.forRange 0 ni.toNat (testMBody H (BitVec.ofInt 64 n)) (List.replicate 4 0#8, List.replicate n.toNat 0)
    if n = 0 then .error .divZero -- ht.go:310, `*ni / *n`
    else return q.2

end Verif.Model.Ht
