import Verif.Model.Jenkins

/-!
# Model of /repo/jenkins/example/example.go

Printing is modelled by the printed values; times are left out.
-/

namespace Verif.Model.JenkinsExample
open Verif

/-- `stu`, example.go:18-32; a load outside the string's bytes is `unsafeOOB`. -/
def stu (s : List U8) : Go (List U32) :=
  Go.forRange 0 ((s.length + 3) / 4) (fun i d => do
    let t ← Go.unsafe32 s (i * 4)
    return d ++ [t]) []

/-! ## driver2 -/

/-- `MAXPAIR`, `MAXLEN`, example.go:36-41. -/
def MAXPAIR : Nat := 6022
/-- `MAXLEN`, example.go:40. -/
def MAXLEN : Nat := 70

/-- The six words `e f g h x y` (arrays of length `HASHSTATE` = 1), example.go:47-54. -/
structure Masks where
  e : U32
  f : U32
  g : U32
  h : U32
  x : U32
  y : U32
  deriving DecidableEq, Repr

/-- example.go:69-76. -/
def Masks.init : Masks := ⟨~~~0#32, ~~~0#32, ~~~0#32, ~~~0#32, ~~~0#32, ~~~0#32⟩

/-- example.go:96-101. -/
def Masks.step (v : Masks) (c d : U32) : Masks :=
  ⟨v.e &&& (c ^^^ d), v.f &&& ~~~(c ^^^ d), v.g &&& c, v.h &&& ~~~c, v.x &&& d, v.y &&& ~~~d⟩

/-- `e[l]|f[l]|g[l]|h[l]|x[l]|y[l] == 0`, example.go:102. -/
def Masks.finished (v : Masks) : Bool := v.e ||| v.f ||| v.g ||| v.h ||| v.x ||| v.y == 0#32

/-- `a[i] ^= byte(k << j); a[i] ^= byte(k >> (8 - j))`, example.go:87-88, 91-92. -/
def xorBits (a : List U8) (i k j : Nat) : Go (List U8) := do
  let t ← Go.idx a i
  let a ← Go.set a i (t ^^^ (BitVec.ofNat 32 k <<< j).setWidth 8)
  let t ← Go.idx a i
  Go.set a i (t ^^^ (BitVec.ofNat 32 k >>> (8 - j)).setWidth 8)

section
variable (hash : List U8 → Int → U32 → Go U32)

/-- One trial, example.go:81-105; `hash` is `jenkins.HashBytesLength`. -/
def trial (hlen i j m k : Nat) (a b : List U8) (v : Masks) : Go (List U8 × List U8 × Masks) := do
  let (a, b) ← Go.forRange 0 (hlen + 1) (fun l q => do
    let a ← Go.set q.1 l 0#8
    let b ← Go.set q.2 l 0#8
    return (a, b)) (a, b)
  let a ← xorBits a i k j
  let c ← hash a hlen (BitVec.ofNat 32 m)
  let b ← xorBits b i (k + 1) j
  let d ← hash b hlen (BitVec.ofNat 32 m)
  return (a, b, v.step c d)

/-- The loop over `k`, example.go:79-109, with the number of trials left as counter. -/
def trialLoop (hlen i j m : Nat) : Nat → Nat → List U8 × List U8 × Masks → Go (Nat × List U8 × List U8 × Masks)
  | 0, k, s => .ok (k, s)
  | left + 1, k, (a, b, v) => do
    let (a, b, v) ← trial hash hlen i j m k a b v
    if v.finished then .ok (k, a, b, v) else trialLoop hlen i j m left (k + 2) (a, b, v)

/-- A printed line: "Some bit didn't change" with the masks, `i`, `j`, `m`, `len`, or "Mix success" with bytes, initvals, trials. example.go:43-167. -/
inductive Line where
  | fail (masks : Masks) (i j m hlen : Nat)
  | success (bytes initvals trials : Nat)
  deriving DecidableEq, Repr

/-- The variables of the loops over input bytes, bits and initvals. example.go:43-167. -/
structure D2 where
  a : List U8
  b : List U8
  z : Nat
  m : Nat
  lines : List Line

/-- The body of the loop over `m`, example.go:69-120; true for `goto done`. -/
def mBody (hlen i j m : Nat) (s : D2) : Go (D2 × Bool) := do
  let (k, a, b, v) ← trialLoop hash hlen i j m (MAXPAIR / 2) 0 (s.a, s.b, .init)
  let z := if k > s.z then k else s.z
  let lines := if k = MAXPAIR then s.lines ++ [.fail v i j m hlen] else s.lines
  return (⟨a, b, z, m, lines⟩, z = MAXPAIR)

/-- The loop over `m`, example.go:68-121: `left` values from `m` on; `m` is 8 after the loop. -/
def mLoop (hlen i j : Nat) : Nat → Nat → D2 → Go (D2 × Bool)
  | 0, m, s => .ok ({ s with m := m }, false)
  | left + 1, m, s => do
    let (s, stop) ← mBody hash hlen i j m s
    if stop then return (s, true) else mLoop hlen i j left (m + 1) s

/-- The loop over `j`, example.go:67-122. -/
def jLoop (hlen i : Nat) : Nat → Nat → D2 → Go (D2 × Bool)
  | 0, _, s => .ok (s, false)
  | left + 1, j, s => do
    let (s, stop) ← mLoop hash hlen i j 7 1 s
    if stop then return (s, true) else jLoop hlen i left (j + 1) s

/-- The loop over `i`, example.go:66-123; also returns `i`. -/
def iLoop (hlen : Nat) : Nat → Nat → D2 → Go (D2 × Nat)
  | 0, i, s => .ok (s, i)
  | left + 1, i, s => do
    let (s, stop) ← jLoop hash hlen i 8 0 s
    if stop then return (s, i) else iLoop hlen left (i + 1) s

/-- The loop over `hlen`, example.go:63-129. -/
def lenLoop : Nat → Nat → List U8 → List U8 → List Line → Go (List Line)
  | 0, _, _, _, ls => .ok ls
  | left + 1, hlen, a, b, ls => do
    let (s, i) ← iLoop hash hlen hlen 0 ⟨a, b, 0, 0, ls⟩
    let ls := if s.z < MAXPAIR then s.lines ++ [.success i s.m (s.z / 2)] else s.lines
    lenLoop left (hlen + 1) s.a s.b ls

/-- `driver2`, example.go:43-131: the printed lines. `a` is `qa[0:70]` and `b` is `qb[1:71]`. -/
def driver2 : Go (List Line) :=
  lenLoop hash MAXLEN 0 (List.replicate MAXLEN 0#8) (List.replicate MAXLEN 0#8) []

end

/-! ## The benchmarks -/

/-- The body of the loop of `checkForDups64`, example.go:177-187, for index `k`: `(i, dups)`. -/
def dupStep64 (u : List U64) (k : Nat) (d : Nat × Nat) : Go (Nat × Nat) := do
  let v ← Go.idx u k
  if k = 0 ∨ d.1 = k then return d
  else do
    let x ← Go.idx u d.1
    if x = v then return (d.1, d.2 + 1) else return (k, d.2)

/-- `checkForDups64`, example.go:175-189. -/
def checkForDups64 (u : List U64) : Go Nat := do
  let d ← Go.forRange 0 u.length (dupStep64 u) (0, 0)
  return d.2

/-- The key of `benchmark64` for `i`, example.go:203-206: the four low bytes of `i`, six times. -/
def key64 (i : Nat) : List U8 :=
  let b := [BitVec.ofNat 8 (i &&& 0xFF), BitVec.ofNat 8 ((i >>> 8) &&& 0xFF), BitVec.ofNat 8 ((i >>> 16) &&& 0xFF), BitVec.ofNat 8 ((i >>> 24) &&& 0xFF)]
  b ++ b ++ (b ++ b) ++ (b ++ b)

/-- `benchmark64`, example.go:196-229: the printed number of duplicates. `sort` is `hashes.Sort()`. Allocation of a negative number of elements
panics; exhaustion of memory is not modelled. -/
def benchmark64 (sort : List U64 → List U64) (n : Int) : Go Nat := do
  if n < 0 then .error .slice
  else do
    let hashes ← Go.forRange 0 n.toNat (fun i hs => do
      let h ← Model.Jenkins.Hash264 (key64 i) 0
      return hs ++ [h]) []
    checkForDups64 (sort hashes)

/-- The key of `benchmark32` for `i`, example.go:244: the shifts are applied to `byte(i)`. -/
def key32 (i : Nat) : List U8 :=
  let b : U8 := BitVec.ofNat 8 i
  [b &&& 0xFF, (b >>> 8) &&& 0xFF, (b >>> 16) &&& 0xFF, (b >>> 24) &&& 0xFF]

/-- The loop of `benchmark32`, example.go:243-248: the results, which the program drops. -/
def benchmark32 (n : Int) : Go (List U32) :=
  Go.forRange 0 n.toNat (fun i hs => do
    let h ← Model.Jenkins.Hash232 (key32 i) 0
    return hs ++ [h]) []

/-- The string of `main`, example.go:300. -/
def q : List U8 := "This is the time for all good men to come to the aid of their country...".toUTF8.toList.map fun b => BitVec.ofNat 8 b.toNat

/-- The three word hashes of `main`, example.go:305-308. -/
def mainWords (q : List U8) : Go (U32 × U32 × U32) := do
  let u ← stu q
  let h1 ← Model.Jenkins.HashWordsLen u (((q.length : Int) - 1).tdiv 4) 13
  let h2 ← Model.Jenkins.HashWordsLen u (((q.length : Int) - 5).tdiv 4) 13
  let h3 ← Model.Jenkins.HashWordsLen u (((q.length : Int) - 9).tdiv 4) 13
  return (h1, h2, h3)

/-- The other string of `main`, example.go:322-332. -/
def fourScore : List U8 := "Four score and seven years ago".toUTF8.toList.map fun b => BitVec.ofNat 8 b.toNat

/-- The six string hashes of `main` in the order printed, example.go:311-333. -/
def mainStrings : Go (List (U32 × U32)) := do
  let r1 ← Model.Jenkins.HashString [] 0#32 0#32
  let r2 ← Model.Jenkins.HashString [] 0#32 0xdeadbeef#32
  let r3 ← Model.Jenkins.HashString [] 0xdeadbeef#32 0xdeadbeef#32
  let r4 ← Model.Jenkins.HashString fourScore 0#32 0#32
  let r5 ← Model.Jenkins.HashString fourScore 0#32 1#32
  let r6 ← Model.Jenkins.HashString fourScore 1#32 0#32
  return [r1, r2, r3, r4, r5, r6]

end Verif.Model.JenkinsExample
