import Verif.Gen.Threefish256
import Verif.Gen.Threefish512
import Verif.Gen.Threefish1024

/-!
# Model of /repo/threefish

The unrolled bodies are in `Verif/Gen/Threefish{256,512,1024}.lean`; this file models everything around them. The three Go types
`threefish256`, `threefish512`, `threefish1024` differ only in the number of words and in the unrolled code, so one structure
with a `size` field models them.

Simplification: Go `int`s are unbounded. A call that panics has no resulting state.
-/

namespace Verif.Model.Threefish
open Verif Verif.Arx

/-- The three implementations of `cipherInternal`, threefish.go:41-67. -/
inductive Size where
  | s256 | s512 | s1024
  deriving DecidableEq, Repr

/-- `CIPHER_QWORDS_256/512/1024`, threefish256.go:28, threefish512.go:28, threefish1024.go:28. -/
def Size.words : Size → Nat
  | .s256 => 4
  | .s512 => 8
  | .s1024 => 16

/-- `threefish256`, threefish256.go:32-36 (and the same lines of the two other files). The lists stand for arrays of 3, words + 1,
words and words elements. -/
structure Internal where
  size : Size
  expanedTweak : List U64
  expanedKey : List U64
  tmpData1 : List U64
  tmpData2 : List U64
  deriving DecidableEq, Repr

/-- `Cipher`, threefish.go:71-74. -/
structure Cipher where
  stateSize : Nat
  int : Internal
  deriving DecidableEq, Repr

/-- `setTweak(tweak, expandedTweak)`, threefish.go:259-265. `none` is a nil slice; the destination has three elements. -/
def setTweak (tweak : Option (List U64)) (expandedTweak : List U64) : Go (List U64) :=
  match tweak with
  | none => .ok expandedTweak
  | some t => do
    let a ← Go.idx t 0
    let b ← Go.idx t 1
    return [a, b, a ^^^ b]

/-- `KEY_SCHEDULE_CONST`, threefish.go:35. -/
def KEY_SCHEDULE_CONST : U64 := 0x1BD11BDAA9FC1A22#64

/-- One iteration of threefish.go:271-274. -/
def setKeyStep (key : List U64) (i : Nat) (q : List U64 × U64) : Go (List U64 × U64) := do
  let x ← Go.idx key i
  let e ← Go.set q.1 i x
  return (e, q.2 ^^^ x)

/-- `setKey(key, expandedKey)`, threefish.go:267-276. -/
def setKey (key expandedKey : List U64) : Go (List U64) := do
  let q ← Go.forRange 0 (expandedKey.length - 1) (setKeyStep key) (expandedKey, KEY_SCHEDULE_CONST)
  Go.set q.1 (expandedKey.length - 1) q.2

/-- `new(threefish256)` and the two lines after it, threefish256.go:40-45 (512, 1024: same lines). -/
def blank (s : Size) (tweak : Option (List U64)) : Go Internal := do
  let t ← setTweak tweak (List.replicate 3 0#64)
  return { size := s, expanedTweak := t, expanedKey := (List.replicate (s.words + 1) 0#64).set s.words KEY_SCHEDULE_CONST,
           tmpData1 := List.replicate s.words 0#64, tmpData2 := List.replicate s.words 0#64 }

/-- One iteration of threefish256.go:50-52: `tmpkey[i] = binary.LittleEndian.Uint64(key[i*8 : i*8+8])`. -/
def keyWord (key : List U8) (i : Nat) (tmpkey : List U64) : Go (List U64) := do
  let b ← Go.slice key (i * 8) (i * 8 + 8)
  let w ← Go.binLE64 b 0
  Go.set tmpkey i w

/-- `newThreefish256(key []byte, tweak)`, threefish256.go:39-56 (512, 1024: same lines). `none` is a nil key. -/
def newBytes (s : Size) (key : Option (List U8)) (tweak : Option (List U64)) : Go Internal := do
  let c ← blank s tweak
  match key with
  | none => return c
  | some k => do
    let tmpkey ← Go.forRange 0 s.words (keyWord k) (List.replicate (s.words + 1) 0#64)
    let e ← setKey tmpkey c.expanedKey
    return { c with expanedKey := e }

/-- `newThreefish256_64(key, tweak)`, threefish256.go:59-69 (512, 1024: same lines). -/
def newWords (s : Size) (key : List U64) (tweak : Option (List U64)) : Go Internal := do
  let c ← blank s tweak
  let e ← setKey key c.expanedKey
  return { c with expanedKey := e }

/-- `New`, threefish.go:93-108. The inner `.error n` is the returned `KeySizeError(n)`. -/
def New (key : List U8) (tweak : Option (List U64)) : Go (Except Int Cipher) :=
  if key.length = 32 then do
    let i ← newBytes .s256 (some key) tweak
    return .ok ⟨key.length * 8, i⟩
  else if key.length = 64 then do
    let i ← newBytes .s512 (some key) tweak
    return .ok ⟨key.length * 8, i⟩
  else if key.length = 128 then do
    let i ← newBytes .s1024 (some key) tweak
    return .ok ⟨key.length * 8, i⟩
  else return .error key.length

/-- `New64`, threefish.go:121-136. -/
def New64 (key : List U64) (tweak : Option (List U64)) : Go (Except Int Cipher) :=
  if key.length = 4 then do
    let i ← newWords .s256 key tweak
    return .ok ⟨key.length * 8, i⟩
  else if key.length = 8 then do
    let i ← newWords .s512 key tweak
    return .ok ⟨key.length * 8, i⟩
  else if key.length = 16 then do
    let i ← newWords .s1024 key tweak
    return .ok ⟨key.length * 8, i⟩
  else return .error key.length

/-- `NewSize`, threefish.go:143-158. -/
def NewSize (size : Int) : Go (Except Int Cipher) :=
  if size = 256 then do
    let i ← newBytes .s256 none none
    return .ok ⟨256, i⟩
  else if size = 512 then do
    let i ← newBytes .s512 none none
    return .ok ⟨512, i⟩
  else if size = 1024 then do
    let i ← newBytes .s1024 none none
    return .ok ⟨1024, i⟩
  else return .error size

/-- `BlockSize`, threefish.go:162-164. -/
def Cipher.BlockSize (c : Cipher) : Nat := c.stateSize / 8

/-- The locals `k0..`, `t0`, `t1`, `t2` of the unrolled code, e.g. threefish256.go:90-98 (reads of arrays of known length). -/
def Internal.par (c : Internal) (i : Nat) : U64 :=
  if i ≤ c.size.words then c.expanedKey.getD i 0#64 else c.expanedTweak.getD (i - (c.size.words + 1)) 0#64

/-- Run unrolled code on `n` locals loaded from `b` and read them back. threefish256.go:83-430 and the like. -/
def runCode {n : Nat} (par : Nat → U64) (code : List (Instr n)) (b : List U64) : List U64 :=
  List.ofFn (run par (fun i => b.getD i.val 0#64) code)

/-- `encrypt` between its loads and its stores: threefish256.go:90-428, threefish512.go:94-764, threefish1024.go:102-1581. The operands
of the final stores `output[i] = b_i + ...` are the last instructions of the generated list. -/
def Internal.encBody (c : Internal) (b : List U64) : List U64 :=
  match c.size with
  | .s256 => runCode c.par Gen.Threefish256.encrypt b
  | .s512 => runCode c.par Gen.Threefish512.encrypt b
  | .s1024 => runCode c.par Gen.Threefish1024.encrypt b

/-- `decrypt` between its loads and its stores: threefish256.go:439-923, threefish512.go:778-1738, threefish1024.go:1603-3724. -/
def Internal.decBody (c : Internal) (b : List U64) : List U64 :=
  match c.size with
  | .s256 => runCode c.par Gen.Threefish256.decrypt b
  | .s512 => runCode c.par Gen.Threefish512.decrypt b
  | .s1024 => runCode c.par Gen.Threefish1024.decrypt b

/-- A Go slice of the caller: a window of one memory, so that two slices may overlap. `cap` is its capacity. For threefish.go:174-244. -/
structure Win where
  off : Nat
  len : Nat
  cap : Nat
  deriving DecidableEq, Repr

/-- A window that lies in memory; every Go slice is one. For threefish.go:174-244. -/
structure Win.Valid (w : Win) (mem : List α) : Prop where
  lencap : w.len ≤ w.cap
  mem : w.off + w.cap ≤ mem.length

/-- `w[i]`. For threefish.go:174-244. -/
def Win.get (w : Win) (mem : List α) (i : Nat) : Go α := if i < w.len then Go.idx mem (w.off + i) else .error .index

/-- `w[i] = x`. For threefish.go:174-244. -/
def Win.put (w : Win) (x : α) (i : Nat) (mem : List α) : Go (List α) := if i < w.len then Go.set mem (w.off + i) x else .error .index

/-- The loads `b0 := input[0]`, `b1 := input[1]`, ..., threefish256.go:85-88. -/
def loads (mem : List U64) (input : Win) (n : Nat) : Go (List U64) :=
  Go.forRange 0 n (fun i b => do let x ← input.get mem i; return b ++ [x]) []

/-- The stores `output[0] = ...`, `output[1] = ...`, ..., threefish256.go:425-428. (threefish512.go:1739-1746 and
threefish1024.go store in descending order: a store does not read memory, so the order shows only in a call that panics.) -/
def stores (out : List U64) (output : Win) (mem : List U64) (n : Nat) : Go (List U64) :=
  Go.forRange 0 n (fun i mem => do let x ← Go.idx out i; output.put x i mem) mem

/-- `Encrypt64(dst, src)`, threefish.go:225-227, calling `encrypt(src, dst)`. The result is the memory. -/
def Cipher.Encrypt64 (c : Cipher) (mem : List U64) (dst src : Win) : Go (List U64) := do
  let b ← loads mem src c.int.size.words
  stores (c.int.encBody b) dst mem c.int.size.words

/-- `Decrypt64(dst, src)`, threefish.go:238-240. -/
def Cipher.Decrypt64 (c : Cipher) (mem : List U64) (dst src : Win) : Go (List U64) := do
  let b ← loads mem src c.int.size.words
  stores (c.int.decBody b) dst mem c.int.size.words

/-- `w[lo:lo+8]`: allowed up to the capacity. For threefish.go:174-222. -/
def Win.sub8 (w : Win) (lo : Nat) : Go Win := if lo + 8 ≤ w.cap then .ok ⟨w.off + lo, 8, w.cap - lo⟩ else .error .slice

/-- The eight loads of `binary.LittleEndian.Uint64` (standard library). For threefish.go:174-222. -/
def readLE (mem : List U8) (w : Win) : Go U64 := do
  let bs ← Go.forRange 0 8 (fun i b => do let x ← w.get mem i; return b ++ [x]) []
  return le64 bs

/-- The eight stores of `binary.LittleEndian.PutUint64` (standard library). For threefish.go:174-222. -/
def writeLE (mem : List U8) (w : Win) (x : U64) : Go (List U8) :=
  Go.forRange 0 8 (fun i mem => do let b ← Go.idx (leBytes 8 x.toNat) i; w.put b i mem) mem

/-- threefish.go:181-183: `tmpin[i] = binary.LittleEndian.Uint64(src[i*8 : i*8+8])`. -/
def loadBytes (mem : List U8) (src : Win) (i : Nat) (tmpin : List U64) : Go (List U64) := do
  let w ← src.sub8 (i * 8)
  let x ← readLE mem w
  Go.set tmpin i x

/-- threefish.go:186-188: `binary.LittleEndian.PutUint64(dst[i*8:i*8+8], tmpout[i])`. -/
def storeBytes (tmpout : List U64) (dst : Win) (i : Nat) (mem : List U8) : Go (List U8) := do
  let w ← dst.sub8 (i * 8)
  let x ← Go.idx tmpout i
  writeLE mem w x

/-- `Encrypt(dst, src)`, threefish.go:174-189. `tmpin`, `tmpout` are the cipher's own arrays, which keep their contents. -/
def Cipher.Encrypt (c : Cipher) (mem : List U8) (dst src : Win) : Go (Cipher × List U8) := do
  let tmpin ← Go.forRange 0 (c.stateSize / 64) (loadBytes mem src) c.int.tmpData1
  let tmpout := c.int.encBody tmpin
  let mem' ← Go.forRange 0 (c.stateSize / 64) (storeBytes tmpout dst) mem
  return ({ c with int := { c.int with tmpData1 := tmpin, tmpData2 := tmpout } }, mem')

/-- `Decrypt(dst, src)`, threefish.go:199-214. -/
def Cipher.Decrypt (c : Cipher) (mem : List U8) (dst src : Win) : Go (Cipher × List U8) := do
  let tmpin ← Go.forRange 0 (c.stateSize / 64) (loadBytes mem src) c.int.tmpData1
  let tmpout := c.int.decBody tmpin
  let mem' ← Go.forRange 0 (c.stateSize / 64) (storeBytes tmpout dst) mem
  return ({ c with int := { c.int with tmpData1 := tmpin, tmpData2 := tmpout } }, mem')

/-- `SetTweak`, threefish.go:246-248 and threefish256.go:75-77. -/
def Cipher.SetTweak (c : Cipher) (tweak : Option (List U64)) : Go Cipher := do
  let t ← setTweak tweak c.int.expanedTweak
  return { c with int := { c.int with expanedTweak := t } }

/-- `SetKey`, threefish.go:254-256 and threefish256.go:79-81. -/
def Cipher.SetKey (c : Cipher) (key : List U64) : Go Cipher := do
  let e ← setKey key c.int.expanedKey
  return { c with int := { c.int with expanedKey := e } }

end Verif.Model.Threefish
