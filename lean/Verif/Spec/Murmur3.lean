import Verif.Go

/-!
# MurmurHash3 (Appleby), x86_32 and x64_128, stated over byte strings

Written from the reference definition: the message is cut into little-endian words, each word is
mixed into the running value, the at most one incomplete block is read as a (shorter) little-endian
number and mixed in the same way (a missing tail is the number 0, whose mix is 0), then the length
and the finaliser.
-/

namespace Verif.Spec.Murmur3

def mixK32 (k : U32) : U32 := (k * 0xcc9e2d51#32).rotateLeft 15 * 0x1b873593#32

def block32 (h k : U32) : U32 := (h ^^^ mixK32 k).rotateLeft 13 * 5#32 + 0xe6546b64#32

def fmix32 (h : U32) : U32 :=
  let h := h ^^^ h >>> 16
  let h := h * 0x85ebca6b#32
  let h := h ^^^ h >>> 13
  let h := h * 0xc2b2ae35#32
  h ^^^ h >>> 16

/-- Running value after all complete blocks. -/
def body32 (seed : U32) (m : List U8) : U32 := (blocks 4 m).foldl (fun h b => block32 h (le32 b)) seed

/-- MurmurHash3_x86_32. -/
def x86_32 (seed : U32) (m : List U8) : U32 :=
  let h := body32 seed m ^^^ mixK32 (BitVec.ofNat 32 (leNat (tailOf 4 m)))
  fmix32 (h ^^^ BitVec.ofNat 32 m.length)

def mixK1 (k : U64) : U64 := (k * 0x87c37b91114253d5#64).rotateLeft 31 * 0x4cf5ad432745937f#64
def mixK2 (k : U64) : U64 := (k * 0x4cf5ad432745937f#64).rotateLeft 33 * 0x87c37b91114253d5#64

def block128 (h : U64 × U64) (k1 k2 : U64) : U64 × U64 :=
  let h1 := ((h.1 ^^^ mixK1 k1).rotateLeft 27 + h.2) * 5#64 + 0x52dce729#64
  let h2 := ((h.2 ^^^ mixK2 k2).rotateLeft 31 + h1) * 5#64 + 0x38495ab5#64
  (h1, h2)

def fmix64 (k : U64) : U64 :=
  let k := k ^^^ k >>> 33
  let k := k * 0xff51afd7ed558ccd#64
  let k := k ^^^ k >>> 33
  let k := k * 0xc4ceb9fe1a85ec53#64
  k ^^^ k >>> 33

def body128 (seed : U64 × U64) (m : List U8) : U64 × U64 :=
  (blocks 16 m).foldl (fun h b => block128 h (le64 b) (le64 (b.drop 8))) seed

def final128 (h : U64 × U64) : U64 × U64 :=
  let h1 := h.1 + h.2
  let h2 := h.2 + h1
  let h1 := fmix64 h1
  let h2 := fmix64 h2
  let h1 := h1 + h2
  let h2 := h2 + h1
  (h1, h2)

/-- MurmurHash3_x64_128 (the reference takes one seed for both halves). -/
def x64_128 (seed : U64) (m : List U8) : U64 × U64 :=
  let h := body128 (seed, seed) m
  let t := tailOf 16 m
  let h1 := h.1 ^^^ mixK1 (BitVec.ofNat 64 (leNat (t.take 8)))
  let h2 := h.2 ^^^ mixK2 (BitVec.ofNat 64 (leNat (t.drop 8)))
  let n := BitVec.ofNat 64 m.length
  final128 (h1 ^^^ n, h2 ^^^ n)

end Verif.Spec.Murmur3
