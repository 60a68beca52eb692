import Verif.Model.StreamHeap
import Verif.Spec.Murmur3
import Verif.Spec.Jenkins
import Verif.Spec.SipHash

/-!
# What a program may expect of hash objects and its own memory

An ideal object is a value: it has no memory of its own that anything could share, and a call sees only the bytes of the argument at the
time of the call. `ideal` runs a program with ideal objects; the program's memory is changed by the program's own stores and by `append`
to the slice given to `Sum`, and by nothing else.
-/

namespace Verif.Spec.StreamHeap
open Verif
open Verif.Model.KeccakHeap (CSlice poke)
open Verif.Model.StreamHeap (Op check objAt appendTo)

structure Ideal (ι σ : Type) where
  new : List U8 → ι → Go σ
  write : σ → List U8 → σ
  reset : σ → σ
  sum : σ → σ × List U8
  value : σ → σ × List U64

/-- The bytes of a slice. -/
def bytesOf (mem : List (List U8)) (s : CSlice) : List U8 := ((mem.getD s.arr []).drop s.off).take s.len

def ideal (I : Ideal ι σ) (grow : Nat → Nat) : List (List U8) → List σ → List (Op ι) → Go (List HOut × List (List U8))
  | mem, _, [] => .ok ([], mem)
  | mem, ss, .new k i :: ops => do
    let _ ← check mem k
    let s ← I.new (bytesOf mem k) i
    let (o, m) ← ideal I grow mem (ss ++ [s]) ops
    return (.done :: o, m)
  | mem, ss, .write j p :: ops => do
    let _ ← check mem p
    let s ← objAt ss j
    let (o, m) ← ideal I grow mem (ss.set j (I.write s (bytesOf mem p))) ops
    return (.wrote p.len :: o, m)
  | mem, ss, .sum j b :: ops => do
    let _ ← check mem b
    let s ← objAt ss j
    let (o, m) ← ideal I grow (appendTo grow mem b (I.sum s).2) (ss.set j (I.sum s).1) ops
    return (.bytes (bytesOf mem b ++ (I.sum s).2) :: o, m)
  | mem, ss, .value j :: ops => do
    let s ← objAt ss j
    let (o, m) ← ideal I grow mem (ss.set j (I.value s).1) ops
    return (.value (I.value s).2 :: o, m)
  | mem, ss, .reset j :: ops => do
    let s ← objAt ss j
    let (o, m) ← ideal I grow mem (ss.set j (I.reset s)) ops
    return (.done :: o, m)
  | mem, ss, .poke a i v :: ops => ideal I grow (poke mem a i v) ss ops
  | mem, ss, .copy j :: ops => do
    let s ← objAt ss j
    let (o, m) ← ideal I grow mem (ss ++ [s]) ops
    return (.done :: o, m)

/-- The program makes no copy of an object. -/
def NoCopy (ops : List (Op ι)) : Prop := ∀ j, Op.copy j ∉ ops

/-! ## The ideal objects -/

/-- An object is the list of the bytes written since it was made or reset, and results are functions of these. -/
def byBytes (ι : Type) (digest : List U8 → List U8) (value : List U8 → List U64) : Ideal ι (List U8) where
  new _ _ := .ok []
  write m p := m ++ p
  reset _ := []
  sum m := (m, digest m)
  value m := (m, value m)

/-- murmur3: the numeric accessors are MurmurHash3, `Sum` is the unfinalised running value (C22). -/
def murmur32 : Ideal Unit (List U8) :=
  byBytes Unit (fun m => beBytes 4 (Murmur3.body32 0#32 m).toNat) (fun m => [(Murmur3.x86_32 0#32 m).setWidth 64])
def murmur64 : Ideal Unit (List U8) :=
  byBytes Unit (fun m => beBytes 8 (Murmur3.body128 (0#64, 0#64) m).1.toNat) (fun m => [(Murmur3.x64_128 0#64 m).1])
def murmur128 : Ideal Unit (List U8) :=
  byBytes Unit (fun m => beBytes 8 (Murmur3.body128 (0#64, 0#64) m).1.toNat ++ beBytes 8 (Murmur3.body128 (0#64, 0#64) m).2.toNat)
    (fun m => [(Murmur3.x64_128 0#64 m).1, (Murmur3.x64_128 0#64 m).2])

/-- An object of `New332c` or `New364`: its seed, the bytes written, and the two words that every result replaces (C36). -/
structure Lookup3 where
  seed : U32 × U32
  m : List U8
  words : U32 × U32

def lookup3 (seeds : ι → U32 × U32) (digest : U32 × U32 → List U8) (value : U32 × U32 → List U64) : Ideal ι Lookup3 where
  new _ i := .ok ⟨seeds i, [], seeds i⟩
  write s p := { s with m := s.m ++ p }
  reset s := ⟨s.seed, [], s.seed⟩
  sum s :=
    let r := Jenkins.hashlittle2 s.words.1 s.words.2 s.m
    ({ s with words := r }, digest r)
  value s :=
    let r := Jenkins.hashlittle2 s.words.1 s.words.2 s.m
    ({ s with words := r }, value r)

def jenkins332c : Ideal U32 Lookup3 := lookup3 (fun s => (s, s)) (fun r => beBytes 4 r.1.toNat) (fun r => [r.1.setWidth 64])
def jenkins364 : Ideal U64 Lookup3 :=
  lookup3 (fun s => (s.setWidth 32, (s >>> 32).setWidth 32)) (fun r => [0#8, 0#8, 0#8, 0#8] ++ beBytes 4 r.1.toNat)
    (fun r => [r.2.setWidth 64 <<< 32 ||| r.1.setWidth 64])

/-- `New232` ignores its seed (C38). -/
def jenkins232 : Ideal U32 (List U8) :=
  byBytes U32 (fun m => beBytes 4 (Jenkins.hash232 (m.take (m.length % 2 ^ 32)) 0#32).toNat)
    (fun m => [(Jenkins.hash232 (m.take (m.length % 2 ^ 32)) 0#32).setWidth 64])

/-- siphash: the key is read by the constructor (16 bytes of it); a shorter one is an index out of range. -/
def sip (digest : U64 → U64 → List U8 → List U8) (value : U64 → U64 → List U8 → List U64) : Ideal Unit ((U64 × U64) × List U8) where
  new key _ := if 16 ≤ key.length then .ok ((le64 key, le64 (key.drop 8)), []) else .error .index
  write s p := (s.1, s.2 ++ p)
  reset s := (s.1, [])
  sum s := (s, digest s.1.1 s.1.2 s.2)
  value s := (s, value s.1.1 s.1.2 s.2)

def siphash64 : Ideal Unit ((U64 × U64) × List U8) :=
  sip (fun k0 k1 m => leBytes 8 (SipHash.hash64 2 4 k0 k1 m).toNat) (fun k0 k1 m => [SipHash.hash64 2 4 k0 k1 m])
def siphash128 : Ideal Unit ((U64 × U64) × List U8) :=
  sip (fun k0 k1 m => leBytes 8 (SipHash.hash128 2 4 k0 k1 m).1.toNat ++ leBytes 8 (SipHash.hash128 2 4 k0 k1 m).2.toNat)
    (fun k0 k1 m => [(SipHash.hash128 2 4 k0 k1 m).1, (SipHash.hash128 2 4 k0 k1 m).2])

end Verif.Spec.StreamHeap
