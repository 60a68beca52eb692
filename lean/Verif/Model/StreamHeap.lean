import Verif.Model.KeccakHeap
import Verif.Model.Murmur3
import Verif.Model.Jenkins
import Verif.Model.SipHash

/-!
# Memory model of the hash objects of murmur3, jenkins and siphash

Slices, arrays and `append` are those of `Model/KeccakHeap.lean`: an array belongs to the caller or to a hash object, and `append` writes in
place if the capacity allows. Here a program makes any number of objects, and calls their methods with slices of its own arrays, which may
overlap and have spare capacity; between the calls it stores bytes into its arrays. The slice returned by `Sum` is kept by the program: if
`append` had to allocate, it is one more array of the caller.

Simplification: a store, a method call or a constructor call is one step (no concurrent use).
-/

namespace Verif.Model.StreamHeap
open Verif
open Verif.Model.KeccakHeap (Heap Slice nil append overwrite CSlice poke)

/-- The constructor and the methods of a kind of hash object: `τ` is the object, `ι` the number the constructor takes. Every `Sum(b)` ends
with `append(b, d...)` for the bytes `d` of a fresh value (murmur32.go:40, murmur64.go:24, murmur128.go:47, jenkins.go:935, 1013, 1101,
siphash.go:427-454): `sum` is `d`. -/
structure MemHasher (ι τ : Type) where
  new : Heap → Slice → ι → Go (Heap × τ)
  write : Heap → τ → Slice → Go (Heap × τ × Nat)
  reset : τ → τ
  sum : Heap → τ → Go (τ × List U8)
  value : Heap → τ → Go (τ × List U64)

/-! ## murmur3 -/

/-- `digest`, murmur.go:25-30, with the running hash: `buf` is the number of the array, `tail` a slice. -/
structure MurObj (σ : Type) where
  h : σ
  clen : U64
  buf : Nat
  tail : Slice

/-- `new(digestN)` and `Reset`, murmur32.go:27-32, murmur128.go:34-39: the array `buf` is allocated with the object. -/
def murNew (x : Murmur3.Mixer σ) (h : Heap) : Heap × MurObj σ :=
  ({ h with own := h.own ++ [List.replicate 16 0#8] }, ⟨x.init, 0#64, h.own.length, nil⟩)

/-- murmur.go:38-50: what is hashed next, after the pending bytes were stuck back. -/
def murStick (x : Murmur3.Mixer σ) (grow : Nat → Nat) (h : Heap) (d : MurObj σ) (p : Slice) : Go (Heap × MurObj σ × Slice) := do
  if d.tail.len > 0 then
    let nfree := x.size - d.tail.len
    if nfree < p.len then
      let pre ← p.upto nfree
      let (h, block) := append grow h d.tail (h.read pre)
      let p ← p.after nfree
      let (s, _) ← x.bmix d.h (h.read block)
      return (h, { d with h := s }, p)
    else
      let (h, p) := append grow h d.tail (h.read p)
      return (h, d, p)
  else return (h, d, p)

/-- `Write`, murmur.go:34-59. `bmix` returns `p[nblocks*d.Size():]` with `nblocks = len(p)/size` (murmur32.go:47, 60, murmur128.go:59, 83). -/
def murWrite (x : Murmur3.Mixer σ) (grow : Nat → Nat) (h : Heap) (d : MurObj σ) (p : Slice) : Go (Heap × MurObj σ × Nat) := do
  let n := p.len
  let (h, d, p) ← murStick x grow h { d with clen := d.clen + BitVec.ofNat 64 n } p
  let (s, _) ← x.bmix d.h (h.read p)
  let tail ← p.after (p.len / x.size * x.size : Nat)
  let nn := min 16 tail.len
  let h := h.put (.own d.buf) 0 ((h.read tail).take nn)
  return (h, { d with h := s, tail := ⟨.own d.buf, 0, nn, 16⟩ }, n)

/-- `Reset`, murmur.go:61-65. -/
def murReset (x : Murmur3.Mixer σ) (d : MurObj σ) : MurObj σ := { d with clen := 0#64, tail := nil, h := x.init }

/-- The object as the value-level model has it, with the pending bytes read from memory. For murmur.go:25-31. -/
def MurObj.view (h : Heap) (d : MurObj σ) : Murmur3.Digest σ := ⟨d.h, d.clen, d.tail.len, h.read d.tail⟩

/-- The objects of `New32`, with the methods of murmur32.go:38-41, 63-92. -/
def mem32 (grow : Nat → Nat) : MemHasher Unit (MurObj U32) where
  new h _ _ := .ok (murNew Murmur3.mixer32 h)
  write := murWrite Murmur3.mixer32 grow
  reset := murReset Murmur3.mixer32
  sum h d := .ok (d, (d.view h).sumBytes32 [])
  value h d := do return (d, [(← (d.view h).sum32).setWidth 64])

/-- The objects of `New64`, murmur64.go:15-32. -/
def mem64 (grow : Nat → Nat) : MemHasher Unit (MurObj (U64 × U64)) where
  new h _ _ := .ok (murNew Murmur3.mixer128 h)
  write := murWrite Murmur3.mixer128 grow
  reset := murReset Murmur3.mixer128
  sum h d := .ok (d, (d.view h).sumBytes64 [])
  value h d := do return (d, [← (d.view h).sum64])

/-- The objects of `New128`, murmur128.go:34-54, 86-162. -/
def mem128 (grow : Nat → Nat) : MemHasher Unit (MurObj (U64 × U64)) where
  new h _ _ := .ok (murNew Murmur3.mixer128 h)
  write := murWrite Murmur3.mixer128 grow
  reset := murReset Murmur3.mixer128
  sum h d := .ok (d, (d.view h).sumBytes128 [])
  value h d := do
    let (a, b) ← (d.view h).sum128
    return (d, [a, b])

/-! ## jenkins -/

/-- A state of package jenkins: `core` is the struct, except that its field `tail` is the slice here. For the state types of jenkins.go. -/
structure JenObj (σ : Type) where
  core : σ
  tail : Slice

/-- `Write`, jenkins.go:923-928, 1001-1006, 1090-1095: `count` is `d.clen += l`. -/
def jenWrite (count : σ → Nat → σ) (grow : Nat → Nat) (h : Heap) (d : JenObj σ) (p : Slice) : Go (Heap × JenObj σ × Nat) :=
  let (h, tail) := append grow h d.tail (h.read p)
  .ok (h, ⟨count d.core p.len, tail⟩, p.len)

/-- The objects of `New` and `New332c`, jenkins.go:874-943. -/
def mem332c (grow : Nat → Nat) : MemHasher U32 (JenObj Jenkins.State332c) where
  new h _ seed := .ok (h, ⟨Jenkins.new332c seed, nil⟩)
  write := jenWrite (fun s n => { s with clen := s.clen + n }) grow
  reset d := ⟨d.core.reset, nil⟩
  sum h d := do
    let (s, r) ← ({ d.core with tail := h.read d.tail } : Jenkins.State332c).sum []
    return (⟨s, d.tail⟩, r)
  value h d := do
    let (s, r) ← ({ d.core with tail := h.read d.tail } : Jenkins.State332c).sum32
    return (⟨s, d.tail⟩, [r.setWidth 64])

/-- The objects of `New364`, jenkins.go:969-1027. -/
def mem364 (grow : Nat → Nat) : MemHasher U64 (JenObj Jenkins.State364) where
  new h _ seed := .ok (h, ⟨Jenkins.new364 seed, nil⟩)
  write := jenWrite (fun s n => { s with clen := s.clen + n }) grow
  reset d := ⟨d.core.reset, nil⟩
  sum h d := do
    let (s, r) ← ({ d.core with tail := h.read d.tail } : Jenkins.State364).sum []
    return (⟨s, d.tail⟩, r)
  value h d := do
    let (s, r) ← ({ d.core with tail := h.read d.tail } : Jenkins.State364).sum64
    return (⟨s, d.tail⟩, [r])

/-- The objects of `New232`, jenkins.go:1059-1108. -/
def mem232 (grow : Nat → Nat) : MemHasher U32 (JenObj Jenkins.State232) where
  new h _ seed := .ok (h, ⟨Jenkins.new232 seed, nil⟩)
  write := jenWrite (fun s n => { s with clen := s.clen + n }) grow
  reset d := ⟨d.core.reset, nil⟩
  sum h d := do
    let (s, r) ← ({ d.core with tail := h.read d.tail } : Jenkins.State232).sum []
    return (⟨s, d.tail⟩, r)
  value h d := do
    let (s, r) ← ({ d.core with tail := h.read d.tail } : Jenkins.State232).sum32
    return (⟨s, d.tail⟩, [r.setWidth 64])

/-! ## siphash -/

/-- The objects of `New`, siphash.go:50-52: the digest holds an array (`x [BlockSize]byte`) and no slice, and the methods only read the
argument. -/
def memSip : MemHasher Unit SipHash.Digest where
  new h key _ := do return (h, ← SipHash.newDigest 8 (h.read key))
  write h d p := do
    let (d, n) ← d.write (h.read p)
    return (h, d, n)
  reset d := d.reset
  sum _ d := d.sum []
  value _ d := do
    let (d, r) ← d.sum64
    return (d, [r])

/-- The objects of `New128`, siphash.go:57-59 (it has no numeric accessor: `value` is the unexported `sum128`). -/
def memSip128 : MemHasher Unit SipHash.Digest where
  new h key _ := do return (h, ← SipHash.newDigest 16 (h.read key))
  write h d p := do
    let (d, n) ← d.write (h.read p)
    return (h, d, n)
  reset d := d.reset
  sum _ d := d.sum []
  value _ d := do
    let (d, r) ← d.sum128
    return (d, [r.1, r.2])

/-! ## Programs -/

/-- What a program can do: objects and arrays are numbered in the order they are made. `copy` is `d2 := *d`, which only the exported
struct types of package jenkins allow. The calling program, not in the source. -/
inductive Op (ι : Type) where
  | new (key : CSlice) (i : ι)
  | write (o : Nat) (s : CSlice)
  | sum (o : Nat) (b : CSlice)
  | value (o : Nat)
  | reset (o : Nat)
  | poke (arr i : Nat) (v : U8)
  | copy (o : Nat)

/-- Go only makes slices that lie in their array: anything else is not a program. Language semantics. -/
def check (mem : List (List U8)) (s : CSlice) : Go Unit :=
  if s.len ≤ s.cap ∧ s.off + s.cap ≤ (mem.getD s.arr []).length then .ok () else .error .slice

/-- The object with this number. The calling program, not in the source. -/
def objAt (ts : List τ) (o : Nat) : Go τ :=
  match ts[o]? with
  | some t => .ok t
  | none => .error .index

/-- `append(b, d...)` by the program's own slice `b`: in place, or a new array of the program. Language semantics, for the `Sum` methods. -/
def appendTo (grow : Nat → Nat) (mem : List (List U8)) (b : CSlice) (d : List U8) : List (List U8) :=
  if b.len + d.length ≤ b.cap then mem.set b.arr (overwrite (mem.getD b.arr []) (b.off + b.len) d)
  else mem ++ [((mem.getD b.arr []).drop b.off).take b.len ++ d ++ List.replicate (grow (b.len + d.length)) 0#8]

/-- Run a program: what the calls return, and the program's memory at the end. The calling program, not in the source. -/
def run (M : MemHasher ι τ) (grow : Nat → Nat) : Heap → List τ → List (Op ι) → Go (List HOut × List (List U8))
  | h, _, [] => .ok ([], h.caller)
  | h, ts, .new k i :: ops => do
    let _ ← check h.caller k
    let (h, t) ← M.new h k.slice i
    let (o, m) ← run M grow h (ts ++ [t]) ops
    return (.done :: o, m)
  | h, ts, .write j s :: ops => do
    let _ ← check h.caller s
    let t ← objAt ts j
    let (h, t, n) ← M.write h t s.slice
    let (o, m) ← run M grow h (ts.set j t) ops
    return (.wrote n :: o, m)
  | h, ts, .sum j b :: ops => do
    let _ ← check h.caller b
    let t ← objAt ts j
    let (t, d) ← M.sum h t
    let (o, m) ← run M grow { h with caller := appendTo grow h.caller b d } (ts.set j t) ops
    return (.bytes (h.read b.slice ++ d) :: o, m)
  | h, ts, .value j :: ops => do
    let t ← objAt ts j
    let (t, v) ← M.value h t
    let (o, m) ← run M grow h (ts.set j t) ops
    return (.value v :: o, m)
  | h, ts, .reset j :: ops => do
    let t ← objAt ts j
    let (o, m) ← run M grow h (ts.set j (M.reset t)) ops
    return (.done :: o, m)
  | h, ts, .poke a i v :: ops => run M grow { h with caller := poke h.caller a i v } ts ops
  | h, ts, .copy j :: ops => do
    let t ← objAt ts j
    let (o, m) ← run M grow h (ts ++ [t]) ops
    return (.done :: o, m)

end Verif.Model.StreamHeap
