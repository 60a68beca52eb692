import Verif.Go
import Verif.Spec.Stream

/-!
# Model of package murmur3

Files: /repo/murmur3/murmur.go, murmur32.go, murmur64.go, murmur128.go.
`uintptr` walking in the one-shot `Sum32` is modelled by the byte offset from the start of the slice;
`unsafe` loads are little-endian (amd64) and fault outside the slice. `clen int` is a 64-bit word.
The pending bytes `tail` are always a prefix view of the array `buf` (murmur.go:55-56) or nil, so the
state keeps `buf` and the view's length `nn`; `append(d.tail, ...)` writes into `buf`.
-/

namespace Verif.Model.Murmur3

/-! ## 32 bit -/

/-- The body of the block loop, murmur32.go:51-57 (same text at 118-124). -/
def mix32 (h1 k1 : U32) : U32 :=
  let k1 := k1 * 0xcc9e2d51#32
  let k1 := k1 <<< 15 ||| k1 >>> 17
  let k1 := k1 * 0x1b873593#32
  let h1 := h1 ^^^ k1
  let h1 := h1 <<< 13 ||| h1 >>> 19
  h1 * 5#32 + 0xe6546b64#32

/-! The tail switch, murmur32.go:68-81 (same text at 130-143). -/
def t32c1 (t : List U8) (h1 k1 : U32) : Go U32 := do
  let k1 := k1 ^^^ (← Go.idx t 0).setWidth 32
  let k1 := k1 * 0xcc9e2d51#32
  let k1 := k1 <<< 15 ||| k1 >>> 17
  let k1 := k1 * 0x1b873593#32
  return h1 ^^^ k1
/-- `case 2`, murmur32.go:72-74, 134-136. -/
def t32c2 (t : List U8) (h1 k1 : U32) : Go U32 := do t32c1 t h1 (k1 ^^^ (← Go.idx t 1).setWidth 32 <<< 8)
/-- `case 3`, murmur32.go:69-71, 131-133. -/
def t32c3 (t : List U8) (h1 k1 : U32) : Go U32 := do t32c2 t h1 (k1 ^^^ (← Go.idx t 2).setWidth 32 <<< 16)

/-- The dispatch of the switch, murmur32.go:67-81, 129-143. -/
def tail32 (t : List U8) (h1 : U32) : Go U32 :=
  match t.length % 4 with
  | 3 => t32c3 t h1 0#32
  | 2 => t32c2 t h1 0#32
  | 1 => t32c1 t h1 0#32
  | _ => .ok h1

/-- murmur32.go:85-89 (same text at 147-151). -/
def final32 (h1 : U32) : U32 :=
  let h1 := h1 ^^^ h1 >>> 16
  let h1 := h1 * 0x85ebca6b#32
  let h1 := h1 ^^^ h1 >>> 13
  let h1 := h1 * 0xc2b2ae35#32
  h1 ^^^ h1 >>> 16

/-- `Sum32` (one-shot), murmur32.go:105-154. -/
def Sum32 (data : List U8) : Go U32 := do
  let nblocks := data.length / 4
  let h1 ← Go.forRange 0 nblocks (fun i h1 => do return mix32 h1 (← Go.unsafe32 data (i * 4))) 0#32
  let tail ← Go.from_ data (nblocks * 4)
  let h1 ← tail32 tail h1
  let h1 := h1 ^^^ BitVec.ofNat 32 data.length
  return final32 h1

/-! ## 128 bit -/

/-- The body of the block loop, murmur128.go:64-80. -/
def mix128 (h : U64 × U64) (k1 k2 : U64) : U64 × U64 :=
  let (h1, h2) := h
  let k1 := k1 * 0x87c37b91114253d5#64
  let k1 := k1 <<< 31 ||| k1 >>> 33
  let k1 := k1 * 0x4cf5ad432745937f#64
  let h1 := h1 ^^^ k1
  let h1 := h1 <<< 27 ||| h1 >>> 37
  let h1 := h1 + h2
  let h1 := h1 * 5#64 + 0x52dce729#64
  let k2 := k2 * 0x4cf5ad432745937f#64
  let k2 := k2 <<< 33 ||| k2 >>> 31
  let k2 := k2 * 0x87c37b91114253d5#64
  let h2 := h2 ^^^ k2
  let h2 := h2 <<< 31 ||| h2 >>> 33
  let h2 := h2 + h1
  let h2 := h2 * 5#64 + 0x38495ab5#64
  (h1, h2)

/-- `fmix64`, murmur128.go:164-171. -/
def fmix64 (k : U64) : U64 :=
  let k := k ^^^ k >>> 33
  let k := k * 0xff51afd7ed558ccd#64
  let k := k ^^^ k >>> 33
  let k := k * 0xc4ceb9fe1a85ec53#64
  k ^^^ k >>> 33

/-- The byte `t[i]` shifted into place. murmur128.go:92-141. -/
def byteAt (t : List U8) (i s : Nat) : Go U64 := do return (← Go.idx t i).setWidth 64 <<< s

/-! The tail switch, murmur128.go:90-147; `tN` is the code entered at `case N`. -/
def t1 (t : List U8) (h1 h2 k1 : U64) : Go (U64 × U64) := do
  let k1 := k1 ^^^ (← byteAt t 0 0)
  let k1 := k1 * 0x87c37b91114253d5#64
  let k1 := k1 <<< 31 ||| k1 >>> 33
  let k1 := k1 * 0x4cf5ad432745937f#64
  return (h1 ^^^ k1, h2)
/-- murmur128.go:138-140. -/
def t2 (t : List U8) (h1 h2 k1 : U64) : Go (U64 × U64) := do t1 t h1 h2 (k1 ^^^ (← byteAt t 1 8))
/-- murmur128.go:135-137. -/
def t3 (t : List U8) (h1 h2 k1 : U64) : Go (U64 × U64) := do t2 t h1 h2 (k1 ^^^ (← byteAt t 2 16))
/-- murmur128.go:132-134. -/
def t4 (t : List U8) (h1 h2 k1 : U64) : Go (U64 × U64) := do t3 t h1 h2 (k1 ^^^ (← byteAt t 3 24))
/-- murmur128.go:129-131. -/
def t5 (t : List U8) (h1 h2 k1 : U64) : Go (U64 × U64) := do t4 t h1 h2 (k1 ^^^ (← byteAt t 4 32))
/-- murmur128.go:126-128. -/
def t6 (t : List U8) (h1 h2 k1 : U64) : Go (U64 × U64) := do t5 t h1 h2 (k1 ^^^ (← byteAt t 5 40))
/-- murmur128.go:123-125. -/
def t7 (t : List U8) (h1 h2 k1 : U64) : Go (U64 × U64) := do t6 t h1 h2 (k1 ^^^ (← byteAt t 6 48))
/-- murmur128.go:120-122. -/
def t8 (t : List U8) (h1 h2 k1 : U64) : Go (U64 × U64) := do t7 t h1 h2 (k1 ^^^ (← byteAt t 7 56))
/-- murmur128.go:110-119. -/
def t9 (t : List U8) (h1 h2 k1 k2 : U64) : Go (U64 × U64) := do
  let k2 := k2 ^^^ (← byteAt t 8 0)
  let k2 := k2 * 0x4cf5ad432745937f#64
  let k2 := k2 <<< 33 ||| k2 >>> 31
  let k2 := k2 * 0x87c37b91114253d5#64
  t8 t h1 (h2 ^^^ k2) k1
/-- murmur128.go:107-109. -/
def t10 (t : List U8) (h1 h2 k1 k2 : U64) : Go (U64 × U64) := do t9 t h1 h2 k1 (k2 ^^^ (← byteAt t 9 8))
/-- murmur128.go:104-106. -/
def t11 (t : List U8) (h1 h2 k1 k2 : U64) : Go (U64 × U64) := do t10 t h1 h2 k1 (k2 ^^^ (← byteAt t 10 16))
/-- murmur128.go:101-103. -/
def t12 (t : List U8) (h1 h2 k1 k2 : U64) : Go (U64 × U64) := do t11 t h1 h2 k1 (k2 ^^^ (← byteAt t 11 24))
/-- murmur128.go:98-100. -/
def t13 (t : List U8) (h1 h2 k1 k2 : U64) : Go (U64 × U64) := do t12 t h1 h2 k1 (k2 ^^^ (← byteAt t 12 32))
/-- murmur128.go:95-97. -/
def t14 (t : List U8) (h1 h2 k1 k2 : U64) : Go (U64 × U64) := do t13 t h1 h2 k1 (k2 ^^^ (← byteAt t 13 40))
/-- murmur128.go:92-94. -/
def t15 (t : List U8) (h1 h2 k1 k2 : U64) : Go (U64 × U64) := do t14 t h1 h2 k1 (k2 ^^^ (← byteAt t 14 48))

/-- The dispatch of the switch, murmur128.go:90-147. -/
def tail128 (t : List U8) (h1 h2 : U64) : Go (U64 × U64) :=
  match t.length % 16 with
  | 15 => t15 t h1 h2 0#64 0#64
  | 14 => t14 t h1 h2 0#64 0#64
  | 13 => t13 t h1 h2 0#64 0#64
  | 12 => t12 t h1 h2 0#64 0#64
  | 11 => t11 t h1 h2 0#64 0#64
  | 10 => t10 t h1 h2 0#64 0#64
  | 9 => t9 t h1 h2 0#64 0#64
  | 8 => t8 t h1 h2 0#64
  | 7 => t7 t h1 h2 0#64
  | 6 => t6 t h1 h2 0#64
  | 5 => t5 t h1 h2 0#64
  | 4 => t4 t h1 h2 0#64
  | 3 => t3 t h1 h2 0#64
  | 2 => t2 t h1 h2 0#64
  | 1 => t1 t h1 h2 0#64
  | _ => .ok (h1, h2)

/-- murmur128.go:149-161. -/
def final128 (h : U64 × U64) (clen : U64) : U64 × U64 :=
  let h1 := h.1 ^^^ clen
  let h2 := h.2 ^^^ clen
  let h1 := h1 + h2
  let h2 := h2 + h1
  let h1 := fmix64 h1
  let h2 := fmix64 h2
  let h1 := h1 + h2
  let h2 := h2 + h1
  (h1, h2)

/-! ## The streaming digests -/

/-- The `bmixer` interface (murmur.go:19-23): what `digest32` and `digest128` plug into `digest`. -/
structure Mixer (σ : Type) where
  size : Nat
  bmix : σ → List U8 → Go (σ × List U8)
  init : σ

/-- `digest` (murmur.go:25-30) with the running hash of the embedding type. `nn` is `len(d.tail)`. -/
structure Digest (σ : Type) where
  h : σ
  clen : U64
  nn : Nat
  buf : List U8

/-- `d.tail`, a view of `buf`. murmur.go:25-31. -/
def Digest.tail (d : Digest σ) : List U8 := d.buf.take d.nn

/-- `append(d.tail, x...)`: writes into `buf` after the view (capacity 16; the real code never exceeds
it, a longer result would be a reallocation, which the model would treat as a slice fault). Returns
the new contents of `buf` and the appended slice. murmur.go:34-59. -/
def appendTail (d : Digest σ) (x : List U8) : Go (List U8 × List U8) :=
  if d.nn + x.length ≤ d.buf.length then
    .ok (d.tail ++ x ++ d.buf.drop (d.nn + x.length), d.tail ++ x)
  else .error .slice

/-- `copy(d.buf[:], t); d.tail = d.buf[:nn]`, murmur.go:55-56. -/
def keepTail (d : Digest σ) (t : List U8) : Digest σ :=
  let nn := min d.buf.length t.length
  { d with buf := t.take nn ++ d.buf.drop nn, nn := nn }

/-- `Write`, murmur.go:34-59. -/
def Digest.write (x : Mixer σ) (d : Digest σ) (p : List U8) : Go (Digest σ × Nat) := do
  let n := p.length
  let d := { d with clen := d.clen + BitVec.ofNat 64 n }
  let (d, p) ← (if d.tail.length > 0 then do
      let nfree := x.size - d.tail.length
      if nfree < p.length then do
        let (buf, block) ← appendTail d (p.take nfree)
        let d := { d with buf := buf }
        let p ← Go.from_ p nfree
        let (h, _) ← x.bmix d.h block
        return ({ d with h := h }, p)
      else do
        let (buf, p) ← appendTail d p
        return ({ d with buf := buf }, p)
    else return (d, p) : Go (Digest σ × List U8))
  let (h, tail) ← x.bmix d.h p
  return (keepTail { d with h := h } tail, n)

/-- `Reset`, murmur.go:61-65 (with `reset`, murmur32.go:36, murmur128.go:43). -/
def Digest.reset (x : Mixer σ) (d : Digest σ) : Digest σ := { d with clen := 0#64, nn := 0, h := x.init }

/-- A fresh object: `new(digestN)` zeroes everything, then `Reset` (murmur32.go:27-32, murmur128.go:34-39). -/
def new (x : Mixer σ) : Digest σ := Digest.reset x ⟨x.init, 0#64, 0, List.replicate 16 0#8⟩

/-- `(*digest32).bmix`, murmur32.go:44-61. -/
def bmix32 (h1 : U32) (p : List U8) : Go (U32 × List U8) := do
  let nblocks := p.length / 4
  let h1 ← Go.forRange 0 nblocks (fun i h1 => do return mix32 h1 (← Go.unsafe32 p (i * 4))) h1
  return (h1, ← Go.from_ p (nblocks * 4))

/-- `digest32` as a `bmixer` (`Size() = 4`, murmur32.go:34). -/
def mixer32 : Mixer U32 := ⟨4, bmix32, 0#32⟩

/-- `(*digest128).bmix`, murmur128.go:56-84. -/
def bmix128 (h : U64 × U64) (p : List U8) : Go ((U64 × U64) × List U8) := do
  let nblocks := p.length / 16
  let h ← Go.forRange 0 nblocks (fun i h => do
    let k1 ← Go.unsafe64 p (i * 16)
    let k2 ← Go.unsafe64 p (i * 16 + 8)
    return mix128 h k1 k2) h
  return (h, ← Go.from_ p (nblocks * 16))

/-- `digest128` as a `bmixer` (`Size() = 16`, murmur128.go:41). -/
def mixer128 : Mixer (U64 × U64) := ⟨16, bmix128, (0#64, 0#64)⟩

/-- `(*digest32).Sum32`, murmur32.go:63-92. -/
def Digest.sum32 (d : Digest U32) : Go U32 := do
  let h1 ← tail32 d.tail d.h
  let h1 := h1 ^^^ d.clen.setWidth 32
  return final32 h1

/-- `(*digest128).Sum128`, murmur128.go:86-162. -/
def Digest.sum128 (d : Digest (U64 × U64)) : Go (U64 × U64) := do
  let h ← tail128 d.tail d.h.1 d.h.2
  return final128 h d.clen

/-- `(*digest64).Sum64`, murmur64.go:29-32. -/
def Digest.sum64 (d : Digest (U64 × U64)) : Go U64 := do return (← d.sum128).1

/-- `byte(h>>24), byte(h>>16), byte(h>>8), byte(h)`, murmur32.go:40. -/
def be32 (h : U32) : List U8 :=
  [(h >>> 24).setWidth 8, (h >>> 16).setWidth 8, (h >>> 8).setWidth 8, h.setWidth 8]

/-- `byte(h>>56), ..., byte(h)`, murmur64.go:25-26, murmur128.go:48-52. -/
def be64 (h : U64) : List U8 :=
  [(h >>> 56).setWidth 8, (h >>> 48).setWidth 8, (h >>> 40).setWidth 8, (h >>> 32).setWidth 8,
   (h >>> 24).setWidth 8, (h >>> 16).setWidth 8, (h >>> 8).setWidth 8, h.setWidth 8]

/-- `(*digest32).Sum`, murmur32.go:38-41. -/
def Digest.sumBytes32 (d : Digest U32) (b : List U8) : List U8 := b ++ be32 d.h

/-- `(*digest64).Sum`, murmur64.go:22-27. -/
def Digest.sumBytes64 (d : Digest (U64 × U64)) (b : List U8) : List U8 := b ++ be64 d.h.1

/-- `(*digest128).Sum`, murmur128.go:45-54. -/
def Digest.sumBytes128 (d : Digest (U64 × U64)) (b : List U8) : List U8 := b ++ be64 d.h.1 ++ be64 d.h.2

/-- One-shot `Sum128`, murmur128.go:184-189: the tail is a view of `data`. -/
def Sum128 (data : List U8) : Go (U64 × U64) := do
  let (h, tail) ← bmix128 (0#64, 0#64) data
  let h ← tail128 tail h.1 h.2
  return final128 h (BitVec.ofNat 64 data.length)

/-- One-shot `Sum64`, murmur64.go:39-45. -/
def Sum64 (data : List U8) : Go U64 := do return (← Sum128 data).1

/-- The methods of `New32()`. murmur.go:34-66, murmur32.go. -/
def hasher32 : Hasher (Digest U32) where
  write := Digest.write mixer32
  reset d := .ok (d.reset mixer32)
  sum d b := .ok (d, d.sumBytes32 b)
  value d := do return (d, [(← d.sum32).setWidth 64])

/-- The methods of `New64()` (`digest64` is `digest128` with other accessors; murmur64.go:15-20). -/
def hasher64 : Hasher (Digest (U64 × U64)) where
  write := Digest.write mixer128
  reset d := .ok (d.reset mixer128)
  sum d b := .ok (d, d.sumBytes64 b)
  value d := do return (d, [← d.sum64])

/-- The methods of `New128()`. murmur.go:34-66, murmur128.go. -/
def hasher128 : Hasher (Digest (U64 × U64)) where
  write := Digest.write mixer128
  reset d := .ok (d.reset mixer128)
  sum d b := .ok (d, d.sumBytes128 b)
  value d := do
    let (a, b) ← d.sum128
    return (d, [a, b])

end Verif.Model.Murmur3
