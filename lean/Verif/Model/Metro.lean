import Verif.Go

/-!
# Model of package metro (/repo/metro/metro64.go, /repo/metro/metro128.go)

The four functions are built from the same statements with different constants; each statement is modelled
once, with its constants as parameters, and every function below instantiates it with the literals of its own
source lines. `binary.LittleEndian.UintN(ptr)` panics on a short slice, as in the standard library.
-/

namespace Verif.Model.Metro

/-- `rotate_right`, metro64.go:5-7. -/
def rotate_right (v : U64) (k : Nat) : U64 := v >>> k ||| v <<< (64 - k)

/-- `binary.LittleEndian.Uint64(ptr)` (Go standard library): `_ = b[7]`, then the little-endian word. Used in metro64.go:9-162, metro128.go:5-172. -/
def u64 (p : List U8) : Go U64 := if 8 ≤ p.length then .ok (le64 p) else .error .index
/-- `uint64(binary.LittleEndian.Uint32(ptr))`. Used in metro64.go:9-162, metro128.go:5-172. -/
def u32 (p : List U8) : Go U64 := if 4 ≤ p.length then .ok ((le32 p).setWidth 64) else .error .index
/-- `uint64(binary.LittleEndian.Uint16(ptr))`. Used in metro64.go:9-162, metro128.go:5-172. -/
def u16 (p : List U8) : Go U64 :=
  if 2 ≤ p.length then .ok ((BitVec.ofNat 16 (leNat (p.take 2))).setWidth 64) else .error .index

/-- The array `v [4]uint64`. metro64.go:21. -/
structure V where
  (v0 v1 v2 v3 : U64)

/-- The body of `for len(ptr) >= 32`, metro64.go:25-36 and 101-112, metro128.go:25-36 and 108-119 (the four copies are
the same up to the constants). -/
def body32 (k0 k1 k2 k3 : U64) (x : V × List U8) : Go (V × List U8) := do
  let (v, ptr) := x
  let v := { v with v0 := v.v0 + (← u64 ptr) * k0 }
  let ptr ← Go.from_ ptr 8
  let v := { v with v0 := rotate_right v.v0 29 + v.v2 }
  let v := { v with v1 := v.v1 + (← u64 ptr) * k1 }
  let ptr ← Go.from_ ptr 8
  let v := { v with v1 := rotate_right v.v1 29 + v.v3 }
  let v := { v with v2 := v.v2 + (← u64 ptr) * k2 }
  let ptr ← Go.from_ ptr 8
  let v := { v with v2 := rotate_right v.v2 29 + v.v0 }
  let v := { v with v3 := v.v3 + (← u64 ptr) * k3 }
  let ptr ← Go.from_ ptr 8
  let v := { v with v3 := rotate_right v.v3 29 + v.v1 }
  return (v, ptr)

/-- The loop itself. metro64.go:23-36. -/
def loop32 (k0 k1 k2 k3 : U64) (v : V) (ptr : List U8) : Go (V × List U8) :=
  Go.while_ ptr.length (fun x => decide (x.2.length ≥ 32)) (body32 k0 k1 k2 k3) (v, ptr)

/-- The four assignments after the loop, metro64.go:38-41 and 114-117, metro128.go:38-41 and 121-124. -/
def after32 (k0 k1 : U64) (ra rb rc rd : Nat) (v : V) : V :=
  let v := { v with v2 := v.v2 ^^^ rotate_right (((v.v0 + v.v3) * k0) + v.v1) ra * k1 }
  let v := { v with v3 := v.v3 ^^^ rotate_right (((v.v1 + v.v2) * k1) + v.v0) rb * k0 }
  let v := { v with v0 := v.v0 ^^^ rotate_right (((v.v0 + v.v2) * k0) + v.v3) rc * k1 }
  { v with v1 := v.v1 ^^^ rotate_right (((v.v1 + v.v3) * k1) + v.v2) rd * k0 }

/-! ## 64 bits -/

/-- `if len(ptr) >= 32 {...}`, metro64.go:21-43 and 97-119. -/
def big64 (k0 k1 k2 k3 : U64) (r : Nat) (hash : U64) (ptr : List U8) : Go (U64 × List U8) :=
  if ptr.length ≥ 32 then do
    let (v, ptr) ← loop32 k0 k1 k2 k3 ⟨hash, hash, hash, hash⟩ ptr
    let v := after32 k0 k1 r r r r v
    return (hash + (v.v0 ^^^ v.v1), ptr)
  else .ok (hash, ptr)

/-- `if len(ptr) >= 16 {...}`, metro64.go:45-55 and 121-131. -/
def mid64 (ka kb kc kd k0 k3 : U64) (r r' : Nat) (hash : U64) (ptr : List U8) : Go (U64 × List U8) :=
  if ptr.length ≥ 16 then do
    let v0 := hash + (← u64 ptr) * ka
    let ptr ← Go.from_ ptr 8
    let v0 := rotate_right v0 r * kb
    let v1 := hash + (← u64 ptr) * kc
    let ptr ← Go.from_ ptr 8
    let v1 := rotate_right v1 r * kd
    let v0 := v0 ^^^ (rotate_right (v0 * k0) r' + v1)
    let v1 := v1 ^^^ (rotate_right (v1 * k3) r' + v0)
    return (hash + v1, ptr)
  else .ok (hash, ptr)

/-- `hash += x * k3; ...; hash ^= rotate_right(hash, r) * k1`. metro64.go:55-80. -/
def absorb64 (k1 k3 : U64) (r : Nat) (x hash : U64) : U64 :=
  let hash := hash + x * k3
  hash ^^^ rotate_right hash r * k1

/-- `if len(ptr) >= 8 {...}`, metro64.go:57-61 and 133-137. -/
def eight64 (k1 k3 : U64) (r : Nat) (hash : U64) (ptr : List U8) : Go (U64 × List U8) :=
  if ptr.length ≥ 8 then do
    let x ← u64 ptr
    let ptr ← Go.from_ ptr 8
    return (absorb64 k1 k3 r x hash, ptr)
  else .ok (hash, ptr)

/-- `if len(ptr) > 4 {...}` (metro64.go:63-67, `min = 5`) and `if len(ptr) >= 4 {...}` (139-143, `min = 4`). -/
def four64 (min : Nat) (k1 k3 : U64) (r : Nat) (hash : U64) (ptr : List U8) : Go (U64 × List U8) :=
  if ptr.length ≥ min then do
    let x ← u32 ptr
    let ptr ← Go.from_ ptr 4
    return (absorb64 k1 k3 r x hash, ptr)
  else .ok (hash, ptr)

/-- `if len(ptr) >= 2 {...}`, metro64.go:69-73 and 145-149. -/
def two64 (k1 k3 : U64) (r : Nat) (hash : U64) (ptr : List U8) : Go (U64 × List U8) :=
  if ptr.length ≥ 2 then do
    let x ← u16 ptr
    let ptr ← Go.from_ ptr 2
    return (absorb64 k1 k3 r x hash, ptr)
  else .ok (hash, ptr)

/-- `if len(ptr) >= 1 {...}`, metro64.go:75-78 and 151-154. -/
def one64 (k1 k3 : U64) (r : Nat) (hash : U64) (ptr : List U8) : Go U64 :=
  if ptr.length ≥ 1 then do
    let x ← Go.idx ptr 0
    return absorb64 k1 k3 r (x.setWidth 64) hash
  else .ok hash

/-- `Hash64_1`, metro64.go:9-85. -/
def Hash64_1 (key : List U8) (seed : U32) : Go U64 := do
  let k0 := 0xC83A91E1#64
  let k1 := 0x8648DBDB#64
  let k2 := 0x7BDEC03B#64
  let k3 := 0x2F5870A5#64
  let hash := (seed.setWidth 64 + k2) * k0 + BitVec.ofNat 64 key.length
  let (hash, ptr) ← big64 k0 k1 k2 k3 33 hash key
  let (hash, ptr) ← mid64 k0 k1 k1 k2 k0 k3 33 35 hash ptr
  let (hash, ptr) ← eight64 k1 k3 33 hash ptr
  let (hash, ptr) ← four64 5 k1 k3 15 hash ptr
  let (hash, ptr) ← two64 k1 k3 13 hash ptr
  let hash ← one64 k1 k3 25 hash ptr
  let hash := hash ^^^ rotate_right hash 33
  let hash := hash * k0
  return hash ^^^ rotate_right hash 33

/-- `Hash64_2`, metro64.go:87-162. -/
def Hash64_2 (key : List U8) (seed : U32) : Go U64 := do
  let k0 := 0xD6D018F5#64
  let k1 := 0xA2AA033B#64
  let k2 := 0x62992FC1#64
  let k3 := 0x30BC5B29#64
  let hash := (seed.setWidth 64 + k2) * k0 + BitVec.ofNat 64 key.length
  let (hash, ptr) ← big64 k0 k1 k2 k3 30 hash key
  let (hash, ptr) ← mid64 k2 k3 k2 k3 k0 k3 29 34 hash ptr
  let (hash, ptr) ← eight64 k1 k3 36 hash ptr
  let (hash, ptr) ← four64 4 k1 k3 15 hash ptr
  let (hash, ptr) ← two64 k1 k3 15 hash ptr
  let hash ← one64 k1 k3 23 hash ptr
  let hash := hash ^^^ rotate_right hash 28
  let hash := hash * k0
  return hash ^^^ rotate_right hash 29

/-! ## 128 bits (only `v[0]` and `v[1]` are used after the first `if`) -/

/-- Lines metro128.go:16-42 and 99-125: initialisation and `if len(ptr) >= 32 {...}`. -/
def big128 (k0 k1 k2 k3 : U64) (ra rb rc rd : Nat) (seed : U32) (ptr : List U8) : Go (U64 × U64 × List U8) :=
  let n := BitVec.ofNat 64 ptr.length
  let v0 := (seed.setWidth 64 - k0) * k3 + n
  let v1 := (seed.setWidth 64 + k1) * k2 + n
  if ptr.length ≥ 32 then do
    let (v, ptr) ← loop32 k0 k1 k2 k3 ⟨v0, v1, (seed.setWidth 64 + k0) * k2 + n, (seed.setWidth 64 - k1) * k3 + n⟩ ptr
    let v := after32 k0 k1 ra rb rc rd v
    return (v.v0, v.v1, ptr)
  else .ok (v0, v1, ptr)

/-- `if len(ptr) >= 16 {...}`, metro128.go:44-53 and 127-136. -/
def mid128 (k0 k1 k2 k3 : U64) (r ra rb : Nat) (v0 v1 : U64) (ptr : List U8) : Go (U64 × U64 × List U8) :=
  if ptr.length ≥ 16 then do
    let v0 := v0 + (← u64 ptr) * k2
    let ptr ← Go.from_ ptr 8
    let v0 := rotate_right v0 r * k3
    let v1 := v1 + (← u64 ptr) * k2
    let ptr ← Go.from_ ptr 8
    let v1 := rotate_right v1 r * k3
    let v0 := v0 ^^^ rotate_right (v0 * k2 + v1) ra * k1
    let v1 := v1 ^^^ rotate_right (v1 * k3 + v0) rb * k0
    return (v0, v1, ptr)
  else .ok (v0, v1, ptr)

/-- `v[0] += x * k2; v[0] = rotate_right(v[0], r) * k3; v[0] ^= rotate_right((v[0]*k2)+v[1], r') * k1`. metro128.go:44-80. -/
def absorbA (k1 k2 k3 : U64) (r r' : Nat) (x v0 v1 : U64) : U64 :=
  let v0 := v0 + x * k2
  let v0 := rotate_right v0 r * k3
  v0 ^^^ rotate_right (v0 * k2 + v1) r' * k1

/-- `v[1] += x * k2; v[1] = rotate_right(v[1], r) * k3; v[1] ^= rotate_right((v[1]*k3)+v[0], r') * k0`. metro128.go:44-80. -/
def absorbB (k0 k2 k3 : U64) (r r' : Nat) (x v0 v1 : U64) : U64 :=
  let v1 := v1 + x * k2
  let v1 := rotate_right v1 r * k3
  v1 ^^^ rotate_right (v1 * k3 + v0) r' * k0

/-- `if len(ptr) >= 8 {...}`, metro128.go:55-60 and 138-143. -/
def eight128 (k1 k2 k3 : U64) (r r' : Nat) (v0 v1 : U64) (ptr : List U8) : Go (U64 × U64 × List U8) :=
  if ptr.length ≥ 8 then do
    let x ← u64 ptr
    let ptr ← Go.from_ ptr 8
    return (absorbA k1 k2 k3 r r' x v0 v1, v1, ptr)
  else .ok (v0, v1, ptr)

/-- `if len(ptr) >= 4 {...}`, metro128.go:62-67 and 145-150. -/
def four128 (k0 k2 k3 : U64) (r r' : Nat) (v0 v1 : U64) (ptr : List U8) : Go (U64 × U64 × List U8) :=
  if ptr.length ≥ 4 then do
    let x ← u32 ptr
    let ptr ← Go.from_ ptr 4
    return (v0, absorbB k0 k2 k3 r r' x v0 v1, ptr)
  else .ok (v0, v1, ptr)

/-- `if len(ptr) >= 2 {...}`, metro128.go:69-74 and 152-157. -/
def two128 (k1 k2 k3 : U64) (r r' : Nat) (v0 v1 : U64) (ptr : List U8) : Go (U64 × U64 × List U8) :=
  if ptr.length ≥ 2 then do
    let x ← u16 ptr
    let ptr ← Go.from_ ptr 2
    return (absorbA k1 k2 k3 r r' x v0 v1, v1, ptr)
  else .ok (v0, v1, ptr)

/-- `if len(ptr) >= 1 {...}`, metro128.go:76-80 and 159-163. -/
def one128 (k0 k2 k3 : U64) (r r' : Nat) (v0 v1 : U64) (ptr : List U8) : Go (U64 × U64) :=
  if ptr.length ≥ 1 then do
    let x ← Go.idx ptr 0
    return (v0, absorbB k0 k2 k3 r r' (x.setWidth 64) v0 v1)
  else .ok (v0, v1)

/-- The last four assignments, metro128.go:82-85 and 165-168. -/
def last128 (k0 k1 k2 k3 : U64) (ra rb : Nat) (v0 v1 : U64) : U64 × U64 :=
  let v0 := v0 + rotate_right (v0 * k0 + v1) ra
  let v1 := v1 + rotate_right (v1 * k1 + v0) rb
  let v0 := v0 + rotate_right (v0 * k2 + v1) ra
  let v1 := v1 + rotate_right (v1 * k3 + v0) rb
  (v0, v1)

/-- `Hash128_1`, metro128.go:5-88. -/
def Hash128_1 (key : List U8) (seed : U32) : Go (U64 × U64) := do
  let k0 := 0xC83A91E1#64
  let k1 := 0x8648DBDB#64
  let k2 := 0x7BDEC03B#64
  let k3 := 0x2F5870A5#64
  let (v0, v1, ptr) ← big128 k0 k1 k2 k3 26 26 26 30 seed key
  let (v0, v1, ptr) ← mid128 k0 k1 k2 k3 33 17 17 v0 v1 ptr
  let (v0, v1, ptr) ← eight128 k1 k2 k3 33 20 v0 v1 ptr
  let (v0, v1, ptr) ← four128 k0 k2 k3 33 18 v0 v1 ptr
  let (v0, v1, ptr) ← two128 k1 k2 k3 33 24 v0 v1 ptr
  let (v0, v1) ← one128 k0 k2 k3 33 24 v0 v1 ptr
  return last128 k0 k1 k2 k3 13 37 v0 v1

/-- `Hash128_2`, metro128.go:90-172. -/
def Hash128_2 (key : List U8) (seed : U32) : Go (U64 × U64) := do
  let k0 := 0xD6D018F5#64
  let k1 := 0xA2AA033B#64
  let k2 := 0x62992FC1#64
  let k3 := 0x30BC5B29#64
  let (v0, v1, ptr) ← big128 k0 k1 k2 k3 33 33 33 33 seed key
  let (v0, v1, ptr) ← mid128 k0 k1 k2 k3 29 29 29 v0 v1 ptr
  let (v0, v1, ptr) ← eight128 k1 k2 k3 29 29 v0 v1 ptr
  let (v0, v1, ptr) ← four128 k0 k2 k3 29 25 v0 v1 ptr
  let (v0, v1, ptr) ← two128 k1 k2 k3 29 30 v0 v1 ptr
  let (v0, v1) ← one128 k0 k2 k3 29 18 v0 v1 ptr
  return last128 k0 k1 k2 k3 33 33 v0 v1

end Verif.Model.Metro
