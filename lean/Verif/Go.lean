/-!
# Go semantics used by every model file

Machine integers are `BitVec`s, a call returns `Go α` (a value or a run-time fault),
slices are lists. Nothing here models a particular file of /repo; it fixes the meaning of the
Go constructs the other model files use.
-/

namespace Verif

abbrev U8 := BitVec 8
abbrev U16 := BitVec 16
abbrev U32 := BitVec 32
abbrev U64 := BitVec 64

/-- The ways a Go call can fail to return. `unsafeOOB` is an `unsafe` load outside the slice
(undefined behaviour in Go, a fault here). `diverge` marks a loop that exceeded the fuel its model
gives it; the totality theorems show it never occurs. -/
inductive Fault where
  | index
  | slice
  | divZero
  | unsafeOOB
  | explicit (msg : String)
  | diverge
  deriving DecidableEq, Repr

abbrev Go (α : Type) := Except Fault α

instance [DecidableEq α] : DecidableEq (Except Fault α) := fun a b =>
  match a, b with
  | .ok x, .ok y => if h : x = y then isTrue (by rw [h]) else isFalse (by intro e; cases e; exact h rfl)
  | .error x, .error y =>
    if h : x = y then isTrue (by rw [h]) else isFalse (by intro e; cases e; exact h rfl)
  | .ok _, .error _ => isFalse (by intro e; cases e)
  | .error _, .ok _ => isFalse (by intro e; cases e)

namespace Go

/-- `s[i]` with Go's bounds check. -/
def idx (s : List α) (i : Nat) : Go α :=
  match s[i]? with
  | some x => .ok x
  | none => .error .index

/-- `s[n:]` with Go's bounds check (`n <= len(s)`). -/
def from_ (s : List α) (n : Nat) : Go (List α) :=
  if n ≤ s.length then .ok (s.drop n) else .error .slice

/-- `s[lo:hi]` for a slice whose capacity equals its length. -/
def slice (s : List α) (lo hi : Nat) : Go (List α) :=
  if lo ≤ hi ∧ hi ≤ s.length then .ok ((s.take hi).drop lo) else .error .slice

/-- `s[i] = v` with Go's bounds check. -/
def set (s : List α) (i : Nat) (v : α) : Go (List α) :=
  if i < s.length then .ok (s.set i v) else .error .index

/-- `panic(msg)` -/
def panic (msg : String) : Go α := .error (.explicit msg)

/-- A Go `for cond { body }` loop. `fuel` bounds the number of iterations the model will follow. -/
def while_ (fuel : Nat) (cond : σ → Bool) (body : σ → Go σ) (s : σ) : Go σ :=
  match fuel with
  | 0 => if cond s then .error .diverge else .ok s
  | n + 1 => if cond s then (body s).bind (while_ n cond body) else .ok s

/-- `for i := lo; i < hi; i++ { body }` where the body does not change `i`. -/
def forRange (lo : Nat) : Nat → (Nat → σ → Go σ) → σ → Go σ
  | 0, _, s => .ok s
  | n + 1, body, s => (body lo s).bind (forRange (lo + 1) n body)

end Go

/-- Number denoted by a byte string, least significant byte first. -/
def leNat : List U8 → Nat
  | [] => 0
  | b :: bs => b.toNat + 256 * leNat bs

/-- Number denoted by a byte string, most significant byte first. -/
def beNat (bs : List U8) : Nat := leNat bs.reverse

/-- The `n` least significant bytes of a number, least significant first. -/
def leBytes : Nat → Nat → List U8
  | 0, _ => []
  | n + 1, x => BitVec.ofNat 8 x :: leBytes n (x / 256)

/-- The `n` least significant bytes of a number, most significant first. -/
def beBytes (n x : Nat) : List U8 := (leBytes n x).reverse

/-- The complete consecutive blocks of `n` elements of a list (any shorter tail is dropped). -/
def blocks (n : Nat) (l : List α) : List (List α) :=
  (List.range (l.length / n)).map fun i => (l.drop (i * n)).take n

/-- What `blocks n` leaves over: fewer than `n` elements (for `0 < n`). -/
def tailOf (n : Nat) (l : List α) : List α := l.drop (l.length / n * n)

/-- The 32-bit word stored little-endian in a byte string (its first four bytes). -/
def le32 (p : List U8) : U32 := BitVec.ofNat 32 (leNat (p.take 4))

/-- The 64-bit word stored little-endian in a byte string (its first eight bytes). -/
def le64 (p : List U8) : U64 := BitVec.ofNat 64 (leNat (p.take 8))

namespace Go

/-- `*(*uint32)(unsafe.Pointer(&p[off]))` on a little-endian machine. -/
def unsafe32 (p : List U8) (off : Nat) : Go U32 :=
  if off + 4 ≤ p.length then .ok (le32 (p.drop off)) else .error .unsafeOOB

/-- `*(*uint64)(unsafe.Pointer(&p[off]))` on a little-endian machine. -/
def unsafe64 (p : List U8) (off : Nat) : Go U64 :=
  if off + 8 ≤ p.length then .ok (le64 (p.drop off)) else .error .unsafeOOB

/-- `binary.LittleEndian.Uint32(p[off:])` (Go standard library): slices, then bounds-checks `b[3]`. -/
def binLE32 (p : List U8) (off : Nat) : Go U32 := do
  let q ← from_ p off
  if 4 ≤ q.length then .ok (le32 q) else .error .index

/-- `binary.LittleEndian.Uint64(p[off:])` (Go standard library): slices, then bounds-checks `b[7]`. -/
def binLE64 (p : List U8) (off : Nat) : Go U64 := do
  let q ← from_ p off
  if 8 ≤ q.length then .ok (le64 q) else .error .index

end Go

end Verif
