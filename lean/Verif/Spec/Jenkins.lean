import Verif.Go

/-!
# Specification of the Jenkins hashes

The mixers are written in their regular form: one step updates the first word of a triple from the
other two and then renames the triple cyclically, so a mixer is a list of shift amounts.
-/

namespace Verif.Spec.Jenkins

/-- A triple of words. -/
abbrev T (w : Nat) := BitVec w × BitVec w × BitVec w

/-! ## lookup2 -/

/-- `a = a - b - c ^ shifted c`, then `(a,b,c)` becomes `(b,c,a)`. -/
def step2 (s : T w) (sh : BitVec w → BitVec w) : T w := (s.2.1, s.2.2, (s.1 - s.2.1 - s.2.2) ^^^ sh s.2.2)

/-- Right shift / left shift by a constant. -/
def R (n : Nat) (x : BitVec w) : BitVec w := x >>> n
def L (n : Nat) (x : BitVec w) : BitVec w := x <<< n

/-- Bob Jenkins' lookup2 `mix`. -/
def mix32 (s : T 32) : T 32 := [R 13, L 8, R 13, R 12, L 16, R 5, R 3, L 10, R 15].foldl step2 s

/-- Bob Jenkins' `mix64`. -/
def mix64 (s : T 64) : T 64 :=
  [R 43, L 9, R 8, R 38, L 23, R 5, R 35, L 49, R 11, R 12, L 18, R 22].foldl step2 s

/-- The step hashland's 64-bit hash really uses: `a = a - ((b - c) ^ shifted c)`. -/
def step2alt (s : T w) (sh : BitVec w → BitVec w) : T w := (s.2.1, s.2.2, s.1 - ((s.2.1 - s.2.2) ^^^ sh s.2.2))

def mix64alt (s : T 64) : T 64 :=
  [R 43, L 9, R 8, R 38, L 23, R 5, R 35, L 49, R 11, R 12, L 18, R 22].foldl step2alt s

/-- Little-endian number of a byte string, as a `w`-bit word. -/
def word (w : Nat) (p : List U8) : BitVec w := BitVec.ofNat w (leNat p)

/-- hashland's `Hash232` on a message: whole 12-byte blocks, then the tail `t` (fewer than 12 bytes)
with its length. Byte 0 of the tail is added to `c` instead of `a`; bytes 8.. of the tail skip the
low byte of `c`. -/
def hash232 (m : List U8) (seed : U32) : U32 :=
  let s : T 32 := (blocks 12 m).foldl
    (fun s p => mix32 (s.1 + word 32 (p.take 4), s.2.1 + word 32 ((p.drop 4).take 4), s.2.2 + word 32 ((p.drop 8).take 4)))
    (0x9e3779b9#32, 0x9e3779b9#32, seed)
  let t := tailOf 12 m
  (mix32 (s.1 + 256#32 * word 32 ((t.take 4).drop 1),
          s.2.1 + word 32 ((t.drop 4).take 4),
          s.2.2 + BitVec.ofNat 32 t.length + word 32 (t.take 1) + 256#32 * word 32 (t.drop 8))).2.2

/-- hashland's `Hash264` on a message: whole 24-byte blocks, then the tail with its length. -/
def hash264 (m : List U8) (seed : U64) : U64 :=
  let s : T 64 := (blocks 24 m).foldl
    (fun s p => mix64alt (s.1 + word 64 (p.take 8), s.2.1 + word 64 ((p.drop 8).take 8), s.2.2 + word 64 ((p.drop 16).take 8)))
    (0x9e3779b97f4a7c13#64, 0x9e3779b97f4a7c13#64, seed)
  let t := tailOf 24 m
  (mix64alt (s.1 + word 64 (t.take 8),
             s.2.1 + word 64 ((t.drop 8).take 8),
             s.2.2 + BitVec.ofNat 64 t.length + 256#64 * word 64 (t.drop 16))).2.2

/-! ## lookup3 -/

/-- `a = (a - c) ^ rot c`, `c = c + b`, then rename. -/
def mixStep (s : T 32) (r : Nat) : T 32 :=
  (s.2.1, s.2.2 + s.2.1, (s.1 - s.2.2) ^^^ s.2.2.rotateLeft r)

/-- lookup3 `mix`. -/
def mix (s : T 32) : T 32 := [4, 6, 8, 16, 19, 4].foldl mixStep s

/-- `a = (a ^ c) - rot c`, then rename. -/
def finalStep (s : T 32) (r : Nat) : T 32 := (s.2.1, s.2.2, (s.1 ^^^ s.2.2) - s.2.2.rotateLeft r)

/-- lookup3 `final`; it starts with the word `c`. -/
def final (s : T 32) : T 32 := [14, 11, 25, 16, 4, 14, 24].foldl finalStep (s.2.2, s.1, s.2.1)

/-- Every block of `n` elements that is followed by at least one more element. -/
def heads (n : Nat) (m : List α) : List (List α) := blocks n (m.take ((m.length - 1) / n * n))

/-- The last block: between 1 and `n` elements (none for the empty list). -/
def lastOf (n : Nat) (m : List α) : List α := m.drop ((m.length - 1) / n * n)

/-- Add a block of at most 12 bytes, as if padded with zeros. -/
def addBlock (s : T 32) (p : List U8) : T 32 :=
  (s.1 + word 32 (p.take 4), s.2.1 + word 32 ((p.drop 4).take 4), s.2.2 + word 32 ((p.drop 8).take 4))

/-- lookup3 `hashlittle2` with the value used for the length in the initial state given separately.
Returns `(c, b)`. -/
def lookup3 (len pc pb : U32) (m : List U8) : U32 × U32 :=
  let a := 0xdeadbeef#32 + len + pc
  let s : T 32 := (a, a, a + pb)
  if m.isEmpty then (s.2.2, s.2.1)
  else
    let s := (heads 12 m).foldl (fun s p => mix (addBlock s p)) s
    let s := final (addBlock s (lastOf 12 m))
    (s.2.2, s.2.1)

/-- lookup3 `hashlittle2` of a message, seeds `pc` and `pb`. -/
def hashlittle2 (pc pb : U32) (m : List U8) : U32 × U32 := lookup3 (BitVec.ofNat 32 m.length) pc pb m

end Verif.Spec.Jenkins
