import Mathlib.Logic.Function.Basic
import Mathlib.Data.Fin.Basic
import Mathlib.Data.List.FinRange
import Verif.Go

/-!
# SpookyHash V2 (Bob Jenkins, SpookyV2.cpp/.h), written from the algorithm description

Message words are little-endian. Messages of at least 192 bytes use twelve state words and 96-byte blocks, the
last block being zero padded with the number of remaining bytes in its last byte; shorter messages use four state
words and 32-byte blocks.
-/

namespace Verif.Spec.Spooky

/-- The `i`-th little-endian 64-bit word of a byte string, zero padded on the right. -/
def word (b : List U8) (i : Nat) : U64 := BitVec.ofNat 64 (leNat ((b.drop (8 * i)).take 8))

def scConst : U64 := 0xdeadbeefdeadbeef#64

abbrev St (n : Nat) := Fin n → U64

def upd (s : St n) (i : Fin n) (v : U64) : St n := Function.update s i v

def mixRot : List Nat := [11, 32, 43, 31, 17, 28, 39, 57, 55, 54, 22, 46]
def endRot : List Nat := [44, 15, 34, 21, 38, 33, 10, 13, 38, 53, 42, 54]
def shortMixRot : List Nat := [50, 52, 30, 41, 54, 48, 38, 37, 62, 34, 5, 36]
def shortEndRot : List Nat := [15, 52, 26, 51, 28, 9, 47, 54, 32, 25, 63]

/-- One of the twelve steps of `Mix`; indices are modulo 12. -/
def mixStep (d : Nat → U64) (s : St 12) (i : Fin 12) : St 12 :=
  let s := upd s i (s i + d i)
  let s := upd s (i + 2) (s (i + 2) ^^^ s (i + 10))
  let s := upd s (i + 11) (s (i + 11) ^^^ s i)
  let s := upd s i ((s i).rotateLeft (mixRot.getD i 0))
  upd s (i + 11) (s (i + 11) + s (i + 1))

def mix (d : Nat → U64) (s : St 12) : St 12 := (List.finRange 12).foldl (mixStep d) s

/-- One of the twelve steps of `EndPartial`. -/
def endStep (s : St 12) (i : Fin 12) : St 12 :=
  let s := upd s (i + 11) (s (i + 11) + s (i + 1))
  let s := upd s (i + 2) (s (i + 2) ^^^ s (i + 11))
  upd s (i + 1) ((s (i + 1)).rotateLeft (endRot.getD i 0))

def endPartial (s : St 12) : St 12 := (List.finRange 12).foldl endStep s

def end_ (d : Nat → U64) (s : St 12) : St 12 :=
  endPartial (endPartial (endPartial fun i => s i + d i))

/-- Step `i` of `ShortMix`; indices are modulo 4. -/
def shortMixStep (s : St 4) (i : Nat) : St 4 :=
  let j : Fin 4 := Fin.ofNat 4 i
  let s := upd s (j + 2) ((s (j + 2)).rotateLeft (shortMixRot.getD i 0))
  let s := upd s (j + 2) (s (j + 2) + s (j + 3))
  upd s j (s j ^^^ s (j + 2))

def shortMix (s : St 4) : St 4 := (List.range 12).foldl shortMixStep s

/-- Step `i` of `ShortEnd`. -/
def shortEndStep (s : St 4) (i : Nat) : St 4 :=
  let j : Fin 4 := Fin.ofNat 4 i
  let s := upd s (j + 3) (s (j + 3) ^^^ s (j + 2))
  let s := upd s (j + 2) ((s (j + 2)).rotateLeft (shortEndRot.getD i 0))
  upd s (j + 3) (s (j + 3) + s (j + 2))

def shortEnd (s : St 4) : St 4 := (List.range 11).foldl shortEndStep s

/-- A 32-byte block of the short hash. -/
def shortBlock (s : St 4) (b : List U8) : St 4 :=
  let s := shortMix (upd (upd s 2 (s 2 + word b 0)) 3 (s 3 + word b 1))
  upd (upd s 0 (s 0 + word b 2)) 1 (s 1 + word b 3)

/-- The last fewer than 32 bytes of the short hash. -/
def shortTail (len : Nat) (s : St 4) (t : List U8) : St 4 :=
  let (s, u) := if 16 ≤ t.length then (shortMix (upd (upd s 2 (s 2 + word t 0)) 3 (s 3 + word t 1)), t.drop 16) else (s, t)
  let s := upd s 3 (s 3 + BitVec.ofNat 64 len <<< 56)
  if u = [] then upd (upd s 2 (s 2 + scConst)) 3 (s 3 + scConst)
  else upd (upd s 2 (s 2 + word u 0)) 3 (s 3 + word u 1)

def short (m : List U8) (seed1 seed2 : U64) : U64 × U64 :=
  let s : St 4 := fun i => if i = 0 then seed1 else if i = 1 then seed2 else scConst
  let s := shortEnd (shortTail m.length ((blocks 32 m).foldl shortBlock s) (tailOf 32 m))
  (s 0, s 1)

def long (m : List U8) (seed1 seed2 : U64) : U64 × U64 :=
  let s : St 12 := fun i => if i.val % 3 = 0 then seed1 else if i.val % 3 = 1 then seed2 else scConst
  let s := (blocks 96 m).foldl (fun s b => mix (word b) s) s
  let t := tailOf 96 m
  let last := t ++ List.replicate (95 - t.length) 0#8 ++ [BitVec.ofNat 8 t.length]
  let s := end_ (word last) s
  (s 0, s 1)

def spooky128 (m : List U8) (seed1 seed2 : U64) : U64 × U64 :=
  if m.length < 192 then short m seed1 seed2 else long m seed1 seed2

end Verif.Spec.Spooky
