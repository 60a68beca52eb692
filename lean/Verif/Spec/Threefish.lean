import Verif.Go
import Mathlib.Data.Fin.Basic
import Mathlib.Logic.Function.Iterate

/-!
# Threefish, after section 3.3 of the Skein specification, version 1.3
-/

namespace Verif.Spec.Threefish
open Verif

/-- The parameters of one block size: `n` words, number of rounds, rotation table (row: round mod 8, column: pair of words),
word permutation. -/
structure Params (n : Nat) where
  rounds : Nat
  rot : List (List Nat)
  perm : List Nat

/-- Table 3 and table 4 of the specification. -/
def p256 : Params 4 where
  rounds := 72
  rot := [[14, 16], [52, 57], [23, 40], [5, 37], [25, 33], [46, 12], [58, 22], [32, 32]]
  perm := [0, 3, 2, 1]

def p512 : Params 8 where
  rounds := 72
  rot := [[46, 36, 19, 37], [33, 27, 14, 42], [17, 49, 36, 39], [44, 9, 54, 56], [39, 30, 34, 24], [13, 50, 10, 17], [25, 29, 39, 43], [8, 35, 56, 22]]
  perm := [2, 1, 4, 7, 6, 5, 0, 3]

def p1024 : Params 16 where
  rounds := 80
  rot := [[24, 13, 8, 47, 8, 17, 22, 37], [38, 19, 10, 55, 49, 18, 23, 52], [33, 4, 51, 13, 34, 41, 59, 17], [5, 20, 48, 41, 47, 28, 16, 25],
    [41, 9, 37, 31, 12, 47, 44, 30], [16, 34, 56, 51, 4, 53, 42, 41], [31, 44, 47, 46, 19, 42, 44, 25], [9, 48, 35, 52, 23, 31, 37, 20]]
  perm := [0, 9, 2, 13, 6, 11, 4, 15, 10, 7, 12, 3, 14, 5, 8, 1]

/-- The constant C240. -/
def C240 : U64 := 0x1BD11BDAA9FC1A22#64

/-- Extended key: the key words and their parity word. -/
def extKey (n : Nat) (key : List U64) (i : Nat) : U64 := if i < n then key.getD i 0#64 else (key.take n).foldl (· ^^^ ·) C240

/-- Extended tweak. -/
def extTweak (t0 t1 : U64) (i : Nat) : U64 := if i = 0 then t0 else if i = 1 then t1 else t0 ^^^ t1

variable {n : Nat} [NeZero n]

/-- Word `i` of subkey `s`. -/
def subkey (n : Nat) (k t : Nat → U64) (s : Nat) (i : Fin n) : U64 :=
  k ((s + i.val) % (n + 1)) +
    (if i.val = n - 3 then t (s % 3) else if i.val = n - 2 then t ((s + 1) % 3) else if i.val = n - 1 then BitVec.ofNat 64 s else 0#64)

def rotOf (P : Params n) (d j : Nat) : Nat := (P.rot.getD (d % 8) []).getD j 0

/-- The MIX function on every pair of words. -/
def mixAll (P : Params n) (d : Nat) (v : Fin n → U64) : Fin n → U64 := fun i =>
  let j := i.val / 2
  let x0 := v (Fin.ofNat n (2 * j))
  let x1 := v (Fin.ofNat n (2 * j + 1))
  if i.val % 2 = 0 then x0 + x1 else x1.rotateLeft (rotOf P d j) ^^^ (x0 + x1)

def permOf (P : Params n) (i : Fin n) : Fin n := Fin.ofNat n (P.perm.getD i.val 0)

/-- Round `d`: a subkey is added every four rounds, then MIX and the word permutation. -/
def round (P : Params n) (k t : Nat → U64) (v : Fin n → U64) (d : Nat) : Fin n → U64 :=
  let e := if d % 4 = 0 then fun i => v i + subkey n k t (d / 4) i else v
  fun i => mixAll P d e (permOf P i)

/-- Threefish encryption under extended key `k` and extended tweak `t`. -/
def encrypt (P : Params n) (k t : Nat → U64) (v : Fin n → U64) : Fin n → U64 :=
  fun i => (List.range P.rounds).foldl (round P k t) v i + subkey n k t (P.rounds / 4) i

/-- The round-based cipher on lists: the key length (4, 8 or 16 words) selects the variant, the block has as many words. -/
def encryptWords (key : List U64) (t0 t1 : U64) (x : List U64) : List U64 :=
  if key.length = 4 then List.ofFn (encrypt p256 (extKey 4 key) (extTweak t0 t1) (fun i => x.getD i.val 0#64))
  else if key.length = 8 then List.ofFn (encrypt p512 (extKey 8 key) (extTweak t0 t1) (fun i => x.getD i.val 0#64))
  else List.ofFn (encrypt p1024 (extKey 16 key) (extTweak t0 t1) (fun i => x.getD i.val 0#64))

/-- Little-endian words of a byte string, and back. -/
def toWords (bs : List U8) : List U64 := (blocks 8 bs).map le64
def toBytes (ws : List U64) : List U8 := ws.flatMap fun w => leBytes 8 w.toNat

/-- `n` elements of memory from address `a`. -/
def readAt (mem : List α) (a n : Nat) : List α := (mem.drop a).take n

/-- Memory with the elements from address `a` replaced by `new`. -/
def writeAt (mem : List α) (a : Nat) (new : List α) : List α := mem.take a ++ new ++ mem.drop (a + new.length)

end Verif.Spec.Threefish
