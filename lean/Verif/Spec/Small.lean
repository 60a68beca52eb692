import Verif.Gen.SmallTables

/-!
# Specifications for packages sbox, crapwow, mahash and nullhash
-/

namespace Verif.Spec.Small
open Verif

/-- The seed in force for a call, when each call may bring a new one: the last one brought by this or an earlier
call, else the one the object was made with. Each call is its key and the (optional) seeds passed. -/
def seedInForce (initial : U32) (calls : List (List U8 × List U32)) : U32 :=
  ((calls.filterMap (fun c => c.2.head?)).getLast?).getD initial

end Verif.Spec.Small

namespace Verif.Spec.Sbox
open Verif

/-- The table entry of a byte. -/
def T (b : U8) : U32 := Gen.SBoxTable.getD b.toNat 0#32

/-- Absorb one byte. -/
def step (h : U32) (b : U8) : U32 := (h ^^^ T b) * 3#32

/-- The final mix. -/
def mix (h : U32) : U32 := h + (h >>> 22 ^^^ h <<< 4)

/-- The accumulator after all bytes. -/
def acc (key : List U8) (seed : U32) : U32 := key.foldl step (BitVec.ofNat 32 key.length + seed)

def sbox (key : List U8) (seed : U32) : U32 := mix (acc key seed)

end Verif.Spec.Sbox

namespace Verif.Spec.CrapWow
open Verif

/-- A pair of words `(h, k)` with componentwise exclusive or. -/
abbrev Pair := U32 × U32
def plus (a b : Pair) : Pair := (a.1 ^^^ b.1, a.2 ^^^ b.2)

/-- Low and high half of a 32 by 32 bit product. -/
def lo (x c : Nat) : U32 := BitVec.ofNat 32 (x * c)
def hi (x c : Nat) : U32 := BitVec.ofNat 32 (x * c / 2 ^ 32)

def M : Nat := 0x57559429
def N : Nat := 0x5052acdb

/-- What a word in even position (`B`) or in odd position (`A`) adds to the state. -/
def A (x : Nat) : Pair := (hi x M, lo x M)
def B (x : Nat) : Pair := (lo x N, hi x N)

/-- What an 8-byte block adds to the state. -/
def block (b : List U8) : Pair := plus (B (leNat (b.take 4))) (A (leNat ((b.drop 4).take 4)))

/-- What the last 0 to 7 bytes add: a full word as in even position, the remaining bytes as in odd position. -/
def rest (t : List U8) : Pair :=
  if t.length < 4 then A (leNat t) else plus (B (leNat (t.take 4))) (A (leNat (t.drop 4)))

/-- The end of the computation. -/
def finish (s : Pair) : U32 :=
  let s' := plus s (B (s.1 ^^^ (s.2 + BitVec.ofNat 32 N)).toNat)
  s'.2 ^^^ s'.1

/-- CrapWow of a key of length `n` whose blocks and rest add `d`. -/
def ofSum (n : Nat) (d : Pair) (seed : U32) : U32 :=
  finish (plus (BitVec.ofNat 32 n, BitVec.ofNat 32 n + seed + BitVec.ofNat 32 N) d)

/-- The sum of all contributions. -/
def total (key : List U8) : Pair := plus (((blocks 8 key).map block).foldl plus (0#32, 0#32)) (rest (tailOf 8 key))

def crapwow (key : List U8) (seed : U32) : U32 := ofSum key.length (total key) seed

end Verif.Spec.CrapWow

namespace Verif.Spec.MaHash
open Verif

/-- The table entry of a byte. -/
def S (b : U8) : U32 := BitVec.ofNat 32 (Gen.sTable.getD b.toNat 0#8).toNat

def spread (x : U32) : U32 := x + (x <<< 6 ^^^ x >>> 11)

/-- Exchange the low half of each word with the high half of the other and swap halves. -/
def exchange (q : U32 × U32) : U32 × U32 :=
  (BitVec.ofNat 32 (q.1.toNat / 2 ^ 16 + 2 ^ 16 * (q.2.toNat % 2 ^ 16)), BitVec.ofNat 32 (q.2.toNat / 2 ^ 16 + 2 ^ 16 * (q.1.toNat % 2 ^ 16)))

/-- One byte. -/
def step (q : U32 × U32) (b : U8) : U32 × U32 :=
  exchange ((spread (q.1 + S b)).rotateLeft 14, (spread (q.2 + S b)).rotateRight 14)

/-- The two halves side by side. -/
def join (q : U32 × U32) : U64 := BitVec.ofNat 64 (2 ^ 32 * q.1.toNat + q.2.toNat)

/-- State after all bytes. -/
def state (str : List U8) : U32 × U32 := str.foldl step (BitVec.ofNat 32 str.length, BitVec.ofNat 32 str.length)

end Verif.Spec.MaHash
