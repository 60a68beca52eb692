import Verif.Go
import Mathlib.Data.Fin.Basic

/-!
# Keccak-f[1600] and the Keccak sponge, after FIPS 202 (with the original Keccak padding)

Lane `A x y` is word number `x + 5 y` of the state. All index arithmetic is modulo 5.
-/

namespace Verif.Spec.Keccak
open Verif

abbrev State := Fin 5 → Fin 5 → U64

/-- Parity of a column. -/
def parity (A : State) (x : Fin 5) : U64 := A x 0 ^^^ A x 1 ^^^ A x 2 ^^^ A x 3 ^^^ A x 4

def theta (A : State) : State := fun x y => A x y ^^^ (parity A (x - 1) ^^^ (parity A (x + 1)).rotateLeft 1)

/-- The walk of FIPS 202, Algorithm 2: `(x, y) → (y, 2x + 3y)` from `(1, 0)`. -/
def walk : Nat → Fin 5 × Fin 5
  | 0 => (1, 0)
  | t + 1 => ((walk t).2, 2 * (walk t).1 + 3 * (walk t).2)

/-- Rotation offset of a lane: `(t+1)(t+2)/2` for the lane reached at step `t`, 0 for lane `(0,0)`. -/
def offset (x y : Fin 5) : Nat :=
  match (List.range 24).find? (fun t => walk t = (x, y)) with
  | some t => (t + 1) * (t + 2) / 2 % 64
  | none => 0

def rho (A : State) : State := fun x y => (A x y).rotateLeft (offset x y)

def pi (A : State) : State := fun x y => A (x + 3 * y) x

def chi (A : State) : State := fun x y => A x y ^^^ (~~~ A (x + 1) y &&& A (x + 2) y)

/-- Powers of `X` modulo `X^8 + X^6 + X^5 + X^4 + 1` over GF(2). -/
def xpow : Nat → BitVec 8
  | 0 => 1#8
  | t + 1 => xpow t <<< 1 ^^^ (if (xpow t).msb then 0x71#8 else 0#8)

/-- The round constant: bit `2^j - 1` is the constant coefficient of `X^(j + 7r)`. -/
def RC (r : Nat) : U64 :=
  (List.range 7).foldl (fun c j => if (xpow (j + 7 * r)).getLsbD 0 then c ||| 1#64 <<< (2 ^ j - 1) else c) 0#64

def iota (r : Nat) (A : State) : State := fun x y => if x = 0 ∧ y = 0 then A x y ^^^ RC r else A x y

def round (A : State) (r : Nat) : State := iota r (chi (pi (rho (theta A))))

/-- The permutation with the first `n` rounds (`n = 24` is Keccak-f[1600]). -/
def keccakf (n : Nat) (A : State) : State := (List.range n).foldl round A

/-! ## Sponge -/

/-- Exclusive-or a string of at most 200 bytes into the front of the state. -/
def xorInto (A : State) (b : List U8) : State := fun x y => A x y ^^^ le64 ((b ++ List.replicate (200 - b.length) 0#8).drop (8 * (x.val + 5 * y.val)))

/-- The 200 bytes of a state. -/
def bytes (A : State) : List U8 :=
  (List.range 25).flatMap (fun i => leBytes 8 (A (Fin.ofNat 5 i) (Fin.ofNat 5 (i / 5))).toNat)

/-- The pad10*1 rule on bytes (bits are numbered from the least significant one): the message is followed by a one bit,
zeros, and a one bit that ends a block of `r` bytes. -/
def pad (r : Nat) (m : List U8) : List U8 :=
  if m.length % r = r - 1 then m ++ [0x81#8] else m ++ 0x01#8 :: (List.replicate (r - m.length % r - 2) 0#8 ++ [0x80#8])

/-- State after absorbing the padded message, `n` rounds, rate `r` bytes. -/
def absorb (n r : Nat) (m : List U8) : State := (blocks r (pad r m)).foldl (fun A b => keccakf n (xorInto A b)) (fun _ _ => 0#64)

/-- Squeeze `k` blocks of `r` bytes. -/
def squeeze (n r : Nat) : Nat → State → List U8
  | 0, _ => []
  | k + 1, A => (bytes A).take r ++ squeeze n r k (keccakf n A)

/-- The sponge with rate `r` bytes, `n` rounds and `size` bytes of output. -/
def sponge (n r size : Nat) (m : List U8) : List U8 := (squeeze n r (size / r + 1) (absorb n r m)).take size

/-- A sponge-like function that ignores the last `r mod 8` bytes of every block and reads all its output from one state. -/
def lossy (n r size : Nat) (m : List U8) : List U8 :=
  (bytes ((blocks r (pad r m)).foldl (fun A b => keccakf n (xorInto A (b.take (8 * (b.length / 8))))) (fun _ _ => 0#64))).take size

end Verif.Spec.Keccak
