import Verif.Spec.Keccak
import Verif.Spec.Stream

/-! Vocabulary for the statements about package keccak. -/

namespace Verif.Spec.KeccakC
open Verif

/-- The Keccak state represented by 25 stored words when lanes 1, 2, 8, 12, 17 and 20 are stored complemented (lane `x + 5 y`). -/
def decode (st : List U64) : Spec.Keccak.State := fun x y =>
  if x.val + 5 * y.val ∈ [1, 2, 8, 12, 17, 20] then ~~~ st.getD (x.val + 5 * y.val) 0#64 else st.getD (x.val + 5 * y.val) 0#64

/-- The bytes written since the last `Reset`, starting from `m`. -/
def written (m : List U8) : List HOp → List U8
  | [] => m
  | .write p :: ops => written (m ++ p) ops
  | .reset :: ops => written [] ops
  | .sum _ :: ops => written m ops
  | .value :: ops => written m ops

/-- A write of `n` bytes is sound when `q` bytes of an incomplete block of `r` are pending: nothing is pending, or the block stays incomplete, or
the write completes it as computed with the write's length reduced modulo 2^29. -/
def Sound (r q n : Nat) : Prop := q = 0 ∨ n + q < r ∨ (r ≤ n % 2 ^ 29 + q ∧ n % 2 ^ 29 + q < 2 ^ 29)

/-- Every write of the history is sound (and shorter than 2^61 bytes), `m` having been written before. -/
def AllSound (r : Nat) : List U8 → List HOp → Prop
  | _, [] => True
  | m, .write p :: ops => p.length < 2 ^ 61 ∧ Sound r (m.length % r) p.length ∧ AllSound r (m ++ p) ops
  | _, .reset :: ops => AllSound r [] ops
  | m, .sum _ :: ops => AllSound r m ops
  | m, .value :: ops => AllSound r m ops

end Verif.Spec.KeccakC
