import Verif.Spec.Keccak
import Verif.Spec.KeccakC
import Verif.Model.KeccakCApi

/-!
# The Keccak sponge on bit strings, and the contract of the C interface (KeccakSponge.h, KeccakNISTInterface.h)

Of the model only the types of the calls (`COp`) and of what they show (`COut`) are used.
-/

namespace Verif.Spec.KeccakBits
open Verif
open Verif.Spec.Keccak (State keccakf xorInto squeeze)
open Verif.Spec.KeccakC (Sound)
open Verif.Model.KeccakC (COp COut)

/-- The bits of a byte string: byte after byte, in each byte from the least significant bit. -/
def bits (l : List U8) : List Bool := l.flatMap fun b => (List.range 8).map b.getLsbD

/-- The byte whose bits, from the least significant one, are the first eight of `l`. -/
def byte (l : List Bool) : U8 := (List.range 8).foldl (fun b i => if l.getD i false then b ||| 1#8 <<< i else b) 0#8

/-- The byte string with the bits `l`. -/
def pack (l : List Bool) : List U8 := (List.range (l.length / 8)).map fun i => byte (l.drop (8 * i))

/-- The pad10*1 rule: a one, as few zeros as possible and a one make the length a multiple of `R`. -/
def padBits (R : Nat) (m : List Bool) : List Bool := m ++ true :: (List.replicate ((R - (m.length + 2) % R) % R) false ++ [true])

/-- The state after absorbing the bit string `m` with a rate of `r` bytes. -/
def absorbed (r : Nat) (m : List Bool) : State := (blocks r (pack (padBits (8 * r) m))).foldl (fun A b => keccakf 24 (xorInto A b)) (fun _ _ => 0#64)

/-- Bytes `p`, `p + 1`, ... `p + n - 1` of the output of the sponge with a rate of `r` bytes for the bit string `m`. -/
def output (r : Nat) (m : List Bool) (p n : Nat) : List U8 := ((squeeze 24 r ((p + n) / r + 1) (absorbed r m)).drop p).take n

/-- The first `n` bits of a buffer: the incomplete byte at the end counts from its least significant bit (`Absorb`). -/
def lowBits (data : List U8) (n : Nat) : List Bool := (bits data).take n

/-- The first `n` bits of a buffer: the incomplete byte at the end uses its most significant bits (`Update`). -/
def highBits (data : List U8) (n : Nat) : List Bool :=
  bits (data.take (n / 8)) ++ ((bits ((data.drop (n / 8)).take 1)).drop (8 - n % 8)).take (n % 8)

/-- What the contract knows of an object: the rate in bytes, the length `Final` produces in bits, the bits absorbed, and, from the first request
for output on, how many bytes were given out. -/
structure CState where
  rate : Nat
  size : Nat
  msg : List Bool
  out : Option Nat

/-- The initialisations that succeed. -/
def fresh : COp → Option CState
  | .initSponge r c => if r.toNat + c.toNat = 1600 ∧ 0 < r.toNat ∧ r.toNat < 1600 ∧ r.toNat % 64 = 0 then some ⟨r.toNat / 8, 0, [], none⟩ else none
  | .init h =>
      if h.toNat = 0 then some ⟨128, 0, [], none⟩
      else if h.toNat ∈ [224, 256, 384, 512] then some ⟨(1600 - 2 * h.toNat) / 8, h.toNat, [], none⟩
      else none
  | _ => none

/-- Input is accepted before the first request for output and only after whole bytes. -/
def CState.Open (c : CState) : Prop := c.out = none ∧ c.msg.length % 8 = 0

instance (c : CState) : Decidable c.Open := inferInstanceAs (Decidable (_ ∧ _))

/-- A call for input. -/
def CState.feed (c : CState) (m : List Bool) : CState × COut := if c.Open then ({ c with msg := c.msg ++ m }, ⟨0, []⟩) else (c, ⟨1, []⟩)

/-- A call for `n` bits of output into the buffer `b`: the next bytes of the output replace the first bytes of the buffer. -/
def CState.take (c : CState) (b : List U8) (n : Nat) : CState × COut :=
  if n % 8 = 0 then ({ c with out := some (c.out.getD 0 + n / 8) }, ⟨0, output c.rate c.msg (c.out.getD 0) (n / 8) ++ b.drop (n / 8)⟩)
  else ({ c with out := some (c.out.getD 0) }, ⟨1, b⟩)

/-- One call. -/
def CState.step (c : CState) : COp → CState × COut
  | .initSponge r k => match fresh (.initSponge r k) with
    | some c' => (c', ⟨0, []⟩)
    | none => (c, ⟨1, []⟩)
  | .init h => match fresh (.init h) with
    | some c' => (c', ⟨0, []⟩)
    | none => (c, ⟨2, []⟩)
  | .absorb data n => c.feed (lowBits data n.toNat)
  | .update data n => c.feed (highBits data n.toNat)
  | .squeeze b n => c.take b n.toNat
  | .final b => c.take b c.size

/-- The contract: what the caller sees of a sequence of calls. -/
def promised (c : CState) : List COp → List COut
  | [] => []
  | op :: ops => (c.step op).2 :: promised (c.step op).1 ops

/-- What the caller owes: buffers that are long enough, and input whose whole bytes are not an unsound write (see C96). -/
def CState.Ready (c : CState) : COp → Prop
  | .absorb data n => c.Open → n.toNat ≤ 8 * data.length ∧ Sound c.rate (c.msg.length / 8 % c.rate) (n.toNat / 8)
  | .update data n => c.Open → n.toNat ≤ 8 * data.length ∧ Sound c.rate (c.msg.length / 8 % c.rate) (n.toNat / 8)
  | .squeeze b n => n.toNat % 8 = 0 → n.toNat / 8 ≤ b.length
  | .final b => c.size / 8 ≤ b.length
  | _ => True

/-- ... for every call of a sequence. -/
def AllReady (c : CState) : List COp → Prop
  | [] => True
  | op :: ops => c.Ready op ∧ AllReady (c.step op).1 ops

end Verif.Spec.KeccakBits
