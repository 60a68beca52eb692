import Verif.Model.KeccakC

/-!
# The C interface of package keccak as a sequence of calls on one object

The functions themselves are in Model/KeccakC.lean; here is what a caller of KeccakSponge.h and KeccakNISTInterface.h can do with them. (`Hash`, declared in
KeccakNISTInterface.h:68, is defined nowhere.)
-/

namespace Verif.Model.KeccakC
open Verif

/-- A call of the C interface on one `hashState` (a `spongeState`): KeccakSponge.h:39-76, KeccakNISTInterface.h:26-60. -/
inductive COp where
  | initSponge (rate capacity : U32)
  | init (hashbitlen : U32)
  | absorb (data : List U8) (databitlen : U64)
  | update (data : List U8) (databitlen : U64)
  | squeeze (output : List U8) (outputLength : U64)
  | final (hashval : List U8)

/-- What the caller sees of a call: the value returned, and the contents of the output buffer if it has one. KeccakSponge.h:39-76,
KeccakNISTInterface.h:26-60. -/
structure COut where
  code : Nat
  buf : List U8
deriving DecidableEq, Repr

/-- One call, KeccakSponge.c:21-38, 80-192, 229-266; KeccakNISTInterface.c:18-63. -/
def cstep (s : Sponge) : COp → Go (Sponge × COut)
  | .initSponge rate capacity => .ok ((InitSponge s rate capacity).1, ⟨(InitSponge s rate capacity).2, []⟩)
  | .init h => .ok ((Init s h).1, ⟨(Init s h).2, []⟩)
  | .absorb data n => do
      let r ← Absorb s data n
      return (r.1, ⟨r.2, []⟩)
  | .update data n => do
      let r ← Update s data n
      return (r.1, ⟨r.2, []⟩)
  | .squeeze output n => do
      let r ← Squeeze s output n
      return (r.1, ⟨r.2.2, r.2.1⟩)
  | .final hashval => do
      let r ← Final s hashval
      return (r.1, ⟨r.2.2, r.2.1⟩)

/-- A sequence of calls on one object and what the caller sees of each. For the interface of KeccakSponge.h and KeccakNISTInterface.h. -/
def crun (s : Sponge) : List COp → Go (List COut)
  | [] => .ok []
  | op :: ops => do
      let r ← cstep s op
      let out ← crun r.1 ops
      return r.2 :: out

end Verif.Model.KeccakC
