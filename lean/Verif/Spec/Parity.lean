import Verif.Go

/-! Bit parity, independent of any model. -/

namespace Verif.Spec

/-- Number of 1 bits of a 64-bit word. -/
def ones (d : U64) : Nat := (List.range 64).countP (fun i => d.getLsbD i)

end Verif.Spec
