import Verif.Model.SipHash

/-!
# Model of /repo/siphashpg/example/example.go

`main` (lines 192-195) is `bench` with the values of the flags; what follows its `return` is a comment. The two tables of test vectors (lines 30-162) are not used
by the program. Times are left out.
-/

namespace Verif.Model.SipExample
open Verif

/-- `seeds`, siphashpg/example/example.go:164. -/
def seeds : List U8 := [0, 1, 2, 3, 4, 5, 6, 7, 8, 9, 10, 11, 12, 13, 14, 15]

/-- The loop of `bench`, siphashpg/example/example.go:174-177: the results, which the program drops. -/
def bench (n c d : Int) (dbl : Bool) : Go (List (U64 × U64)) :=
  Go.forRange 0 n.toNat (fun i hs => do
    let k ← Model.SipHash.U64tou8le (BitVec.ofNat 64 i)
    let h ← Model.SipHash.Siphash k seeds c d dbl
    return hs ++ [h]) []

end Verif.Model.SipExample
