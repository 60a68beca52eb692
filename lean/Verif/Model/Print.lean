import Verif.Model.HashTable
import Verif.Model.RBetween

/-!
# Model of `(*HashTable).Print` and of the `float64` arithmetic of `HashQuality`, /repo/hashtable/hashtable.go:261-325

What is printed is a list of labelled values; their formatting (`%h` of the external package hrff, `%0.2f`) is not modelled. `float64` is as in
`Model.RBetween`: exact arithmetic followed by rounding to 53 bits, exponents not limited; infinity and NaN occur as results of dividing by zero only.
-/

namespace Verif.Model.Print
open Verif Verif.HashTable
open Verif.Model.RBetween (fl)

/-- A `float64` that is not negative. For hashtable.go:261-325. -/
inductive Flt where
  | num (q : ℚ)
  | inf
  | nan

/-- `a / b` for `a`, `b` not negative. For hashtable.go:261-325. -/
def Flt.div (a b : ℚ) : Flt := if b = 0 then (if a = 0 then .nan else .inf) else .num (fl (a / b))

/-- `x * 100.0`. hashtable.go:287-325. -/
def Flt.times100 : Flt → Flt
  | .num q => .num (fl (q * 100))
  | .inf => .inf
  | .nan => .nan

/-- `float64(n)`. For hashtable.go:261-325. -/
def ofNat (n : Nat) : ℚ := fl (n : ℚ)

/-- `Duration.Seconds` of a duration of `d >= 0` nanoseconds (Go's package time): `float64(d/Second) + float64(d%Second)/1e9`. For hashtable.go:287-325. -/
def seconds (d : Nat) : ℚ := fl (ofNat (d / 10 ^ 9) + fl (ofNat (d % 10 ^ 9) / 10 ^ 9))

/-- `cvt`, hashtable.go:288-300. -/
def cvt (t : ℚ) : ℚ × String :=
  if t < 1 then
    let t := fl (t * 1000)
    if t < 1 then (fl (t * 1000), "us") else (t, "ms")
  else (t, "s")

variable {κ : Type}

/-- `HashQuality`, hashtable.go:261-285, in `float64`. -/
def hashQuality (ht : HT κ) : Flt :=
  if ht.inserts = 0 then .num 0 else
  let n : ℚ := ht.buckets.foldl (fun (n : ℚ) v => if v.isEmpty then n else
    let count := ofNat v.length
    fl (n + fl (count * fl (count + 1)))) 0
  let n := fl (n * ofNat ht.size.toNat)
  let d := fl (ofNat ht.inserts * fl (fl (ofNat ht.inserts + fl (2 * ofNat ht.size.toNat)) - 1))
  Flt.div n d

/-- A printed value. hashtable.go:287-325. -/
inductive Val where
  | int (n : Int)
  | float (x : Flt)
  | time (x : ℚ) (unit : String)

/-- `Print`, hashtable.go:287-325, of a table whose `Dups2` is `dups2` (written by `TestL` only, ht.go:284, 0 otherwise) and whose `Dur` is
`dur` nanoseconds. -/
def print (ht : HT κ) (dups2 : Int) (dur : Nat) : List (String × Val) :=
  let q := hashQuality ht
  let (t, units) := cvt (seconds dur)
  if ht.oa then
    [("size", .int ht.size.toInt), ("inserts", .float (.num (ofNat ht.inserts))), ("probes", .float (.num (ofNat ht.probes))),
     ("cols", .float (.num (ofNat ht.cols))), ("cpi", .float (Flt.div (ofNat ht.cols) (ofNat ht.inserts)).times100),
     ("ppi", .float (Flt.div (ofNat ht.probes) (ofNat ht.inserts))), ("dups", .int ht.dups), ("time", .time t units)]
  else
    [("size", .int ht.size.toInt), ("inserts", .int ht.inserts), ("heads", .int ht.heads), ("newBuckets", .int ht.nbuckets),
     ("LongestChain", .int ht.longestChain), ("dups", .int ht.dups), ("dups2", .int dups2), ("q", .float q), ("time", .time t units)]

end Verif.Model.Print
