import Verif.Go

/-! # What the benchmarks should hash (C102) -/

namespace Verif.Spec.Bench
open Verif

/-- The key sizes. -/
def sizes : List Nat := [4, 8, 16, 32, 64, 512, 1024, 4096]

/-- How often keys of a size are hashed: a tenth as often from 512 bytes on. -/
def rounds (n : Int) (size : Nat) : Nat := if size < 512 then n.toNat else n.toNat / 10

/-- The keys hashed without an object: always the same one. -/
def zeroKeys (n : Int) : List (List U8) := sizes.flatMap fun s => List.replicate (rounds n s) (List.replicate s 0#8)

/-- Key `i` of size `s`, for an object: `i` in little-endian order, filled up with zeros. -/
def intKey (s i : Nat) : List U8 := leBytes s i

/-- The keys of one size, for an object. -/
def intKeysOf (n : Int) (s : Nat) : List (List U8) := (List.range (rounds n s)).map (intKey s)

/-- The keys hashed with an object. -/
def intKeys (n : Int) : List (List U8) := sizes.flatMap (intKeysOf n)

/-- The printed sizes and counts. -/
def report (n : Int) : List (Nat × Int) := sizes.map fun s => (s, if s < 512 then n else n.tdiv 10)

end Verif.Spec.Bench
