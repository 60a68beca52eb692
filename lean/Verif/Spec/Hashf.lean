import Verif.Model.Hashf
import Verif.Spec.Small
import Verif.Spec.Gomap
import Verif.Spec.Jenkins
import Verif.Spec.Spooky
import Verif.Spec.Murmur3
import Verif.Spec.SipHash
import Verif.Spec.Farm
import Verif.Spec.Metro
import Verif.Spec.Keccak

/-!
# Specification of package hashf: which function of key and seed each name denotes

Written in terms of the published algorithms (the other `Spec` files), without the global objects. `none` means that the call
panics.
-/

namespace Verif.Spec.Hashf
open Verif
open Verif.Model.Hashf (Ext)

/-- The low 32 bits of the seed. -/
def low (seed : U64) : U32 := seed.setWidth 32

/-- A 32-bit value as a 64-bit value. -/
def wide (h : U32) : U64 := BitVec.ofNat 64 h.toNat

/-- High word `a`, low word `b`. -/
def pack (a b : U32) : U64 := BitVec.ofNat 64 (2 ^ 32 * a.toNat + b.toNat)

/-- The first eight bytes of a digest as a big-endian number. -/
def firstEight (d : List U8) : U64 := BitVec.ofNat 64 (beNat (d.take 8))

/-- MaHash8v64 (see `C53_fold`). -/
def mahash (k : List U8) : U64 :=
  let h := Spec.MaHash.join (Spec.MaHash.state k)
  let y := h + (h <<< 13 ^^^ h >>> 23)
  h ^^^ (y <<< 29 ||| y >>> 34)

/-- MetroHash64-1 as this repository computes it (see C43): the last byte of a key of length 4 modulo 8 is only counted. -/
def metro64_1 (k : List U8) (seed : U32) : U64 :=
  open Spec.Metro in
  if k.length % 8 = 4 then run64 params64_1 k.dropLast (start64 params64_1 k seed) else metro64 params64_1 k seed

/-- lookup3 with both seed words equal to `s`: (c, b). -/
def look3 (k : List U8) (s : U32) : U32 × U32 := Spec.Jenkins.hashlittle2 s s k

/-- What each name denotes, other than the two counters. -/
def table (e : Ext) : List (String × (List U8 → U64 → Option U64)) := [
  ("perfecthash", fun k _ => if k.length < 4 then none else some (BitVec.ofNat 64 (leNat (k.take 4)))),
  ("gomap64", fun k s => if k = [] then none else some (Spec.Gomap.hash Spec.Gomap.family64 k s)),
  ("gomap32", fun k s => if k = [] then none else some (wide (Spec.Gomap.hash Spec.Gomap.family32 k (low s)))),
  ("aeshash64", fun k s => some (e.aesHash k s)),
  ("aeshash32I", fun k s => if k.length < 4 then none else some (e.aesHash64 (BitVec.ofNat 64 (beNat (k.take 4))) s)),
  ("aeshash64I", fun k s => if k.length < 8 then none else some (e.aesHash64 (BitVec.ofNat 64 (beNat (k.take 8))) s)),
  ("adler32", fun k _ => some (wide (e.adler32 k))),
  ("sbox", fun k s => some (wide (Spec.Sbox.sbox k (low s)))),
  ("CrapWow", fun k s => some (wide (Spec.CrapWow.crapwow k (low s)))),
  ("MaHash8v64", fun k _ => some (mahash k)),
  ("j364", fun k s => some (pack (look3 k (low s)).2 (look3 k (low s)).1)),
  ("j332c", fun k s => some (wide (look3 k (low s)).1)),
  ("j332b", fun k s => some (wide (look3 k (low s)).2)),
  ("j232", fun k s => some (wide (Spec.Jenkins.hash232 (k.take (k.length % 2 ^ 32)) (low s)))),
  ("j264", fun k s => some (Spec.Jenkins.hash264 k s)),
  ("j264l", fun k s => some (BitVec.ofNat 64 ((Spec.Jenkins.hash264 k s).toNat % 2 ^ 32))),
  ("j264h", fun k s => some (BitVec.ofNat 64 ((Spec.Jenkins.hash264 k s).toNat / 2 ^ 32))),
  ("j264xor", fun k s => some (wide ((Spec.Jenkins.hash264 k s).setWidth 32 ^^^ (Spec.Jenkins.hash264 k s >>> 32).setWidth 32))),
  ("spooky32", fun k s => some (wide ((Spec.Spooky.spooky128 k (wide (low s)) (wide (low s))).1.setWidth 32))),
  ("spooky64", fun k s => some (Spec.Spooky.spooky128 k s s).1),
  ("spooky128h", fun k s => some (Spec.Spooky.spooky128 k s s).1),
  ("spooky128l", fun k s => some (Spec.Spooky.spooky128 k s s).2),
  ("spooky128xor", fun k s => some ((Spec.Spooky.spooky128 k s s).1 ^^^ (Spec.Spooky.spooky128 k s s).2)),
  ("murmur332", fun k _ => some (wide (Spec.Murmur3.x86_32 0#32 k))),
  ("murmur364", fun k _ => some (Spec.Murmur3.x64_128 0#64 k).1),
  ("siphash64", fun k _ => some (Spec.SipHash.hash64 2 4 0#64 0#64 k)),
  ("siphash64pg", fun k s => some (Spec.SipHash.hash64 2 4 s s k)),
  ("FarmHash32", fun k _ => some (wide (Spec.Farm.hash32 k))),
  ("FarmHash64", fun k _ => some (Spec.Farm.hash64 k)),
  ("FarmHash128-high", fun k _ => some (Spec.Farm.hash128 k).1),
  ("FarmHash128-low", fun k _ => some (Spec.Farm.hash128 k).2),
  ("FarmHash128-xor", fun k _ => some ((Spec.Farm.hash128 k).1 ^^^ (Spec.Farm.hash128 k).2)),
  ("MetroHash64-1", fun k s => some (metro64_1 k (low s))),
  ("MetroHash64-2", fun k s => some (Spec.Metro.metro64 Spec.Metro.params64_2 k (low s))),
  ("MetroHash128-1h", fun k s => some (Spec.Metro.metro128 Spec.Metro.params128_1 k (low s)).1),
  ("MetroHash128-1l", fun k s => some (Spec.Metro.metro128 Spec.Metro.params128_1 k (low s)).2),
  ("MetroHash128-1xor", fun k s => some ((Spec.Metro.metro128 Spec.Metro.params128_1 k (low s)).1 ^^^ (Spec.Metro.metro128 Spec.Metro.params128_1 k (low s)).2)),
  ("MetroHash128-2h", fun k s => some (Spec.Metro.metro128 Spec.Metro.params128_2 k (low s)).1),
  ("MetroHash128-2l", fun k s => some (Spec.Metro.metro128 Spec.Metro.params128_2 k (low s)).2),
  ("MetroHash128-2xor", fun k s => some ((Spec.Metro.metro128 Spec.Metro.params128_2 k (low s)).1 ^^^ (Spec.Metro.metro128 Spec.Metro.params128_2 k (low s)).2)),
  ("keccak224", fun k _ => some (firstEight (e.keccak224 k))),
  ("keccakpg643", fun k _ => some (firstEight (Spec.Keccak.sponge 3 184 8 k))),
  ("keccakpg644", fun k _ => some (firstEight (Spec.Keccak.sponge 4 184 8 k))),
  ("keccakpg648", fun k _ => some (firstEight (Spec.Keccak.sponge 8 184 8 k))),
  ("keccakpg160", fun k _ => some (firstEight (Spec.Keccak.sponge 24 160 20 k))),
  ("whirlpool", fun k _ => some (firstEight (e.whirlpool k))),
  ("blake2b", fun k _ => some (firstEight (e.blake2b k))),
  ("sha1", fun k _ => some (firstEight (e.sha1 k)))]

/-- The names that count calls instead of hashing. -/
def counters : List String := ["nullhash", "nullhashF64ns"]

/-- The names `Hashf` should know. -/
def names : List String := counters ++ (table ⟨fun _ _ => 0#64, fun _ _ => 0#64, fun _ => 0#32, fun _ => [], fun _ => [], fun _ => [], fun _ => []⟩).map (·.1)

/-- What the external digests must guarantee: at least eight bytes. -/
structure Ok (e : Ext) : Prop where
  keccak224 : ∀ k, 8 ≤ (e.keccak224 k).length
  whirlpool : ∀ k, 8 ≤ (e.whirlpool k).length
  blake2b : ∀ k, 8 ≤ (e.blake2b k).length
  sha1 : ∀ k, 8 ≤ (e.sha1 k).length

/-- The result of a call after the calls in `hist`: counters return their number of calls so far, an unknown name panics with
`hashf`, the others are the functions of the table (an index panic where undefined). -/
def outcome (e : Ext) (hist : List (String × List U8 × U64)) (name : String) (k : List U8) (seed : U64) : Go U64 :=
  if name ∈ counters then .ok (BitVec.ofNat 64 ((hist.filter fun c => c.1 = name).length + 1))
  else match (table e).lookup name with
    | none => .error (.explicit "hashf")
    | some f => match f k seed with
      | some h => .ok h
      | none => .error .index

/-- What `Hashf(k, seed)` does with `Hf2 = name` after the calls `hist`, counted from the start of the program. -/
def resultAfter (e : Ext) (hist : List (String × List U8 × U64)) (name : String) (k : List U8) (seed : U64) : Go U64 :=
  ((Model.Hashf.session e Model.Hashf.init (hist ++ [(name, k, seed)]))[hist.length]?).getD (.error .diverge)

end Verif.Spec.Hashf
