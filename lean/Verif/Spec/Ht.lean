import Verif.Go
import Mathlib.Data.List.Chain

/-! Specifications for the properties of ht.go (C65-C70, C82-C85). Nothing here refers to the model. -/

namespace Verif.Spec.Ht
open Verif

/-- All ways to choose one element from every list, the choice at the first position varying fastest. -/
def combos {α : Type} : List (List α) → List (List α)
  | [] => [[]]
  | s :: r => (combos r).flatMap fun w => s.map (· :: w)

/-- A byte read as a code point below 256 and written in UTF-8. -/
def utf8 (b : U8) : List U8 :=
  if b.toNat < 128 then [b] else [BitVec.ofNat 8 (0xC0 + b.toNat / 64), BitVec.ofNat 8 (0x80 + b.toNat % 64)]

/-- The text a list of code points below 256 spells. -/
def spell (w : List U8) : List U8 := w.flatMap utf8

def ascii (w : List U8) : Prop := ∀ b ∈ w, b.toNat < 128

/-- A line (without its newline) with at most one trailing carriage return and then at most one trailing space removed. -/
def strip (l : List U8) : List U8 :=
  let l := if l.getLast? = some 13#8 then l.dropLast else l
  if l.getLast? = some 32#8 then l.dropLast else l

/-- The lines (without their newline) `ReadFile` cannot cope with. -/
def bad (l : List U8) : Bool := l = [] || l = [13#8]

/-- A file consisting of these newline-terminated lines and an unterminated rest. -/
def fileOf (ls : List (List U8)) (rest : List U8) : List U8 := ls.flatMap (· ++ [10#8]) ++ rest

/-- The value of a hexadecimal digit. -/
def digit (c : U8) : Option Nat :=
  let x := c.toNat
  if 48 ≤ x ∧ x ≤ 57 then some (x - 48)
  else if 97 ≤ x ∧ x ≤ 102 then some (x - 87)
  else if 65 ≤ x ∧ x ≤ 70 then some (x - 55)
  else none

/-- Lower- or upper-case hexadecimal digit. -/
def hexChar (upper : Bool) (n : Nat) : U8 :=
  if n < 10 then BitVec.ofNat 8 (48 + n) else BitVec.ofNat 8 ((if upper then 65 else 97) + (n - 10))

/-- Hexadecimal text of a byte string. -/
def hex (upper : Bool) (b : List U8) : List U8 :=
  b.flatMap fun x => [hexChar upper (x.toNat / 16), hexChar upper (x.toNat % 16)]

/-- The list made of these runs: values with their number of repetitions. -/
def ofRuns (rs : List (U32 × Nat)) : List U32 := rs.flatMap fun r => List.replicate r.2 r.1

/-- Runs are non-empty and neighbouring runs have different values. -/
def IsRuns (rs : List (U32 × Nat)) : Prop := (∀ r ∈ rs, 0 < r.2) ∧ rs.IsChain (fun a b => a.1 ≠ b.1)

/-- Number of elements of a histogram's bin: the indices below `n` whose hash falls into it. -/
def binCount (h : Nat → Nat) (n b : Nat) : Nat := (List.range n).countP fun i => h i = b

end Verif.Spec.Ht
