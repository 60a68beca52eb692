import Verif.Arx

/-!
# Model of package spooky (/repo/spooky/spooky.go)

The twelve (four) `uint64` locals that the source passes around are one register file. `sliceUI64` and the
machine are little-endian (amd64). The loop counters `l` are only decremented under their guard and are kept as
natural numbers. Debug printing is dropped.
-/

namespace Verif.Model.Spooky
open Verif.Arx

/-- `sc_const`, spooky.go:40. -/
def sc_const : U64 := 0xdeadbeefdeadbeef#64

/-- `sc_bufSize` = 2 * 12 * 8, spooky.go:42-48. -/
def sc_bufSize : Nat := 192

/-- The assignments of `Mix`, spooky.go:76-90. -/
def mixProg : List (Instr 12) := [
  .add 0 [.par 0], .xor 2 10, .xor 11 0, .rotl 0 11, .add 11 [.reg 1],
  .add 1 [.par 1], .xor 3 11, .xor 0 1, .rotl 1 32, .add 0 [.reg 2],
  .add 2 [.par 2], .xor 4 0, .xor 1 2, .rotl 2 43, .add 1 [.reg 3],
  .add 3 [.par 3], .xor 5 1, .xor 2 3, .rotl 3 31, .add 2 [.reg 4],
  .add 4 [.par 4], .xor 6 2, .xor 3 4, .rotl 4 17, .add 3 [.reg 5],
  .add 5 [.par 5], .xor 7 3, .xor 4 5, .rotl 5 28, .add 4 [.reg 6],
  .add 6 [.par 6], .xor 8 4, .xor 5 6, .rotl 6 39, .add 5 [.reg 7],
  .add 7 [.par 7], .xor 9 5, .xor 6 7, .rotl 7 57, .add 6 [.reg 8],
  .add 8 [.par 8], .xor 10 6, .xor 7 8, .rotl 8 55, .add 7 [.reg 9],
  .add 9 [.par 9], .xor 11 7, .xor 8 9, .rotl 9 54, .add 8 [.reg 10],
  .add 10 [.par 10], .xor 0 8, .xor 9 10, .rotl 10 22, .add 9 [.reg 11],
  .add 11 [.par 11], .xor 1 9, .xor 10 11, .rotl 11 46, .add 10 [.reg 0]]

/-- The assignments of `EndPartial`, spooky.go:109-123. -/
def endPartialProg : List (Instr 12) := [
  .add 11 [.reg 1], .xor 2 11, .rotl 1 44,
  .add 0 [.reg 2], .xor 3 0, .rotl 2 15,
  .add 1 [.reg 3], .xor 4 1, .rotl 3 34,
  .add 2 [.reg 4], .xor 5 2, .rotl 4 21,
  .add 3 [.reg 5], .xor 6 3, .rotl 5 38,
  .add 4 [.reg 6], .xor 7 4, .rotl 6 33,
  .add 5 [.reg 7], .xor 8 5, .rotl 7 10,
  .add 6 [.reg 8], .xor 9 6, .rotl 8 13,
  .add 7 [.reg 9], .xor 10 7, .rotl 9 38,
  .add 8 [.reg 10], .xor 11 8, .rotl 10 53,
  .add 9 [.reg 11], .xor 0 9, .rotl 11 42,
  .add 10 [.reg 0], .xor 1 10, .rotl 0 54]

/-- The assignments of `ShortMix`, spooky.go:201-215. -/
def shortMixProg : List (Instr 4) := [
  .rotl 2 50, .add 2 [.reg 3], .xor 0 2,
  .rotl 3 52, .add 3 [.reg 0], .xor 1 3,
  .rotl 0 30, .add 0 [.reg 1], .xor 2 0,
  .rotl 1 41, .add 1 [.reg 2], .xor 3 1,
  .rotl 2 54, .add 2 [.reg 3], .xor 0 2,
  .rotl 3 48, .add 3 [.reg 0], .xor 1 3,
  .rotl 0 38, .add 0 [.reg 1], .xor 2 0,
  .rotl 1 37, .add 1 [.reg 2], .xor 3 1,
  .rotl 2 62, .add 2 [.reg 3], .xor 0 2,
  .rotl 3 34, .add 3 [.reg 0], .xor 1 3,
  .rotl 0 5, .add 0 [.reg 1], .xor 2 0,
  .rotl 1 36, .add 1 [.reg 2], .xor 3 1]

/-- The assignments of `ShortEnd`, spooky.go:229-242. -/
def shortEndProg : List (Instr 4) := [
  .xor 3 2, .rotl 2 15, .add 3 [.reg 2],
  .xor 0 3, .rotl 3 52, .add 0 [.reg 3],
  .xor 1 0, .rotl 0 26, .add 1 [.reg 0],
  .xor 2 1, .rotl 1 51, .add 2 [.reg 1],
  .xor 3 2, .rotl 2 28, .add 3 [.reg 2],
  .xor 0 3, .rotl 3 9, .add 0 [.reg 3],
  .xor 1 0, .rotl 0 47, .add 1 [.reg 0],
  .xor 2 1, .rotl 1 54, .add 2 [.reg 1],
  .xor 3 2, .rotl 2 32, .add 3 [.reg 2],
  .xor 0 3, .rotl 3 25, .add 0 [.reg 3],
  .xor 1 0, .rotl 0 63, .add 1 [.reg 0]]

/-- `sliceUI64(in)` (59-61) followed by the unconditional reads `data[0]` ... `data[11]` of `Mix` (77-88) and `End`
(127-129). -/
def words12 (p : List U8) : Go (Nat → U64) :=
  if 12 ≤ p.length / 8 then .ok (fun i => le64 (p.drop (8 * i))) else .error .index

/-- `Mix`, spooky.go:76-90. -/
def Mix (data : Nat → U64) (s : Regs 12) : Regs 12 := run data s mixProg

/-- `EndPartial`, spooky.go:109-123. -/
def EndPartial (h : Regs 12) : Regs 12 := run (fun _ => 0#64) h endPartialProg

/-- The twelve additions of `End`, spooky.go:127-129. -/
def endAddProg : List (Instr 12) := [
  .add 0 [.par 0], .add 1 [.par 1], .add 2 [.par 2], .add 3 [.par 3],
  .add 4 [.par 4], .add 5 [.par 5], .add 6 [.par 6], .add 7 [.par 7],
  .add 8 [.par 8], .add 9 [.par 9], .add 10 [.par 10], .add 11 [.par 11]]

/-- `End`, spooky.go:126-134. -/
def End (data : Nat → U64) (h : Regs 12) : Regs 12 :=
  EndPartial (EndPartial (EndPartial (run data h endAddProg)))

/-- `ShortMix`, spooky.go:201-215. -/
def ShortMix (h : Regs 4) : Regs 4 := run (fun _ => 0#64) h shortMixProg

/-- `ShortEnd`, spooky.go:229-242. -/
def ShortEnd (h : Regs 4) : Regs 4 := run (fun _ => 0#64) h shortEndProg

/-- `U8tou64le`, spooky.go:244-246. -/
def U8tou64le (p : List U8) : Go U64 := do
  return (← Go.idx p 0).setWidth 64 ||| (← Go.idx p 1).setWidth 64 <<< 8 ||| (← Go.idx p 2).setWidth 64 <<< 16 |||
    (← Go.idx p 3).setWidth 64 <<< 24 ||| (← Go.idx p 4).setWidth 64 <<< 32 ||| (← Go.idx p 5).setWidth 64 <<< 40 |||
    (← Go.idx p 6).setWidth 64 <<< 48 ||| (← Go.idx p 7).setWidth 64 <<< 56

/-- `U8tou32le`, spooky.go:248-250 (it returns a `uint64`). -/
def U8tou32le (p : List U8) : Go U64 := do
  return (← Go.idx p 0).setWidth 64 ||| (← Go.idx p 1).setWidth 64 <<< 8 ||| (← Go.idx p 2).setWidth 64 <<< 16 |||
    (← Go.idx p 3).setWidth 64 <<< 24

/-- `r += v` for one of the locals `a, b, c, d` (registers 0 to 3). spooky.go:297-349. -/
def addTo (s : Regs 4) (r : Fin 4) (v : U64) : Regs 4 := Function.update s r (s r + v)

/-- Loop body of `SpookyHashShort`, spooky.go:266-279. -/
def shortBody (x : Regs 4 × List U8 × Nat) : Go (Regs 4 × List U8 × Nat) := do
  let (s, p, l) := x
  let s := addTo s 2 (← U8tou64le p)
  let p ← Go.from_ p 8
  let s := addTo s 3 (← U8tou64le p)
  let p ← Go.from_ p 8
  let s := ShortMix s
  let s := addTo s 0 (← U8tou64le p)
  let p ← Go.from_ p 8
  let s := addTo s 1 (← U8tou64le p)
  let p ← Go.from_ p 8
  return (s, p, l - 32)

/-! The `switch (remainder)` of `SpookyHashShort`, spooky.go:297-349, one function per `case`. -/
def case0 (s : Regs 4) : Go (Regs 4) := .ok (addTo (addTo s 2 sc_const) 3 sc_const)
/-- spooky.go:341-343. -/
def case1 (p : List U8) (s : Regs 4) : Go (Regs 4) := do return addTo s 2 ((← Go.idx p 0).setWidth 64)
/-- spooky.go:338-340. -/
def case2 (p : List U8) (s : Regs 4) : Go (Regs 4) := do case1 p (addTo s 2 ((← Go.idx p 1).setWidth 64 <<< 8))
/-- spooky.go:335-337. -/
def case3 (p : List U8) (s : Regs 4) : Go (Regs 4) := do case2 p (addTo s 2 ((← Go.idx p 2).setWidth 64 <<< 16))
/-- spooky.go:332-334. -/
def case4 (p : List U8) (s : Regs 4) : Go (Regs 4) := do return addTo s 2 (← U8tou32le p)
/-- spooky.go:329-331. -/
def case5 (p : List U8) (s : Regs 4) : Go (Regs 4) := do case4 p (addTo s 2 ((← Go.idx p 4).setWidth 64 <<< 32))
/-- spooky.go:326-328. -/
def case6 (p : List U8) (s : Regs 4) : Go (Regs 4) := do case5 p (addTo s 2 ((← Go.idx p 5).setWidth 64 <<< 40))
/-- spooky.go:323-325. -/
def case7 (p : List U8) (s : Regs 4) : Go (Regs 4) := do case6 p (addTo s 2 ((← Go.idx p 6).setWidth 64 <<< 48))
/-- spooky.go:320-322. -/
def case8 (p : List U8) (s : Regs 4) : Go (Regs 4) := do return addTo s 2 (← U8tou64le p)
/-- spooky.go:317-319. -/
def case9 (p : List U8) (s : Regs 4) : Go (Regs 4) := do case8 p (addTo s 3 ((← Go.idx p 8).setWidth 64))
/-- spooky.go:314-316. -/
def case10 (p : List U8) (s : Regs 4) : Go (Regs 4) := do case9 p (addTo s 3 ((← Go.idx p 9).setWidth 64 <<< 8))
/-- spooky.go:311-313. -/
def case11 (p : List U8) (s : Regs 4) : Go (Regs 4) := do case10 p (addTo s 3 ((← Go.idx p 10).setWidth 64 <<< 16))
/-- spooky.go:307-310. -/
def case12 (p : List U8) (s : Regs 4) : Go (Regs 4) := do
  let s := addTo s 3 (← U8tou32le (← Go.from_ p 8))
  return addTo s 2 (← U8tou64le p)
/-- spooky.go:304-306. -/
def case13 (p : List U8) (s : Regs 4) : Go (Regs 4) := do case12 p (addTo s 3 ((← Go.idx p 12).setWidth 64 <<< 32))
/-- spooky.go:301-303. -/
def case14 (p : List U8) (s : Regs 4) : Go (Regs 4) := do case13 p (addTo s 3 ((← Go.idx p 13).setWidth 64 <<< 40))
/-- spooky.go:298-300. -/
def case15 (p : List U8) (s : Regs 4) : Go (Regs 4) := do case14 p (addTo s 3 ((← Go.idx p 14).setWidth 64 <<< 48))

/-- The switch itself. spooky.go:297-349. -/
def shortSwitch (remainder : Nat) (p : List U8) (s : Regs 4) : Go (Regs 4) :=
  match remainder with
  | 15 => case15 p s | 14 => case14 p s | 13 => case13 p s | 12 => case12 p s
  | 11 => case11 p s | 10 => case10 p s | 9 => case9 p s | 8 => case8 p s
  | 7 => case7 p s | 6 => case6 p s | 5 => case5 p s | 4 => case4 p s
  | 3 => case3 p s | 2 => case2 p s | 1 => case1 p s | 0 => case0 s
  | _ => Go.panic "SpookyHash"

/-- "Handle the case of 16+ remaining bytes", spooky.go:281-289. State: locals, `in`, `remainder`. -/
def short16 (s : Regs 4) (p : List U8) (remainder : Nat) : Go (Regs 4 × List U8 × Nat) :=
  if remainder ≥ 16 then do
    let s := addTo s 2 (← U8tou64le p)
    let p ← Go.from_ p 8
    let s := addTo s 3 (← U8tou64le p)
    let p ← Go.from_ p 8
    return (ShortMix s, p, remainder - 16)
  else .ok (s, p, remainder)

/-- The statement `if length >= 16 { ... }`, spooky.go:264-290. State: locals, `in`, `remainder`. -/
def shortHead (s : Regs 4) (p : List U8) : Go (Regs 4 × List U8 × Nat) :=
  if p.length ≥ 16 then do
    let (s, q, _) ← Go.while_ p.length (fun x => decide (x.2.2 ≥ 32)) shortBody (s, p, p.length)
    short16 s q (p.length % 32)
  else .ok (s, p, p.length % 32)

/-- `SpookyHashShort`, spooky.go:256-356. -/
def SpookyHashShort (p : List U8) (hash1 hash2 : U64) : Go (U64 × U64) := do
  let s : Regs 4 := fun i => if i = 0 then hash1 else if i = 1 then hash2 else sc_const
  let length := p.length
  let (s, p, remainder) ← shortHead s p
  let s := addTo s 3 (BitVec.ofNat 64 length <<< 56)
  let s ← shortSwitch remainder p s
  let s := ShortEnd s
  return (s 0, s 1)

/-- Loop body of `SpookyHash128`, spooky.go:155-163. -/
def longBody (x : Regs 12 × List U8 × Nat) : Go (Regs 12 × List U8 × Nat) := do
  let (s, p, l) := x
  let d ← words12 p
  let s := Mix d s
  let p ← Go.from_ p 96
  return (s, p, l - 96)

/-- `for k, v := range in { b[k] = v }`, spooky.go:169-171. -/
def copyInto (b : List U8) (k : Nat) : List U8 → Go (List U8)
  | [] => .ok b
  | v :: vs => do copyInto (← Go.set b k v) (k + 1) vs

/-- `if remainder > 0 { for k, v := range in { b[k] = v } }`, spooky.go:168-172. -/
def padCopy (b p : List U8) (remainder : Nat) : Go (List U8) :=
  if remainder > 0 then copyInto b 0 p else .ok b

/-- `SpookyHash128`, spooky.go:137-183. -/
def SpookyHash128 (p : List U8) (hash1 hash2 : U64) : Go (U64 × U64) := do
  let b := List.replicate 96 0#8
  let length := p.length
  if length < sc_bufSize then SpookyHashShort p hash1 hash2
  else do
    let remainder := length % 96
    let s : Regs 12 := fun i =>
      if i = 0 ∨ i = 3 ∨ i = 6 ∨ i = 9 then hash1 else if i = 1 ∨ i = 4 ∨ i = 7 ∨ i = 10 then hash2 else sc_const
    let (s, p, _) ← Go.while_ length (fun x => decide (x.2.2 ≥ 96)) longBody (s, p, length)
    if p.length ≠ remainder then Go.panic "SpookyHash128"
    else do
      let b ← padCopy b p remainder
      let b ← Go.set b (b.length - 1) (BitVec.ofNat 8 remainder)
      let d ← words12 b
      let s := End d s
      return (s 0, s 1)

/-- `Hash128`, spooky.go:362-366. -/
def Hash128 (p : List U8) (seed : U64) : Go (U64 × U64) := do
  let (h3, h4) ← SpookyHash128 p seed seed
  return (h3, h4)

/-- `Hash64`, spooky.go:371-375. -/
def Hash64 (p : List U8) (seed : U64) : Go U64 := do
  let (h3, _) ← SpookyHash128 p seed seed
  return h3

/-- `Hash32`, spooky.go:380-384. -/
def Hash32 (p : List U8) (seed : U32) : Go U32 := do
  let (h3, _) ← SpookyHash128 p (seed.setWidth 64) (seed.setWidth 64)
  return h3.setWidth 32

end Verif.Model.Spooky
