import Verif.Model.Threefish

/-!
# Goroutines that share one Threefish cipher (/repo/threefish)

`Encrypt` and `Decrypt` work in the two arrays `tmpData1`, `tmpData2` of the cipher itself (`getTempData`, threefish256.go:71-73), so two
goroutines calling them on one cipher write the same memory. A call is cut here into its accesses to memory, one word of the cipher's arrays
(or of the caller's slice) at a time, and a schedule says which goroutine makes the next one.

Simplifications: accesses are sequentially consistent and words are not torn. Every goroutine has slices of its own (its `bytes` and
`words`): only the cipher is shared. `SetKey` and `SetTweak` are not called, so the reads of the expanded key and tweak are part
of the computation between loads and stores. A panic in one goroutine ends the program.
-/

namespace Verif.Model.ThreefishConc
open Verif Verif.Model.Threefish

/-- A call of `Encrypt`, `Decrypt` (`bytes true`, `bytes false`; threefish.go:174-214), `Encrypt64` or `Decrypt64` (`words`; threefish.go:225-240). -/
inductive Call where
  | bytes (enc : Bool) (dst src : Win)
  | words (enc : Bool) (dst src : Win)
  deriving DecidableEq, Repr

/-- One access. Part of threefish.go:174-244. -/
inductive Ins where
  /-- `tmpin[i] = binary.LittleEndian.Uint64(src[i*8 : i*8+8])`, threefish.go:182 and 207. -/
  | fill (src : Win) (i : Nat)
  /-- `b_i := input[i]` with `input = tmpin`, threefish256.go:85-88 (512, 1024: the same lines for more words). -/
  | load (i : Nat)
  /-- The unrolled rounds: locals only (and the expanded key and tweak, which do not change). -/
  | rounds (enc : Bool)
  /-- `output[i] = ...` with `output = tmpout`, threefish256.go:425-428. -/
  | store (i : Nat)
  /-- `binary.LittleEndian.PutUint64(dst[i*8:i*8+8], tmpout[i])`, threefish.go:187 and 212. -/
  | drain (dst : Win) (i : Nat)
  /-- `b_i := input[i]` with `input = src`, threefish.go:226 and 239. -/
  | load64 (src : Win) (i : Nat)
  /-- `output[i] = ...` with `output = dst`. -/
  | store64 (dst : Win) (i : Nat)
  deriving DecidableEq, Repr

/-- What a goroutine owns: its memory and the locals `b0, b1, ...` of the call it is in. For threefish.go:174-244. -/
structure Loc where
  bytes : List U8
  words : List U64
  regs : List U64
  deriving DecidableEq, Repr

/-- The cipher with other temporary data. threefish256.go:32-37. -/
def setTmp1 (c : Cipher) (t : List U64) : Cipher := { c with int := { c.int with tmpData1 := t } }
/-- The cipher with other output words (`tmpData2`). -/
def setTmp2 (c : Cipher) (t : List U64) : Cipher := { c with int := { c.int with tmpData2 := t } }

/-- One access by a goroutine, threefish.go:174-240 with threefish256.go:71-428 (512, 1024: the same for more words). -/
def access (c : Cipher) (l : Loc) : Ins → Go (Cipher × Loc)
  | .fill src i => do
    let t ← loadBytes l.bytes src i c.int.tmpData1
    return (setTmp1 c t, l)
  | .load i => do
    let x ← Go.idx c.int.tmpData1 i
    return (c, { l with regs := l.regs ++ [x] })
  | .rounds enc => .ok (c, { l with regs := if enc then c.int.encBody l.regs else c.int.decBody l.regs })
  | .store i => do
    let x ← Go.idx l.regs i
    let t ← Go.set c.int.tmpData2 i x
    return (setTmp2 c t, l)
  | .drain dst i => do
    let m ← storeBytes c.int.tmpData2 dst i l.bytes
    return (c, { l with bytes := m })
  | .load64 src i => do
    let x ← src.get l.words i
    return (c, { l with regs := l.regs ++ [x] })
  | .store64 dst i => do
    let x ← Go.idx l.regs i
    let m ← dst.put x i l.words
    return (c, { l with words := m })

/-- The accesses of a call in order: threefish.go:174-189, 199-214 and 225-240. -/
def accesses (c : Cipher) : Call → List Ins
  | .bytes enc dst src =>
    (List.range' 0 (c.stateSize / 64)).map (Ins.fill src) ++ ((List.range' 0 c.int.size.words).map Ins.load ++ (Ins.rounds enc ::
      ((List.range' 0 c.int.size.words).map Ins.store ++ (List.range' 0 (c.stateSize / 64)).map (Ins.drain dst))))
  | .words enc dst src =>
    (List.range' 0 c.int.size.words).map (Ins.load64 src) ++ (Ins.rounds enc :: (List.range' 0 c.int.size.words).map (Ins.store64 dst))

/-- A goroutine: what it owns, the call it is in and its accesses still to come, and the calls it will make after that. Go's scheduler, for threefish.go:174-244. -/
structure Thread where
  loc : Loc
  running : Option Call
  todo : List Ins
  calls : List Call
  deriving DecidableEq, Repr

/-- One step of a goroutine: the next access, or the return from the call, or the beginning of the next call (with fresh locals). A goroutine
with nothing left to do stays as it is. Go's scheduler, for threefish.go:174-244. -/
def threadStep (c : Cipher) (t : Thread) : Go (Cipher × Thread) :=
  match t.todo, t.running, t.calls with
  | a :: rest, _, _ => do
    let r ← access c t.loc a
    return (r.1, { t with loc := r.2, todo := rest })
  | [], some _, _ => .ok (c, { t with running := none })
  | [], none, k :: ks => .ok (c, { loc := { t.loc with regs := [] }, running := some k, todo := accesses c k, calls := ks })
  | [], none, [] => .ok (c, t)

/-- The shared cipher and the goroutines. Go's scheduler, for threefish.go:174-244. -/
structure World where
  cipher : Cipher
  threads : List Thread
  deriving DecidableEq, Repr

/-- Goroutine number `j` makes a step; there is none with a number out of range. Go's scheduler, for threefish.go:174-244. -/
def World.step (w : World) (j : Nat) : Go World :=
  match w.threads[j]? with
  | none => .ok w
  | some t => do
    let r ← threadStep w.cipher t
    return { cipher := r.1, threads := w.threads.set j r.2 }

/-- A schedule: the numbers of the goroutines in the order of their steps. Go's scheduler, for threefish.go:174-244. -/
def World.run (w : World) : List Nat → Go World
  | [] => .ok w
  | j :: js => do
    let w' ← w.step j
    w'.run js

/-- Goroutines about to make their calls on the cipher: each is given by its memory and its calls. The program, not in the source; for threefish.go:174-244. -/
def start (c : Cipher) (ps : List ((List U8 × List U64) × List Call)) : World :=
  { cipher := c, threads := ps.map fun p => { loc := { bytes := p.1.1, words := p.1.2, regs := [] }, running := none, todo := [], calls := p.2 } }

end Verif.Model.ThreefishConc
