import Verif.Gen.KeccakCVariants
import Verif.Model.KeccakC
import Verif.Spec.KeccakBuild

/-!
# KeccakF-1600-opt64.c in every build setting

`Model/KeccakC.lean` has the configuration that /repo/keccak/KeccakF-1600-opt64-settings.h selects. Here are the others: any `Unrolling`, with or without
`UseBebigokimisa`, little- or big-endian words, `UseMMX` or `UseSSE` with `UseOnlySIMD64`, `UseSSE`. `_MSC_VER` and alignment are not modelled. In the build
`UseSSE` with `UseOnlySIMD64` a `V64` is the lower half of a register; all its operations work on each half by itself, so only the lower half is modelled.
-/

namespace Verif.Model.KeccakC
open Verif Verif.Spec.KeccakBuild

/-- What a macros file provides: `copyFromState` with `prepareTheta`, the six `copyFromStateAndXor`s with `prepareTheta`, the rounds, `copyStateVariables`,
`copyToState`. KeccakF-1600-64.macros.h, KeccakF-1600-simd64.macros.h, KeccakF-1600-simd128.macros.h. -/
structure Macros (L C : Type) where
  constants : List U64
  load : List U64 → L × C
  loadXor : Nat → List U64 → List U64 → L × C
  round : U64 → L → C → L × L × C
  last : U64 → L → C → L × L × C
  copy : L → L → L
  store : L → List U64

/-- The variables `A`, `E` and `C` of `declareABCDE`, e.g. KeccakF-1600-64.macros.h:16-33. -/
structure Regs (L C : Type) where
  A : L
  E : L
  C : C

/-- One line of a `rounds` macro, KeccakF-1600-unrolling.macros.h:14-124. -/
def Macros.step {L C : Type} (M : Macros L C) (r : Regs L C) : Step → Regs L C
  | .round i true => let q := M.round (M.constants.getD i 0#64) r.A r.C; ⟨q.1, q.2.1, q.2.2⟩
  | .round i false => let q := M.round (M.constants.getD i 0#64) r.E r.C; ⟨q.2.1, q.1, q.2.2⟩
  | .last i true => let q := M.last (M.constants.getD i 0#64) r.A r.C; ⟨q.1, q.2.1, q.2.2⟩
  | .last i false => let q := M.last (M.constants.getD i 0#64) r.E r.C; ⟨q.2.1, q.1, q.2.2⟩
  | .copy => { r with A := M.copy r.A r.E }

/-- `rounds` with `copyToState(state, A)`, KeccakF-1600-unrolling.macros.h:14-124. `junk` is what the uninitialised `E` holds. -/
def Macros.rounds {L C : Type} (M : Macros L C) (u : Unrolling) (junk : L) (q : L × C) : List U64 :=
  M.store ((program u).foldl M.step ⟨q.1, junk, q.2⟩).A

/-- `copyFromStateAndXor...bits` by the number of lanes, KeccakF-1600-64.macros.h:486-646. -/
def loadXorWords (n : Nat) (state input : List U64) : Lanes :=
  match n with
  | 9 => copyFromStateAndXor576bits state input
  | 13 => copyFromStateAndXor832bits state input
  | 16 => copyFromStateAndXor1024bits state input
  | 17 => copyFromStateAndXor1088bits state input
  | 18 => copyFromStateAndXor1152bits state input
  | _ => copyFromStateAndXor1344bits state input

/-- `copyFromStateAndXor...bits` by the number of lanes, KeccakF-1600-simd64.macros.h:275-435. -/
def loadXor64 (n : Nat) (state input : List U64) : Lanes :=
  match n with
  | 9 => copyFromStateAndXor576bits_64 state input
  | 13 => copyFromStateAndXor832bits_64 state input
  | 16 => copyFromStateAndXor1024bits_64 state input
  | 17 => copyFromStateAndXor1088bits_64 state input
  | 18 => copyFromStateAndXor1152bits_64 state input
  | _ => copyFromStateAndXor1344bits_64 state input

/-- `copyFromStateAndXor...bits` by the number of lanes, KeccakF-1600-simd128.macros.h:213-547. -/
def loadXor128 (n : Nat) (state input : List U64) : Lanes128 × Cols128 :=
  match n with
  | 9 => copyFromStateAndXor576bits_128 state input
  | 13 => copyFromStateAndXor832bits_128 state input
  | 16 => copyFromStateAndXor1024bits_128 state input
  | 17 => copyFromStateAndXor1088bits_128 state input
  | 18 => copyFromStateAndXor1152bits_128 state input
  | _ => copyFromStateAndXor1344bits_128 state input

/-- KeccakF-1600-64.macros.h with (`c`) or without `UseBebigokimisa`. -/
def wordMacros (c : Bool) : Macros Lanes Cols where
  constants := roundConstants
  load s := (copyFromState s, prepareTheta (copyFromState s))
  loadXor n s i := (loadXorWords n s i, prepareTheta (loadXorWords n s i))
  round := if c then roundBebi else roundPlain
  last := if c then lastBebi else lastPlain
  copy := copyStateVariables
  store := copyToState

/-- KeccakF-1600-simd64.macros.h. -/
def macros64 : Macros Lanes Cols where
  constants := constants64
  load s := (copyFromState_64 s, prepareTheta64 (copyFromState_64 s))
  loadXor n s i := (loadXor64 n s i, prepareTheta64 (loadXor64 n s i))
  round := round64
  last := last64
  copy := copyStateVariables_64
  store := copyToState_64

/-- KeccakF-1600-simd128.macros.h; its `thetaRhoPiChiIota` is `thetaRhoPiChiIotaPrepareTheta` (line 185) and its `prepareTheta` is empty (line 42). -/
def macros128 : Macros Lanes128 Cols128 where
  constants := constants128
  load := copyFromState_128
  loadXor := loadXor128
  round := round128
  last := round128
  copy := copyStateVariables_128
  store := copyToState_128

/-- The settings of KeccakF-1600-opt64-settings.h and brg_endian.h: plain words, complemented (`UseBebigokimisa`) or not, big-endian or not; `UseMMX` or `UseSSE` with
`UseOnlySIMD64`; `UseSSE`. KeccakF-1600-opt64.c:22-93 rules the other combinations out. -/
inductive Build where
  | words (complement big : Bool)
  | simd64
  | simd128

/-- Whether `UseBebigokimisa` is defined. KeccakF-1600-opt64.c:61-63, 83-85. -/
def Build.complement : Build → Bool
  | .words c _ => c
  | _ => false

/-- `PLATFORM_BYTE_ORDER != IS_LITTLE_ENDIAN`, KeccakF-1600-opt64.c:259. SSE and MMX machines are little-endian. -/
def Build.big : Build → Bool
  | .words _ b => b
  | _ => false

/-- Uninitialised lanes. KeccakF-1600-64.macros.h:16-33. -/
def junkLanes (j : Nat → U64) : Lanes :=
  ⟨j 0, j 1, j 2, j 3, j 4, j 5, j 6, j 7, j 8, j 9, j 10, j 11, j 12, j 13, j 14, j 15, j 16, j 17, j 18, j 19, j 20, j 21, j 22, j 23, j 24⟩

/-- Uninitialised lanes. KeccakF-1600-simd128.macros.h:14-40. -/
def junkLanes128 (j : Nat → U64) : Lanes128 :=
  let v i : V128 := ⟨j i, j (i + 25)⟩
  ⟨v 0, v 1, v 2, v 3, v 4, v 5, v 6, v 7, v 8, v 9, v 10, v 11, v 12, v 13, v 14, v 15, v 16, v 17, v 18, v 19, v 20⟩

/-- `KeccakPermutationOnWords`, KeccakF-1600-opt64.c:97-109. -/
def Build.permute (b : Build) (u : Unrolling) (j : Nat → U64) (state : List U64) : List U64 :=
  match b with
  | .words c _ => (wordMacros c).rounds u (junkLanes j) ((wordMacros c).load state)
  | .simd64 => macros64.rounds u (junkLanes j) (macros64.load state)
  | .simd128 => macros128.rounds u (junkLanes128 j) (macros128.load state)

/-- `KeccakPermutationOnWordsAfterXoring...bits`, KeccakF-1600-opt64.c:128-222. -/
def Build.permuteXor (b : Build) (u : Unrolling) (j : Nat → U64) (n : Nat) (state input : List U64) : List U64 :=
  match b with
  | .words c _ => (wordMacros c).rounds u (junkLanes j) ((wordMacros c).loadXor n state input)
  | .simd64 => macros64.rounds u (junkLanes j) (macros64.loadXor n state input)
  | .simd128 => macros128.rounds u (junkLanes128 j) (macros128.loadXor n state input)

/-- `fromBytesToWord`, KeccakF-1600-opt64.c:247-254. -/
def fromBytesToWord (bytes : List U8) : Go U64 :=
  Go.forRange 0 8 (fun i w => do return w ||| ((← load bytes i).setWidth 64 <<< (8 * i))) 0#64

/-- `fromWordToBytes`, KeccakF-1600-opt64.c:366-372. -/
def fromWordToBytes (w : U64) : List U8 := (List.range 8).map fun i => ((w >>> (8 * i)) &&& 0xff#64).setWidth 8

/-- The data as words: a cast on a little-endian machine, a loop with `fromBytesToWord` otherwise. KeccakF-1600-opt64.c:256-364. -/
def Build.input (b : Build) (data : List U8) (n : Nat) : Go (List U64) :=
  if b.big then Go.forRange 0 n (fun i ws => do return ws ++ [← fromBytesToWord (data.drop (i * 8))]) []
  else inputWords data 0 n

/-- `((UINT64*)data)[k] = ~((UINT64*)data)[k]`: whatever the byte order, it inverts the eight bytes. KeccakF-1600-opt64.c:386-389, 405-420. -/
def invertWord (data : List U8) (k : Nat) : List U8 :=
  data.take (8 * k) ++ ((data.drop (8 * k)).take 8).map (~~~ ·) ++ data.drop (8 * k + 8)

/-- The bytes of the first `n` words of the state: a `memcpy` on a little-endian machine, a loop with `fromWordToBytes` otherwise.
KeccakF-1600-opt64.c:377-384, 396-403. -/
def Build.output (b : Build) (state : List U64) (n : Nat) : List U8 :=
  if b.big then (List.range n).flatMap fun i => fromWordToBytes (word state i)
  else (List.range n).flatMap fun i => leBytes 8 (word state i).toNat

/-- `KeccakInitializeState`, KeccakF-1600-opt64.c:228-239. -/
def Build.init (b : Build) : List U64 := if b.complement then KeccakInitializeState else List.replicate 25 0#64

/-- `KeccakAbsorb`, KeccakF-1600-opt64.c:111-126, 352-364. -/
def Build.absorb (b : Build) (u : Unrolling) (j : Nat → U64) (state : List U64) (data : List U8) (laneCount : Nat) : Go (List U64) := do
  let input ← b.input data laneCount
  return b.permute u j ((List.range laneCount).foldl (fun s k => s.set k (word s k ^^^ word input k)) state)

/-- `KeccakAbsorb576bits` ... `KeccakAbsorb1344bits`, KeccakF-1600-opt64.c:256-350. -/
def Build.fast (b : Build) (u : Unrolling) (j : Nat → U64) (state : List U64) (data : List U8) (n : Nat) : Go (List U64) := do
  return b.permuteXor u j n state (← b.input data n)

/-- `KeccakExtract1024bits`, KeccakF-1600-opt64.c:374-391. -/
def Build.extract1024 (b : Build) (state : List U64) : List U8 :=
  let data := b.output state 16
  if b.complement then invertWord (invertWord (invertWord (invertWord data 1) 2) 8) 12 else data

/-- `KeccakExtract`, KeccakF-1600-opt64.c:394-424. -/
def Build.extract (b : Build) (state : List U64) (laneCount : Nat) : List U8 :=
  let data := b.output state laneCount
  if b.complement then
    if laneCount > 1 then
      let data := invertWord data 1
      if laneCount > 2 then
        let data := invertWord data 2
        if laneCount > 8 then
          let data := invertWord data 8
          if laneCount > 12 then
            let data := invertWord data 12
            if laneCount > 17 then
              let data := invertWord data 17
              if laneCount > 20 then invertWord data 20 else data
            else data
          else data
        else data
      else data
    else data
  else data

/-- One call of the interface, KeccakF-1600-interface.h:16-44. -/
def Build.call (b : Build) (u : Unrolling) (j : Nat → U64) (state : List U64) : Call → Go (List U64 × List U8)
  | .init => .ok (b.init, [])
  | .permute => .ok (b.permute u j state, [])
  | .absorb data n => do return (← b.absorb u j state data n, [])
  | .fast data n => do return (← b.fast u j state data n, [])
  | .extract n => .ok (state, b.extract state n)
  | .extract1024 => .ok (state, b.extract1024 state)

/-- A sequence of calls on one state, what it gives back. `js` is what the uninitialised variables of each call hold. The caller, not in the source. -/
def Build.run (b : Build) (u : Unrolling) : (Nat → Nat → U64) → List U64 → List Call → Go (List (List U8))
  | _, _, [] => .ok []
  | js, state, c :: cs => do
    let (state, o) ← b.call u (js 0) state c
    return o :: (← Build.run b u (fun t => js (t + 1)) state cs)

end Verif.Model.KeccakC
