import Verif.Go

/-!
# The x86-64 instructions used by /repo/siphash/*_amd64.s (Go assembler syntax)

Registers are 64-bit words. Memory is one read-only byte slice at address `base`; a load outside it
faults (`unsafeOOB`). Flags are tracked only after `CMPQ` and `ANDQ`; every other arithmetic
instruction makes them undefined, and a conditional jump on undefined flags faults, so no theorem
can rely on a flag this model does not define. Go's operand order is source, destination;
`CMPQ a,b` compares `a` with `b`.
-/

namespace Verif.Model.X86

/-- The general registers used in hash_amd64.s and hash128_amd64.s. -/
inductive Reg where
  | AX | BX | CX | DX | SI | DI | R8 | R9 | R10 | R11
  deriving DecidableEq

/-- Stack arguments of `Hash(k0, k1 uint64, b []byte)` (offsets 0, 8, 16, 24 from FP). hash_amd64.s:6-21. -/
inductive Arg where
  | k0 | k1 | base | len
  deriving DecidableEq

/-- Instructions; the constructor names follow the mnemonics, `I` marks an immediate source. hash_amd64.s, hash128_amd64.s. -/
inductive Ins where
  | movArg (a : Arg) (d : Reg)
  | movImm (c : U64) (d : Reg)
  | mov (s d : Reg)
  | movRet (s : Reg) (slot : Nat)
  | load64 (off : Nat) (b i d : Reg)
  | load8 (off : Nat) (b i d : Reg)
  | lea (off : Nat) (b i d : Reg)
  | add (s d : Reg)
  | addI (c : U64) (d : Reg)
  | xor (s d : Reg)
  | xorI (c : U64) (d : Reg)
  | xorbI (c : U8) (d : Reg)
  | or (s d : Reg)
  | andI (c : U64) (d : Reg)
  | sub (s d : Reg)
  | ror (n : Nat) (d : Reg)
  | shl (n : Nat) (d : Reg)
  | cmp (a b : Reg)
  | cmpI (a : Reg) (c : U64)
  | nop
  | je (target : Nat)
  | ja (target : Nat)
  | jmp (target : Nat)
  | ret
  deriving DecidableEq

/-- What a call is given. hash_amd64.s:6-21. -/
structure Env where
  k0 : U64
  k1 : U64
  base : U64
  p : List U8

/-- Flags after a comparison: equal, and unsigned above. The processor, for hash_amd64.s. -/
structure Flags where
  zf : Bool
  above : Bool
  deriving DecidableEq

/-- The machine state: registers, flags and the two result words of the frame (`ret+40(FP)` or `r0+40(FP)`, `r1+48(FP)`; hash_amd64.s:199, hash128_amd64.s:221, 288). -/
structure St where
  AX : U64
  BX : U64
  CX : U64
  DX : U64
  SI : U64
  DI : U64
  R8 : U64
  R9 : U64
  R10 : U64
  R11 : U64
  fl : Option Flags
  r0 : U64
  r1 : U64
  deriving DecidableEq

/-- Read a register. -/
def St.get (s : St) : Reg → U64
  | .AX => s.AX | .BX => s.BX | .CX => s.CX | .DX => s.DX | .SI => s.SI | .DI => s.DI
  | .R8 => s.R8 | .R9 => s.R9 | .R10 => s.R10 | .R11 => s.R11

/-- Write a register. -/
def St.put (s : St) (r : Reg) (v : U64) : St :=
  match r with
  | .AX => { s with AX := v } | .BX => { s with BX := v } | .CX => { s with CX := v }
  | .DX => { s with DX := v } | .SI => { s with SI := v } | .DI => { s with DI := v }
  | .R8 => { s with R8 := v } | .R9 => { s with R9 := v } | .R10 => { s with R10 := v }
  | .R11 => { s with R11 := v }

/-- Result of an arithmetic instruction whose flags the model does not define. The processor, for hash_amd64.s. -/
def St.arith (s : St) (r : Reg) (v : U64) : St := { s.put r v with fl := none }

/-- The arguments on the frame, `k0`, `k1`, `b_base`, `b_len` (hash_amd64.s:6-21, hash128_amd64.s:13-29). -/
def Env.arg (e : Env) : Arg → U64
  | .k0 => e.k0
  | .k1 => e.k1
  | .base => e.base
  | .len => BitVec.ofNat 64 e.p.length

/-- Byte offset of an address in the slice; the `n` bytes there must lie inside it. The processor, for hash_amd64.s. -/
def Env.at_ (e : Env) (addr : U64) (n : Nat) : Go (List U8) :=
  let i := (addr - e.base).toNat
  if i + n ≤ e.p.length then .ok ((e.p.drop i).take n) else .error .unsafeOOB

/-- `SHLQ $n, d`. (Irreducible only to keep the proofs' definitional unfolding from going inside it.) The processor, for hash_amd64.s. -/
@[irreducible] def shlW (x : U64) (n : Nat) : U64 := x <<< n

theorem shlW_eq (x : U64) (n : Nat) : shlW x n = x <<< n := by unfold shlW; rfl

/-- One non-control instruction. The processor, for hash_amd64.s. -/
def exec1 (e : Env) (s : St) : Ins → Go St
  | .movArg a d => .ok (s.put d (e.arg a))
  | .movImm c d => .ok (s.put d c)
  | .mov r d => .ok (s.put d (s.get r))
  | .movRet r n => .ok (if n = 0 then { s with r0 := s.get r } else { s with r1 := s.get r })
  | .load64 off b i d => do
    let bs ← e.at_ (BitVec.ofNat 64 off + s.get b + s.get i) 8
    return s.put d (BitVec.ofNat 64 (leNat bs))
  | .load8 off b i d => do
    let bs ← e.at_ (BitVec.ofNat 64 off + s.get b + s.get i) 1
    return s.put d (BitVec.ofNat 64 (leNat bs))
  | .lea off b i d => .ok (s.put d (BitVec.ofNat 64 off + s.get b + s.get i))
  | .add r d => .ok (s.arith d (s.get d + s.get r))
  | .addI c d => .ok (s.arith d (s.get d + c))
  | .xor r d => .ok (s.arith d (s.get d ^^^ s.get r))
  | .xorI c d => .ok (s.arith d (s.get d ^^^ c))
  | .xorbI c d => .ok (s.arith d (s.get d ^^^ c.setWidth 64))
  | .or r d => .ok (s.arith d (s.get d ||| s.get r))
  | .andI c d =>
    let v := s.get d &&& c
    .ok { s.put d v with fl := some ⟨v == 0#64, !(v == 0#64)⟩ }
  | .sub r d => .ok (s.arith d (s.get d - s.get r))
  | .ror n d => .ok (s.arith d ((s.get d).rotateRight n))
  | .shl n d => .ok (s.arith d (shlW (s.get d) n))
  | .cmp a b => .ok { s with fl := some ⟨s.get a == s.get b, (s.get b).ult (s.get a)⟩ }
  | .cmpI a c => .ok { s with fl := some ⟨s.get a == c, c.ult (s.get a)⟩ }
  | .nop => .ok s
  | .je _ | .ja _ | .jmp _ | .ret => .error (.explicit "control instruction")

/-- Machine configuration: `none` after `RET`. The processor, for hash_amd64.s. -/
structure Config where
  pc : Option Nat
  st : St
  deriving DecidableEq

/-- A conditional jump needs defined flags. The processor, for hash_amd64.s. -/
def cond (fl : Option Flags) (f : Flags → Bool) (t pc : Nat) : Go Nat :=
  match fl with
  | none => .error (.explicit "undefined flags")
  | some fl => .ok (if f fl then t else pc + 1)

/-- One step; running off the end of the code is a fault, a halted machine stays put. The processor, for hash_amd64.s. -/
def step (prog : List Ins) (e : Env) (c : Config) : Go Config :=
  match c.pc with
  | none => .ok c
  | some pc =>
    match prog[pc]? with
    | none => .error .index
    | some (.je t) => do return ⟨some (← cond c.st.fl Flags.zf t pc), c.st⟩
    | some (.ja t) => do return ⟨some (← cond c.st.fl Flags.above t pc), c.st⟩
    | some (.jmp t) => .ok ⟨some t, c.st⟩
    | some .ret => .ok ⟨none, c.st⟩
    | some i => do return ⟨some (pc + 1), ← exec1 e c.st i⟩

/-- `n` steps. The processor, for hash_amd64.s. -/
def steps (prog : List Ins) (e : Env) : Nat → Config → Go Config
  | 0, c => .ok c
  | n + 1, c => do steps prog e n (← step prog e c)

end Verif.Model.X86
