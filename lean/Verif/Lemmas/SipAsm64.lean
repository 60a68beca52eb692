import Verif.Gen.SipAsm
import Verif.Lemmas.X86

/-! Written by tools/gen_sipasm_proof.py. -/

namespace Verif.Lemmas.SipAsm.H64
open Verif Verif.Model.X86 Verif.Gen.SipAsm Verif.Model.SipHash Verif.Lemmas.SipHash Verif.Lemmas.SipAsm

set_option maxRecDepth 8000

/-- Prologue up to the conditional jump. -/
theorem prologue (e : Env) (st : St) : steps hash64 e 17 ⟨some 0, st⟩ =
    .ok ⟨some 17,
      ⟨0x646f72616e646f6d#64 ^^^ e.k1, 0x6c7967656e657261#64 ^^^ e.k0, 0x7465646279746573#64 ^^^ e.k1, BitVec.ofNat 64 e.p.length, e.base,
       e.k1 ^^^ e.k1, st.R8, 0x736f6d6570736575#64 ^^^ e.k0, BitVec.ofNat 64 e.p.length &&& 0xfffffffffffffff8#64,
       shlW (BitVec.ofNat 64 e.p.length) 56,
       some ⟨(BitVec.ofNat 64 e.p.length &&& 0xfffffffffffffff8#64) == 0#64,
         !((BitVec.ofNat 64 e.p.length &&& 0xfffffffffffffff8#64) == 0#64)⟩, st.r0, st.r1⟩⟩ := rfl

theorem je17 (e : Env) (st : St) (f : Flags) (h : st.fl = some f) :
    steps hash64 e 1 ⟨some 17, st⟩ = .ok ⟨some (if f.zf then 53 else 18), st⟩ := by
  have e1 : steps hash64 e 1 ⟨some 17, st⟩ = (do return ⟨some (← cond st.fl Flags.zf 53 17), st⟩ : Go Config) := by
    show (do steps hash64 e 0 (← step hash64 e ⟨some 17, st⟩)) = _
    have : step hash64 e ⟨some 17, st⟩ = (do return ⟨some (← cond st.fl Flags.zf 53 17), st⟩ : Go Config) := rfl
    rw [this, h]; rfl
  rw [e1, h]; rfl

theorem nop18 (e : Env) (st : St) : steps hash64 e 1 ⟨some 18, st⟩ = .ok ⟨some 19, st⟩ := rfl

theorem load19 (e : Env) (st : St) (bs : List U8)
    (h : e.at_ (BitVec.ofNat 64 0 + st.SI + st.DI) 8 = .ok bs) :
    steps hash64 e 1 ⟨some 19, st⟩ = .ok ⟨some 20, { st with R8 := BitVec.ofNat 64 (leNat bs) }⟩ := by
  have e1 : step hash64 e ⟨some 19, st⟩ = (do
      let s ← (do
        let bs ← e.at_ (BitVec.ofNat 64 0 + st.SI + st.DI) 8
        return st.put .R8 (BitVec.ofNat 64 (leNat bs)) : Go St)
      return ⟨some 20, s⟩ : Go Config) := rfl
  show (do steps hash64 e 0 (← step hash64 e ⟨some 19, st⟩)) = _
  rw [e1, h]; rfl

/-- First round of the loop body. -/
def body1 (st : St) : St :=
  let r := roundR ⟨st.R9, st.AX, st.BX, st.CX ^^^ st.R8⟩
  ⟨r.v1, r.v2, r.v3, st.DX, st.SI, st.DI + 8#64, st.R8, r.v0, st.R10, st.R11, none, st.r0, st.r1⟩

theorem seg20 (e : Env) (st : St) : steps hash64 e 16 ⟨some 20, st⟩ = .ok ⟨some 36, body1 st⟩ := rfl

/-- Second round of the loop body and the comparison. -/
def body2 (st : St) : St :=
  let r := roundR ⟨st.R9, st.AX, st.BX, st.CX⟩
  ⟨r.v1, r.v2, r.v3, st.DX, st.SI, st.DI, st.R8, r.v0 ^^^ st.R8, st.R10, st.R11,
    some ⟨st.R10 == st.DI, st.DI.ult st.R10⟩, st.r0, st.r1⟩

theorem seg36 (e : Env) (st : St) : steps hash64 e 16 ⟨some 36, st⟩ = .ok ⟨some 52, body2 st⟩ := rfl

/-- The two segments together are one compression step. -/
theorem body_eq (e : Env) (st : St) (s : V) (k : Nat) (h : AtWord e st s k) (m : U64) :
    AtWord e (body2 (body1 { st with R8 := m })) (compress1 s m) (k + 1) := by
  have hv : roundR (roundR ⟨st.R9, st.AX, st.BX, st.CX ^^^ m⟩) = round (round { s with v3 := s.v3 ^^^ m }) := by
    rw [roundR_eq, roundR_eq, h.v0, h.v1, h.v2, h.v3]
  have hb : body2 (body1 { st with R8 := m }) = (let r := roundR (roundR ⟨st.R9, st.AX, st.BX, st.CX ^^^ m⟩)
      ⟨r.v1, r.v2, r.v3, st.DX, st.SI, st.DI + 8#64, m, r.v0 ^^^ m, st.R10, st.R11,
        some ⟨st.R10 == st.DI + 8#64, (st.DI + 8#64).ult st.R10⟩, st.r0, st.r1⟩) := rfl
  rw [hb, hv]
  refine ⟨rfl, rfl, rfl, rfl, h.si, ?_, h.r10, h.r11, h.dx⟩
  simp only [h.di]
  rw [show 8#64 = BitVec.ofNat 64 8 from rfl, ← BitVec.ofNat_add]; congr 1

theorem ja52 (e : Env) (st : St) (f : Flags) (h : st.fl = some f) :
    steps hash64 e 1 ⟨some 52, st⟩ = .ok ⟨some (if f.above then 19 else 53), st⟩ := by
  have : step hash64 e ⟨some 52, st⟩ = (do return ⟨some (← cond st.fl Flags.above 19 52), st⟩ : Go Config) := rfl
  show (do steps hash64 e 0 (← step hash64 e ⟨some 52, st⟩)) = _
  rw [this, h]; rfl

theorem loop_body (e : Env) (hl : e.p.length < 2 ^ 63) (st : St) (s : V) (k : Nat) (hk : k < e.p.length / 8)
    (h : AtWord e st s k) :
    ∃ st', Reaches hash64 e ⟨some 19, st⟩ ⟨some (if k + 1 < e.p.length / 8 then 19 else 53), st'⟩ ∧
      AtWord e st' (compress1 s (le64 (e.p.drop (8 * k)))) (k + 1) := by
  have hb : 8 * k + 8 ≤ e.p.length := by omega
  have hload := at_ok e (8 * k) 8 hb (by omega) (BitVec.ofNat 64 0 + st.SI + st.DI) (by rw [h.si, h.di]; simp)
  have w : BitVec.ofNat 64 (leNat ((e.p.drop (8 * k)).take 8)) = le64 (e.p.drop (8 * k)) := rfl
  have s1 := load19 e st _ hload
  rw [w] at s1
  generalize hm : le64 (e.p.drop (8 * k)) = m at *
  have s4 := ja52 e (body2 (body1 { st with R8 := m })) ⟨st.R10 == st.DI + 8#64, (st.DI + 8#64).ult st.R10⟩ rfl
  have : ((st.DI + 8#64).ult st.R10) = decide (k + 1 < e.p.length / 8) := by
    rw [h.di, h.r10, BitVec.ult, BitVec.toNat_add, BitVec.toNat_ofNat, BitVec.toNat_ofNat, BitVec.toNat_ofNat]
    rw [decide_eq_decide]; omega
  simp only [this, decide_eq_true_eq] at s4
  exact ⟨_, (Reaches.of s1).trans ((Reaches.of (seg20 e _)).trans ((Reaches.of (seg36 e _)).trans (Reaches.of s4))),
    body_eq e st s k h m⟩

/-- The word loop from word `k` on. -/
theorem loop (e : Env) (hl : e.p.length < 2 ^ 63) (j : Nat) (st : St) (s : V) (k : Nat)
    (hk : k + j + 1 = e.p.length / 8) (h : AtWord e st s k) :
    ∃ st', Reaches hash64 e ⟨some 19, st⟩ ⟨some 53, st'⟩ ∧
      AtWord e st' ((blocks 8 (e.p.drop (8 * k))).foldl (fun s b => compress1 s (le64 b)) s) (e.p.length / 8) := by
  induction j generalizing st s k with
  | zero =>
    obtain ⟨st', r, a⟩ := loop_body e hl st s k (by omega) h
    rw [if_neg (by omega)] at r
    have hk1 : k + 1 = e.p.length / 8 := by omega
    refine ⟨st', r, ?_⟩
    rw [blocks_of_le (by omega) (by simp; omega), blocks_of_lt (by simp; omega), List.foldl_cons, le64_of_take, ← hk1]
    exact a
  | succ j ih =>
    obtain ⟨st1, r, a⟩ := loop_body e hl st s k (by omega) h
    rw [if_pos (by omega)] at r
    obtain ⟨st2, r2, a2⟩ := ih st1 _ (k + 1) (by omega) a
    refine ⟨st2, r.trans r2, ?_⟩
    rw [blocks_of_le (by omega) (by simp; omega), List.foldl_cons, le64_of_take, List.drop_drop]
    exact a2

/-- From entry to the end of the word loop. -/
theorem to_tail (e : Env) (hl : e.p.length < 2 ^ 63) (st : St) :
    ∃ st', Reaches hash64 e ⟨some 0, st⟩ ⟨some 53, st'⟩ ∧
      AtWord e st' ((blocks 8 e.p).foldl (fun s b => compress1 s (le64 b)) (init64 e.k0 e.k1)) (e.p.length / 8) := by
  have p0 := prologue e st
  rw [and_mask _ (by omega)] at p0
  generalize hst : St.mk _ _ _ _ _ _ _ _ _ _ _ _ _ = st1 at p0
  have hw : AtWord e st1 (init64 e.k0 e.k1) 0 := by
    subst hst
    refine ⟨?_, ?_, ?_, ?_, rfl, ?_, rfl, shlW_eq _ _, rfl⟩ <;> simp only [init64] <;> first | ac_rfl | simp
  have hfl : st1.fl = some ⟨BitVec.ofNat 64 (8 * (e.p.length / 8)) == 0#64, !(BitVec.ofNat 64 (8 * (e.p.length / 8)) == 0#64)⟩ := by
    subst hst; rfl
  have p1 := je17 e st1 _ hfl
  have hz : (BitVec.ofNat 64 (8 * (e.p.length / 8)) == 0#64) = decide (e.p.length / 8 = 0) := by
    rw [Bool.eq_iff_iff]
    simp only [beq_iff_eq, decide_eq_true_eq]
    constructor
    · intro h
      have := congrArg BitVec.toNat h
      simp only [BitVec.toNat_ofNat] at this
      omega
    · intro h; rw [h]
  simp only [hz, decide_eq_true_eq] at p1
  by_cases h0 : e.p.length / 8 = 0
  · rw [if_pos h0] at p1
    refine ⟨st1, (Reaches.of (p0)).trans ⟨1, p1⟩, ?_⟩
    rw [blocks_of_lt (by omega), h0]; exact hw
  · rw [if_neg h0] at p1
    obtain ⟨st2, r2, a2⟩ := loop e hl (e.p.length / 8 - 1) st1 (init64 e.k0 e.k1) 0 (by omega) hw
    refine ⟨st2, (Reaches.of (p0)).trans ((Reaches.of (p1)).trans ((Reaches.of (nop18 e st1)).trans r2)), ?_⟩
    simpa using a2

/-- Registers the tail switch keeps. -/
structure Keep (st st' : St) : Prop where
  v0 : st'.R9 = st.R9
  v1 : st'.AX = st.AX
  v2 : st'.BX = st.BX
  v3 : st'.CX = st.CX
  si : st'.SI = st.SI
  di : st'.DI = st.DI

theorem Keep.trans {a b c : St} (h1 : Keep a b) (h2 : Keep b c) : Keep a c :=
  ⟨h2.v0.trans h1.v0, h2.v1.trans h1.v1, h2.v2.trans h1.v2, h2.v3.trans h1.v3, h2.si.trans h1.si, h2.di.trans h1.di⟩

theorem ld1 (e : Env) (st : St) (bs : List U8)
    (h : e.at_ (BitVec.ofNat 64 0 + st.SI + st.DI) 1 = .ok bs) :
    steps hash64 e 2 ⟨some 89, st⟩ = .ok ⟨some 91,
      { st with DX := BitVec.ofNat 64 (leNat bs), R11 := st.R11 ||| BitVec.ofNat 64 (leNat bs), fl := none }⟩ := by
  have e1 : step hash64 e ⟨some 89, st⟩ = (do
      let s ← (do
        let bs ← e.at_ (BitVec.ofNat 64 0 + st.SI + st.DI) 1
        return st.put .DX (BitVec.ofNat 64 (leNat bs)) : Go St)
      return ⟨some 90, s⟩ : Go Config) := rfl
  have rest : ∀ st : St, steps hash64 e 1 ⟨some 90, st⟩ =
      .ok ⟨some 91, { st with DX := st.DX, R11 := st.R11 ||| st.DX, fl := none }⟩ := fun _ => rfl
  show (do steps hash64 e 1 (← step hash64 e ⟨some 89, st⟩)) = _
  rw [e1, h]
  exact rest (st.put .DX (BitVec.ofNat 64 (leNat bs)))

theorem sw1 (e : Env) (hl : e.p.length < 2 ^ 63) (st : St) (i : Nat) (hsi : st.SI = e.base)
    (hdi : st.DI = BitVec.ofNat 64 i) (hi : i + 1 ≤ e.p.length) :
    ∃ st', Reaches hash64 e ⟨some 89, st⟩ ⟨some 91, st'⟩ ∧ Keep st st' ∧
      tail1 st.R11 (e.p.drop i) = .ok st'.R11 := by
  have hb := byte_at e (i + 0) (by omega) (by omega) (BitVec.ofNat 64 0 + st.SI + st.DI) (by
    rw [hsi, hdi, BitVec.ofNat_add]; ac_rfl)
  have s1 := ld1 e st _ hb
  rw [byte_word] at s1
  have hidx : Go.idx (e.p.drop i) 0 = .ok e.p[i + 0] := by
    rw [Go.idx_eq (by simp; omega)]; simp
  refine ⟨_, ⟨2, s1⟩, ⟨rfl, rfl, rfl, rfl, rfl, rfl⟩, ?_⟩
  simp only [tail1, hidx]; rfl

theorem ld2 (e : Env) (st : St) (bs : List U8)
    (h : e.at_ (BitVec.ofNat 64 1 + st.SI + st.DI) 1 = .ok bs) :
    steps hash64 e 3 ⟨some 86, st⟩ = .ok ⟨some 89,
      { st with DX := shlW (BitVec.ofNat 64 (leNat bs)) 8, R11 := st.R11 ||| shlW (BitVec.ofNat 64 (leNat bs)) 8, fl := none }⟩ := by
  have e1 : step hash64 e ⟨some 86, st⟩ = (do
      let s ← (do
        let bs ← e.at_ (BitVec.ofNat 64 1 + st.SI + st.DI) 1
        return st.put .DX (BitVec.ofNat 64 (leNat bs)) : Go St)
      return ⟨some 87, s⟩ : Go Config) := rfl
  have rest : ∀ st : St, steps hash64 e 2 ⟨some 87, st⟩ =
      .ok ⟨some 89, { st with DX := shlW (st.DX) 8, R11 := st.R11 ||| shlW (st.DX) 8, fl := none }⟩ := fun _ => rfl
  show (do steps hash64 e 2 (← step hash64 e ⟨some 86, st⟩)) = _
  rw [e1, h]
  exact rest (st.put .DX (BitVec.ofNat 64 (leNat bs)))

theorem sw2 (e : Env) (hl : e.p.length < 2 ^ 63) (st : St) (i : Nat) (hsi : st.SI = e.base)
    (hdi : st.DI = BitVec.ofNat 64 i) (hi : i + 2 ≤ e.p.length) :
    ∃ st', Reaches hash64 e ⟨some 86, st⟩ ⟨some 91, st'⟩ ∧ Keep st st' ∧
      tail2 st.R11 (e.p.drop i) = .ok st'.R11 := by
  have hb := byte_at e (i + 1) (by omega) (by omega) (BitVec.ofNat 64 1 + st.SI + st.DI) (by
    rw [hsi, hdi, BitVec.ofNat_add]; ac_rfl)
  have s1 := ld2 e st _ hb
  rw [byte_word] at s1
  have hidx : Go.idx (e.p.drop i) 1 = .ok e.p[i + 1] := by
    rw [Go.idx_eq (by simp; omega)]; simp
  obtain ⟨st2, r2, k2, t2⟩ := sw1 e hl
    { st with DX := shlW (u64 e.p[i + 1]) 8, R11 := st.R11 ||| shlW (u64 e.p[i + 1]) 8, fl := none } i hsi hdi (by omega)
  have k1 : Keep st { st with DX := shlW (u64 e.p[i + 1]) 8, R11 := st.R11 ||| shlW (u64 e.p[i + 1]) 8, fl := none } :=
    ⟨rfl, rfl, rfl, rfl, rfl, rfl⟩
  refine ⟨st2, (Reaches.of (s1)).trans r2, k1.trans k2, ?_⟩
  rw [← t2]
  simp only [tail2, hidx, shlW_eq]; rfl

theorem ld3 (e : Env) (st : St) (bs : List U8)
    (h : e.at_ (BitVec.ofNat 64 2 + st.SI + st.DI) 1 = .ok bs) :
    steps hash64 e 3 ⟨some 83, st⟩ = .ok ⟨some 86,
      { st with DX := shlW (BitVec.ofNat 64 (leNat bs)) 16, R11 := st.R11 ||| shlW (BitVec.ofNat 64 (leNat bs)) 16, fl := none }⟩ := by
  have e1 : step hash64 e ⟨some 83, st⟩ = (do
      let s ← (do
        let bs ← e.at_ (BitVec.ofNat 64 2 + st.SI + st.DI) 1
        return st.put .DX (BitVec.ofNat 64 (leNat bs)) : Go St)
      return ⟨some 84, s⟩ : Go Config) := rfl
  have rest : ∀ st : St, steps hash64 e 2 ⟨some 84, st⟩ =
      .ok ⟨some 86, { st with DX := shlW (st.DX) 16, R11 := st.R11 ||| shlW (st.DX) 16, fl := none }⟩ := fun _ => rfl
  show (do steps hash64 e 2 (← step hash64 e ⟨some 83, st⟩)) = _
  rw [e1, h]
  exact rest (st.put .DX (BitVec.ofNat 64 (leNat bs)))

theorem sw3 (e : Env) (hl : e.p.length < 2 ^ 63) (st : St) (i : Nat) (hsi : st.SI = e.base)
    (hdi : st.DI = BitVec.ofNat 64 i) (hi : i + 3 ≤ e.p.length) :
    ∃ st', Reaches hash64 e ⟨some 83, st⟩ ⟨some 91, st'⟩ ∧ Keep st st' ∧
      tail3 st.R11 (e.p.drop i) = .ok st'.R11 := by
  have hb := byte_at e (i + 2) (by omega) (by omega) (BitVec.ofNat 64 2 + st.SI + st.DI) (by
    rw [hsi, hdi, BitVec.ofNat_add]; ac_rfl)
  have s1 := ld3 e st _ hb
  rw [byte_word] at s1
  have hidx : Go.idx (e.p.drop i) 2 = .ok e.p[i + 2] := by
    rw [Go.idx_eq (by simp; omega)]; simp
  obtain ⟨st2, r2, k2, t2⟩ := sw2 e hl
    { st with DX := shlW (u64 e.p[i + 2]) 16, R11 := st.R11 ||| shlW (u64 e.p[i + 2]) 16, fl := none } i hsi hdi (by omega)
  have k1 : Keep st { st with DX := shlW (u64 e.p[i + 2]) 16, R11 := st.R11 ||| shlW (u64 e.p[i + 2]) 16, fl := none } :=
    ⟨rfl, rfl, rfl, rfl, rfl, rfl⟩
  refine ⟨st2, (Reaches.of (s1)).trans r2, k1.trans k2, ?_⟩
  rw [← t2]
  simp only [tail3, hidx, shlW_eq]; rfl

theorem ld4 (e : Env) (st : St) (bs : List U8)
    (h : e.at_ (BitVec.ofNat 64 3 + st.SI + st.DI) 1 = .ok bs) :
    steps hash64 e 3 ⟨some 80, st⟩ = .ok ⟨some 83,
      { st with DX := shlW (BitVec.ofNat 64 (leNat bs)) 24, R11 := st.R11 ||| shlW (BitVec.ofNat 64 (leNat bs)) 24, fl := none }⟩ := by
  have e1 : step hash64 e ⟨some 80, st⟩ = (do
      let s ← (do
        let bs ← e.at_ (BitVec.ofNat 64 3 + st.SI + st.DI) 1
        return st.put .DX (BitVec.ofNat 64 (leNat bs)) : Go St)
      return ⟨some 81, s⟩ : Go Config) := rfl
  have rest : ∀ st : St, steps hash64 e 2 ⟨some 81, st⟩ =
      .ok ⟨some 83, { st with DX := shlW (st.DX) 24, R11 := st.R11 ||| shlW (st.DX) 24, fl := none }⟩ := fun _ => rfl
  show (do steps hash64 e 2 (← step hash64 e ⟨some 80, st⟩)) = _
  rw [e1, h]
  exact rest (st.put .DX (BitVec.ofNat 64 (leNat bs)))

theorem sw4 (e : Env) (hl : e.p.length < 2 ^ 63) (st : St) (i : Nat) (hsi : st.SI = e.base)
    (hdi : st.DI = BitVec.ofNat 64 i) (hi : i + 4 ≤ e.p.length) :
    ∃ st', Reaches hash64 e ⟨some 80, st⟩ ⟨some 91, st'⟩ ∧ Keep st st' ∧
      tail4 st.R11 (e.p.drop i) = .ok st'.R11 := by
  have hb := byte_at e (i + 3) (by omega) (by omega) (BitVec.ofNat 64 3 + st.SI + st.DI) (by
    rw [hsi, hdi, BitVec.ofNat_add]; ac_rfl)
  have s1 := ld4 e st _ hb
  rw [byte_word] at s1
  have hidx : Go.idx (e.p.drop i) 3 = .ok e.p[i + 3] := by
    rw [Go.idx_eq (by simp; omega)]; simp
  obtain ⟨st2, r2, k2, t2⟩ := sw3 e hl
    { st with DX := shlW (u64 e.p[i + 3]) 24, R11 := st.R11 ||| shlW (u64 e.p[i + 3]) 24, fl := none } i hsi hdi (by omega)
  have k1 : Keep st { st with DX := shlW (u64 e.p[i + 3]) 24, R11 := st.R11 ||| shlW (u64 e.p[i + 3]) 24, fl := none } :=
    ⟨rfl, rfl, rfl, rfl, rfl, rfl⟩
  refine ⟨st2, (Reaches.of (s1)).trans r2, k1.trans k2, ?_⟩
  rw [← t2]
  simp only [tail4, hidx, shlW_eq]; rfl

theorem ld5 (e : Env) (st : St) (bs : List U8)
    (h : e.at_ (BitVec.ofNat 64 4 + st.SI + st.DI) 1 = .ok bs) :
    steps hash64 e 3 ⟨some 77, st⟩ = .ok ⟨some 80,
      { st with DX := shlW (BitVec.ofNat 64 (leNat bs)) 32, R11 := st.R11 ||| shlW (BitVec.ofNat 64 (leNat bs)) 32, fl := none }⟩ := by
  have e1 : step hash64 e ⟨some 77, st⟩ = (do
      let s ← (do
        let bs ← e.at_ (BitVec.ofNat 64 4 + st.SI + st.DI) 1
        return st.put .DX (BitVec.ofNat 64 (leNat bs)) : Go St)
      return ⟨some 78, s⟩ : Go Config) := rfl
  have rest : ∀ st : St, steps hash64 e 2 ⟨some 78, st⟩ =
      .ok ⟨some 80, { st with DX := shlW (st.DX) 32, R11 := st.R11 ||| shlW (st.DX) 32, fl := none }⟩ := fun _ => rfl
  show (do steps hash64 e 2 (← step hash64 e ⟨some 77, st⟩)) = _
  rw [e1, h]
  exact rest (st.put .DX (BitVec.ofNat 64 (leNat bs)))

theorem sw5 (e : Env) (hl : e.p.length < 2 ^ 63) (st : St) (i : Nat) (hsi : st.SI = e.base)
    (hdi : st.DI = BitVec.ofNat 64 i) (hi : i + 5 ≤ e.p.length) :
    ∃ st', Reaches hash64 e ⟨some 77, st⟩ ⟨some 91, st'⟩ ∧ Keep st st' ∧
      tail5 st.R11 (e.p.drop i) = .ok st'.R11 := by
  have hb := byte_at e (i + 4) (by omega) (by omega) (BitVec.ofNat 64 4 + st.SI + st.DI) (by
    rw [hsi, hdi, BitVec.ofNat_add]; ac_rfl)
  have s1 := ld5 e st _ hb
  rw [byte_word] at s1
  have hidx : Go.idx (e.p.drop i) 4 = .ok e.p[i + 4] := by
    rw [Go.idx_eq (by simp; omega)]; simp
  obtain ⟨st2, r2, k2, t2⟩ := sw4 e hl
    { st with DX := shlW (u64 e.p[i + 4]) 32, R11 := st.R11 ||| shlW (u64 e.p[i + 4]) 32, fl := none } i hsi hdi (by omega)
  have k1 : Keep st { st with DX := shlW (u64 e.p[i + 4]) 32, R11 := st.R11 ||| shlW (u64 e.p[i + 4]) 32, fl := none } :=
    ⟨rfl, rfl, rfl, rfl, rfl, rfl⟩
  refine ⟨st2, (Reaches.of (s1)).trans r2, k1.trans k2, ?_⟩
  rw [← t2]
  simp only [tail5, hidx, shlW_eq]; rfl

theorem ld6 (e : Env) (st : St) (bs : List U8)
    (h : e.at_ (BitVec.ofNat 64 5 + st.SI + st.DI) 1 = .ok bs) :
    steps hash64 e 3 ⟨some 74, st⟩ = .ok ⟨some 77,
      { st with DX := shlW (BitVec.ofNat 64 (leNat bs)) 40, R11 := st.R11 ||| shlW (BitVec.ofNat 64 (leNat bs)) 40, fl := none }⟩ := by
  have e1 : step hash64 e ⟨some 74, st⟩ = (do
      let s ← (do
        let bs ← e.at_ (BitVec.ofNat 64 5 + st.SI + st.DI) 1
        return st.put .DX (BitVec.ofNat 64 (leNat bs)) : Go St)
      return ⟨some 75, s⟩ : Go Config) := rfl
  have rest : ∀ st : St, steps hash64 e 2 ⟨some 75, st⟩ =
      .ok ⟨some 77, { st with DX := shlW (st.DX) 40, R11 := st.R11 ||| shlW (st.DX) 40, fl := none }⟩ := fun _ => rfl
  show (do steps hash64 e 2 (← step hash64 e ⟨some 74, st⟩)) = _
  rw [e1, h]
  exact rest (st.put .DX (BitVec.ofNat 64 (leNat bs)))

theorem sw6 (e : Env) (hl : e.p.length < 2 ^ 63) (st : St) (i : Nat) (hsi : st.SI = e.base)
    (hdi : st.DI = BitVec.ofNat 64 i) (hi : i + 6 ≤ e.p.length) :
    ∃ st', Reaches hash64 e ⟨some 74, st⟩ ⟨some 91, st'⟩ ∧ Keep st st' ∧
      tail6 st.R11 (e.p.drop i) = .ok st'.R11 := by
  have hb := byte_at e (i + 5) (by omega) (by omega) (BitVec.ofNat 64 5 + st.SI + st.DI) (by
    rw [hsi, hdi, BitVec.ofNat_add]; ac_rfl)
  have s1 := ld6 e st _ hb
  rw [byte_word] at s1
  have hidx : Go.idx (e.p.drop i) 5 = .ok e.p[i + 5] := by
    rw [Go.idx_eq (by simp; omega)]; simp
  obtain ⟨st2, r2, k2, t2⟩ := sw5 e hl
    { st with DX := shlW (u64 e.p[i + 5]) 40, R11 := st.R11 ||| shlW (u64 e.p[i + 5]) 40, fl := none } i hsi hdi (by omega)
  have k1 : Keep st { st with DX := shlW (u64 e.p[i + 5]) 40, R11 := st.R11 ||| shlW (u64 e.p[i + 5]) 40, fl := none } :=
    ⟨rfl, rfl, rfl, rfl, rfl, rfl⟩
  refine ⟨st2, (Reaches.of (s1)).trans r2, k1.trans k2, ?_⟩
  rw [← t2]
  simp only [tail6, hidx, shlW_eq]; rfl

theorem ld7 (e : Env) (st : St) (bs : List U8)
    (h : e.at_ (BitVec.ofNat 64 6 + st.SI + st.DI) 1 = .ok bs) :
    steps hash64 e 3 ⟨some 71, st⟩ = .ok ⟨some 74,
      { st with DX := shlW (BitVec.ofNat 64 (leNat bs)) 48, R11 := st.R11 ||| shlW (BitVec.ofNat 64 (leNat bs)) 48, fl := none }⟩ := by
  have e1 : step hash64 e ⟨some 71, st⟩ = (do
      let s ← (do
        let bs ← e.at_ (BitVec.ofNat 64 6 + st.SI + st.DI) 1
        return st.put .DX (BitVec.ofNat 64 (leNat bs)) : Go St)
      return ⟨some 72, s⟩ : Go Config) := rfl
  have rest : ∀ st : St, steps hash64 e 2 ⟨some 72, st⟩ =
      .ok ⟨some 74, { st with DX := shlW (st.DX) 48, R11 := st.R11 ||| shlW (st.DX) 48, fl := none }⟩ := fun _ => rfl
  show (do steps hash64 e 2 (← step hash64 e ⟨some 71, st⟩)) = _
  rw [e1, h]
  exact rest (st.put .DX (BitVec.ofNat 64 (leNat bs)))

theorem sw7 (e : Env) (hl : e.p.length < 2 ^ 63) (st : St) (i : Nat) (hsi : st.SI = e.base)
    (hdi : st.DI = BitVec.ofNat 64 i) (hi : i + 7 ≤ e.p.length) :
    ∃ st', Reaches hash64 e ⟨some 71, st⟩ ⟨some 91, st'⟩ ∧ Keep st st' ∧
      tail7 st.R11 (e.p.drop i) = .ok st'.R11 := by
  have hb := byte_at e (i + 6) (by omega) (by omega) (BitVec.ofNat 64 6 + st.SI + st.DI) (by
    rw [hsi, hdi, BitVec.ofNat_add]; ac_rfl)
  have s1 := ld7 e st _ hb
  rw [byte_word] at s1
  have hidx : Go.idx (e.p.drop i) 6 = .ok e.p[i + 6] := by
    rw [Go.idx_eq (by simp; omega)]; simp
  obtain ⟨st2, r2, k2, t2⟩ := sw6 e hl
    { st with DX := shlW (u64 e.p[i + 6]) 48, R11 := st.R11 ||| shlW (u64 e.p[i + 6]) 48, fl := none } i hsi hdi (by omega)
  have k1 : Keep st { st with DX := shlW (u64 e.p[i + 6]) 48, R11 := st.R11 ||| shlW (u64 e.p[i + 6]) 48, fl := none } :=
    ⟨rfl, rfl, rfl, rfl, rfl, rfl⟩
  refine ⟨st2, (Reaches.of (s1)).trans r2, k1.trans k2, ?_⟩
  rw [← t2]
  simp only [tail7, hidx, shlW_eq]; rfl

/-- The chain of comparisons and the switch. -/
theorem switch (e : Env) (hl : e.p.length < 2 ^ 63) (st : St) (s : V) (h : AtWord e st s (e.p.length / 8)) :
    ∃ st', Reaches hash64 e ⟨some 53, st⟩ ⟨some 91, st'⟩ ∧ Keep st st' ∧
      tailSwitch (BitVec.ofNat 64 e.p.length <<< 56) (tailOf 8 e.p) = .ok st'.R11 := by
  have ht := tailOf_length 8 e.p
  have hlt := Nat.mod_lt e.p.length (by omega : 8 > 0)
  have hdrop : tailOf 8 e.p = e.p.drop (8 * (e.p.length / 8)) := by rw [tailOf, Nat.mul_comm]
  have s0 : steps hash64 e 1 ⟨some 53, st⟩ = .ok ⟨some 54, { st with DX := st.DX - st.R10, fl := none }⟩ := rfl
  have hdx : st.DX - st.R10 = BitVec.ofNat 64 (e.p.length % 8) := by
    rw [h.dx, h.r10]
    apply BitVec.eq_of_toNat_eq
    rw [BitVec.toNat_sub, BitVec.toNat_ofNat, BitVec.toNat_ofNat, BitVec.toNat_ofNat]
    omega
  rw [hdx] at s0
  have r0 : Reaches hash64 e _ _ := ⟨1, s0⟩
  generalize hst1 : ({ st with DX := BitVec.ofNat 64 (e.p.length % 8), fl := none } : St) = st1 at r0
  have k1 : Keep st st1 := by subst hst1; exact ⟨rfl, rfl, rfl, rfl, rfl, rfl⟩
  have hr11 : st1.R11 = BitVec.ofNat 64 e.p.length <<< 56 := by subst hst1; exact h.r11
  have hsi : st1.SI = e.base := k1.si.trans h.si
  have hdi : st1.DI = BitVec.ofNat 64 (8 * (e.p.length / 8)) := k1.di.trans h.di
  have hdx1 : st1.DX = BitVec.ofNat 64 (e.p.length % 8) := by subst hst1; rfl
  have hk : ∀ fl, Keep st1 { st1 with fl := fl } := fun _ => ⟨rfl, rfl, rfl, rfl, rfl, rfl⟩
  rw [← hr11, hdrop]
  rcases (by omega : e.p.length % 8 = 7 ∨ e.p.length % 8 = 6 ∨ e.p.length % 8 = 5 ∨ e.p.length % 8 = 4 ∨
    e.p.length % 8 = 3 ∨ e.p.length % 8 = 2 ∨ e.p.length % 8 = 1 ∨ e.p.length % 8 = 0) with
    hr | hr | hr | hr | hr | hr | hr | hr
  · have s1 : steps hash64 e 4 ⟨some 54, st1⟩ = .ok ⟨some 71, { st1 with fl := some ⟨true, false⟩ }⟩ := by
      rw [hr] at hdx1
      obtain ⟨AX, BX, CX, DX, SI, DI, R8, R9, R10, R11, fl, r0, r1⟩ := st1
      simp only at hdx1
      subst hdx1
      rfl
    obtain ⟨st2, r2, k2, t2⟩ := sw7 e hl { st1 with fl := some ⟨true, false⟩ } (8 * (e.p.length / 8)) hsi hdi (by omega)
    refine ⟨st2, r0.trans ((Reaches.of (s1)).trans r2), k1.trans ((hk _).trans k2), ?_⟩
    unfold tailSwitch
    have hlen : (e.p.drop (8 * (e.p.length / 8))).length = 7 := by rw [← hdrop, ht, hr]
    rw [hlen]; exact t2
  · have s1 : steps hash64 e 6 ⟨some 54, st1⟩ = .ok ⟨some 74, { st1 with fl := some ⟨true, false⟩ }⟩ := by
      rw [hr] at hdx1
      obtain ⟨AX, BX, CX, DX, SI, DI, R8, R9, R10, R11, fl, r0, r1⟩ := st1
      simp only at hdx1
      subst hdx1
      rfl
    obtain ⟨st2, r2, k2, t2⟩ := sw6 e hl { st1 with fl := some ⟨true, false⟩ } (8 * (e.p.length / 8)) hsi hdi (by omega)
    refine ⟨st2, r0.trans ((Reaches.of (s1)).trans r2), k1.trans ((hk _).trans k2), ?_⟩
    unfold tailSwitch
    have hlen : (e.p.drop (8 * (e.p.length / 8))).length = 6 := by rw [← hdrop, ht, hr]
    rw [hlen]; exact t2
  · have s1 : steps hash64 e 8 ⟨some 54, st1⟩ = .ok ⟨some 77, { st1 with fl := some ⟨true, false⟩ }⟩ := by
      rw [hr] at hdx1
      obtain ⟨AX, BX, CX, DX, SI, DI, R8, R9, R10, R11, fl, r0, r1⟩ := st1
      simp only at hdx1
      subst hdx1
      rfl
    obtain ⟨st2, r2, k2, t2⟩ := sw5 e hl { st1 with fl := some ⟨true, false⟩ } (8 * (e.p.length / 8)) hsi hdi (by omega)
    refine ⟨st2, r0.trans ((Reaches.of (s1)).trans r2), k1.trans ((hk _).trans k2), ?_⟩
    unfold tailSwitch
    have hlen : (e.p.drop (8 * (e.p.length / 8))).length = 5 := by rw [← hdrop, ht, hr]
    rw [hlen]; exact t2
  · have s1 : steps hash64 e 10 ⟨some 54, st1⟩ = .ok ⟨some 80, { st1 with fl := some ⟨true, false⟩ }⟩ := by
      rw [hr] at hdx1
      obtain ⟨AX, BX, CX, DX, SI, DI, R8, R9, R10, R11, fl, r0, r1⟩ := st1
      simp only at hdx1
      subst hdx1
      rfl
    obtain ⟨st2, r2, k2, t2⟩ := sw4 e hl { st1 with fl := some ⟨true, false⟩ } (8 * (e.p.length / 8)) hsi hdi (by omega)
    refine ⟨st2, r0.trans ((Reaches.of (s1)).trans r2), k1.trans ((hk _).trans k2), ?_⟩
    unfold tailSwitch
    have hlen : (e.p.drop (8 * (e.p.length / 8))).length = 4 := by rw [← hdrop, ht, hr]
    rw [hlen]; exact t2
  · have s1 : steps hash64 e 12 ⟨some 54, st1⟩ = .ok ⟨some 83, { st1 with fl := some ⟨true, false⟩ }⟩ := by
      rw [hr] at hdx1
      obtain ⟨AX, BX, CX, DX, SI, DI, R8, R9, R10, R11, fl, r0, r1⟩ := st1
      simp only at hdx1
      subst hdx1
      rfl
    obtain ⟨st2, r2, k2, t2⟩ := sw3 e hl { st1 with fl := some ⟨true, false⟩ } (8 * (e.p.length / 8)) hsi hdi (by omega)
    refine ⟨st2, r0.trans ((Reaches.of (s1)).trans r2), k1.trans ((hk _).trans k2), ?_⟩
    unfold tailSwitch
    have hlen : (e.p.drop (8 * (e.p.length / 8))).length = 3 := by rw [← hdrop, ht, hr]
    rw [hlen]; exact t2
  · have s1 : steps hash64 e 14 ⟨some 54, st1⟩ = .ok ⟨some 86, { st1 with fl := some ⟨true, false⟩ }⟩ := by
      rw [hr] at hdx1
      obtain ⟨AX, BX, CX, DX, SI, DI, R8, R9, R10, R11, fl, r0, r1⟩ := st1
      simp only at hdx1
      subst hdx1
      rfl
    obtain ⟨st2, r2, k2, t2⟩ := sw2 e hl { st1 with fl := some ⟨true, false⟩ } (8 * (e.p.length / 8)) hsi hdi (by omega)
    refine ⟨st2, r0.trans ((Reaches.of (s1)).trans r2), k1.trans ((hk _).trans k2), ?_⟩
    unfold tailSwitch
    have hlen : (e.p.drop (8 * (e.p.length / 8))).length = 2 := by rw [← hdrop, ht, hr]
    rw [hlen]; exact t2
  · have s1 : steps hash64 e 16 ⟨some 54, st1⟩ = .ok ⟨some 89, { st1 with fl := some ⟨true, false⟩ }⟩ := by
      rw [hr] at hdx1
      obtain ⟨AX, BX, CX, DX, SI, DI, R8, R9, R10, R11, fl, r0, r1⟩ := st1
      simp only at hdx1
      subst hdx1
      rfl
    obtain ⟨st2, r2, k2, t2⟩ := sw1 e hl { st1 with fl := some ⟨true, false⟩ } (8 * (e.p.length / 8)) hsi hdi (by omega)
    refine ⟨st2, r0.trans ((Reaches.of (s1)).trans r2), k1.trans ((hk _).trans k2), ?_⟩
    unfold tailSwitch
    have hlen : (e.p.drop (8 * (e.p.length / 8))).length = 1 := by rw [← hdrop, ht, hr]
    rw [hlen]; exact t2
  · have s1 : steps hash64 e 17 ⟨some 54, st1⟩ = .ok ⟨some 91, { st1 with fl := some ⟨false, false⟩ }⟩ := by
      rw [hr] at hdx1
      obtain ⟨AX, BX, CX, DX, SI, DI, R8, R9, R10, R11, fl, r0, r1⟩ := st1
      simp only at hdx1
      subst hdx1
      rfl
    refine ⟨_, r0.trans ⟨17, s1⟩, k1.trans (hk _), ?_⟩
    unfold tailSwitch
    have hlen : (e.p.drop (8 * (e.p.length / 8))).length = 0 := by rw [← hdrop, ht, hr]
    rw [hlen]; rfl

/-- The four state words in the registers used after the switch. -/
def vOf (st : St) : V := ⟨st.SI, st.AX, st.CX, st.DX⟩

/-- The first round after the switch: the words move to other registers. -/
def first (st : St) : St :=
  let CX := st.CX ^^^ st.R11
  let SI := BitVec.ofNat 64 0 + st.AX + st.R9
  let BX := st.BX + CX
  let AX := st.AX.rotateRight 51 ^^^ SI
  let DX := CX.rotateRight 48 ^^^ BX
  let SI := SI.rotateRight 32 + DX
  let CX := BitVec.ofNat 64 0 + BX + AX
  ⟨AX.rotateRight 47 ^^^ CX, BX, CX.rotateRight 32, DX.rotateRight 43 ^^^ SI, SI, st.DI, st.R8, st.R9, st.R10,
    st.R11, none, st.r0, st.r1⟩

theorem seg91 (e : Env) (st : St) : steps hash64 e 16 ⟨some 91, st⟩ = .ok ⟨some 107, first st⟩ := rfl

theorem first_v (st : St) : vOf (first st) = round ⟨st.R9, st.AX, st.BX, st.CX ^^^ st.R11⟩ := by
  rw [← roundR_eq]
  simp only [vOf, first, roundR, BitVec.zero_add]
  rw [BitVec.add_comm st.R9]

/-- Any later round. -/
def rnd (st : St) : St :=
  let r := roundR (vOf st)
  { st with SI := r.v0, AX := r.v1, CX := r.v2, DX := r.v3, fl := none }

theorem rnd_v (st : St) : vOf (rnd st) = round (vOf st) := by rw [← roundR_eq]; rfl

theorem seg107 (e : Env) (st : St) : steps hash64 e 14 ⟨some 107, st⟩ = .ok ⟨some 121, rnd st⟩ := rfl

theorem seg123 (e : Env) (st : St) : steps hash64 e 14 ⟨some 123, st⟩ = .ok ⟨some 137, rnd st⟩ := rfl

theorem seg137 (e : Env) (st : St) : steps hash64 e 14 ⟨some 137, st⟩ = .ok ⟨some 151, rnd st⟩ := rfl

theorem seg151 (e : Env) (st : St) : steps hash64 e 14 ⟨some 151, st⟩ = .ok ⟨some 165, rnd st⟩ := rfl

def mid (st : St) : St := { st with SI := st.SI ^^^ st.R11, CX := st.CX ^^^ (0xff#8).setWidth 64, fl := none }

theorem seg121 (e : Env) (st : St) : steps hash64 e 2 ⟨some 121, st⟩ = .ok ⟨some 123, mid st⟩ := rfl

/-- The last round, without its final value of the first word, and the result. -/
def last (st : St) : St :=
  let SI := st.SI + st.AX
  let AX := st.AX.rotateRight 51 ^^^ SI
  let CX := st.CX + st.DX
  let DX := st.DX.rotateRight 48 ^^^ CX
  let CX := CX + AX
  let AX := AX.rotateRight 47 ^^^ CX
  let DX := DX.rotateRight 43
  let CX := CX.rotateRight 32
  let AX := AX ^^^ DX ^^^ CX
  ⟨AX, st.BX, CX, DX, SI, st.DI, st.R8, st.R9, st.R10, st.R11, none, AX, st.r1⟩

theorem seg165 (e : Env) (st : St) : steps hash64 e 15 ⟨some 165, st⟩ = .ok ⟨none, last st⟩ := rfl

theorem last_r (st : St) : (last st).r0 =
    (let s := round (vOf st); s.v0 ^^^ s.v1 ^^^ s.v2 ^^^ s.v3) := by
  rw [← roundR_eq]
  simp only [last, vOf, roundR]
  generalize st.SI + st.AX = SI
  generalize st.AX.rotateRight 51 ^^^ SI = AX
  generalize st.CX + st.DX = CX
  generalize st.DX.rotateRight 48 ^^^ CX = DX
  generalize CX + AX = CX2
  generalize AX.rotateRight 47 ^^^ CX2 = AX2
  generalize SI.rotateRight 32 + DX = Z
  generalize DX.rotateRight 43 = DX2
  generalize CX2.rotateRight 32 = CX3
  have : Z ^^^ AX2 ^^^ CX3 ^^^ (DX2 ^^^ Z) = (Z ^^^ Z) ^^^ (AX2 ^^^ DX2 ^^^ CX3) := by ac_rfl
  rw [this, BitVec.xor_self, BitVec.zero_xor]

/-- From the end of the switch to the result. -/
theorem finish (e : Env) (st : St) :
    ∃ st', Reaches hash64 e ⟨some 91, st⟩ ⟨none, st'⟩ ∧
      st'.r0 = fin64 (compress1 ⟨st.R9, st.AX, st.BX, st.CX⟩ st.R11) := by
  refine ⟨last (rnd (rnd (rnd (mid (rnd (first st)))))), (Reaches.of (seg91 e _)).trans ((Reaches.of (seg107 e _)).trans
    ((Reaches.of (seg121 e _)).trans ((Reaches.of (seg123 e _)).trans ((Reaches.of (seg137 e _)).trans
    ((Reaches.of (seg151 e _)).trans (Reaches.of (seg165 e _))))))), ?_⟩
  have hm : vOf (mid (rnd (first st))) =
      (let s := compress1 ⟨st.R9, st.AX, st.BX, st.CX⟩ st.R11; { s with v2 := s.v2 ^^^ 0xff#64 }) := by
    have h1 : vOf (rnd (first st)) = round (round ⟨st.R9, st.AX, st.BX, st.CX ^^^ st.R11⟩) := by rw [rnd_v, first_v]
    have h2 : ∀ s : St, s.R11 = st.R11 → vOf (mid s) = ⟨(vOf s).v0 ^^^ st.R11, (vOf s).v1, (vOf s).v2 ^^^ 0xff#64, (vOf s).v3⟩ := by
      intro s hs; simp only [vOf, mid, hs]; rfl
    rw [h2 (rnd (first st)) rfl, h1]; rfl
  rw [last_r, rnd_v, rnd_v, rnd_v, hm]; rfl

/-- The whole routine. -/
theorem run (e : Env) (hl : e.p.length < 2 ^ 63) (st : St) :
    ∃ st', Reaches hash64 e ⟨some 0, st⟩ ⟨none, st'⟩ ∧ Hash e.k0 e.k1 e.p = .ok st'.r0 := by
  obtain ⟨st1, r1, a1⟩ := to_tail e hl st
  obtain ⟨st2, r2, k2, t2⟩ := switch e hl st1 _ a1
  obtain ⟨st3, r3, h3⟩ := finish e st2
  refine ⟨st3, r1.trans (r2.trans r3), ?_⟩
  rw [h3, k2.v0, k2.v1, k2.v2, k2.v3, a1.v0, a1.v1, a1.v2, a1.v3]
  have hc := core_eq (init64 e.k0 e.k1) e.p (fun s => .ok (fin64 s))
  have ht : st2.R11 = BitVec.ofNat 64 e.p.length <<< 56 ||| BitVec.ofNat 64 (leNat (tailOf 8 e.p)) := by
    rw [tailSwitch_eq _ (tailOf_length_lt (by omega) _)] at t2
    exact (Except.ok.inj t2).symm
  rw [ht]
  exact hc

end Verif.Lemmas.SipAsm.H64
