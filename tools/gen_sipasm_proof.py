#!/usr/bin/env python3
"""Writes Lemmas/SipAsm64.lean and Lemmas/SipAsm128.lean: the same proof for the two programs, whose
code differs by one extra instruction in the prologue (offset `o`) and in the finalisation."""
T = r'''import Verif.Gen.SipAsm
import Verif.Lemmas.X86

/-! Written by tools/gen_sipasm_proof.py. -/

namespace Verif.Lemmas.SipAsm.@NS
open Verif Verif.Model.X86 Verif.Gen.SipAsm Verif.Model.SipHash Verif.Lemmas.SipHash Verif.Lemmas.SipAsm

set_option maxRecDepth 8000

/-- Prologue up to the conditional jump. -/
theorem prologue (e : Env) (st : St) : steps @P e @{17} ⟨some 0, st⟩ =
    .ok ⟨some @{17},
      ⟨@AX, 0x6c7967656e657261#64 ^^^ e.k0, 0x7465646279746573#64 ^^^ e.k1, BitVec.ofNat 64 e.p.length, e.base,
       e.k1 ^^^ e.k1, st.R8, 0x736f6d6570736575#64 ^^^ e.k0, BitVec.ofNat 64 e.p.length &&& 0xfffffffffffffff8#64,
       shlW (BitVec.ofNat 64 e.p.length) 56,
       some ⟨(BitVec.ofNat 64 e.p.length &&& 0xfffffffffffffff8#64) == 0#64,
         !((BitVec.ofNat 64 e.p.length &&& 0xfffffffffffffff8#64) == 0#64)⟩, st.r0, st.r1⟩⟩ := rfl

theorem je17 (e : Env) (st : St) (f : Flags) (h : st.fl = some f) :
    steps @P e 1 ⟨some @{17}, st⟩ = .ok ⟨some (if f.zf then @{53} else @{18}), st⟩ := by
  have e1 : steps @P e 1 ⟨some @{17}, st⟩ = (do return ⟨some (← cond st.fl Flags.zf @{53} @{17}), st⟩ : Go Config) := by
    show (do steps @P e 0 (← step @P e ⟨some @{17}, st⟩)) = _
    have : step @P e ⟨some @{17}, st⟩ = (do return ⟨some (← cond st.fl Flags.zf @{53} @{17}), st⟩ : Go Config) := rfl
    rw [this, h]; rfl
  rw [e1, h]; rfl

theorem nop18 (e : Env) (st : St) : steps @P e 1 ⟨some @{18}, st⟩ = .ok ⟨some @{19}, st⟩ := rfl

theorem load19 (e : Env) (st : St) (bs : List U8)
    (h : e.at_ (BitVec.ofNat 64 0 + st.SI + st.DI) 8 = .ok bs) :
    steps @P e 1 ⟨some @{19}, st⟩ = .ok ⟨some @{20}, { st with R8 := BitVec.ofNat 64 (leNat bs) }⟩ := by
  have e1 : step @P e ⟨some @{19}, st⟩ = (do
      let s ← (do
        let bs ← e.at_ (BitVec.ofNat 64 0 + st.SI + st.DI) 8
        return st.put .R8 (BitVec.ofNat 64 (leNat bs)) : Go St)
      return ⟨some @{20}, s⟩ : Go Config) := rfl
  show (do steps @P e 0 (← step @P e ⟨some @{19}, st⟩)) = _
  rw [e1, h]; rfl

/-- First round of the loop body. -/
def body1 (st : St) : St :=
  let r := roundR ⟨st.R9, st.AX, st.BX, st.CX ^^^ st.R8⟩
  ⟨r.v1, r.v2, r.v3, st.DX, st.SI, st.DI + 8#64, st.R8, r.v0, st.R10, st.R11, none, st.r0, st.r1⟩

theorem seg20 (e : Env) (st : St) : steps @P e 16 ⟨some @{20}, st⟩ = .ok ⟨some @{36}, body1 st⟩ := rfl

/-- Second round of the loop body and the comparison. -/
def body2 (st : St) : St :=
  let r := roundR ⟨st.R9, st.AX, st.BX, st.CX⟩
  ⟨r.v1, r.v2, r.v3, st.DX, st.SI, st.DI, st.R8, r.v0 ^^^ st.R8, st.R10, st.R11,
    some ⟨st.R10 == st.DI, st.DI.ult st.R10⟩, st.r0, st.r1⟩

theorem seg36 (e : Env) (st : St) : steps @P e 16 ⟨some @{36}, st⟩ = .ok ⟨some @{52}, body2 st⟩ := rfl

/-- The two segments together are one compression step. -/
theorem body_eq (e : Env) (st : St) (s : V) (k : Nat) (h : AtWord e st s k) (m : U64) :
    AtWord e (body2 (body1 { st with R8 := m })) (compress1 s m) (k + 1) := by
  have hv : roundR (roundR ⟨st.R9, st.AX, st.BX, st.CX ^^^ m⟩) = round (round { s with v3 := s.v3 ^^^ m }) := by
    rw [roundR_eq, roundR_eq, h.v0, h.v1, h.v2, h.v3]
  have hb : body2 (body1 { st with R8 := m }) = (let r := roundR (roundR ⟨st.R9, st.AX, st.BX, st.CX ^^^ m⟩)
      ⟨r.v1, r.v2, r.v3, st.DX, st.SI, st.DI + 8#64, m, r.v0 ^^^ m, st.R10, st.R11,
        some ⟨st.R10 == st.DI + 8#64, (st.DI + 8#64).ult st.R10⟩, st.r0, st.r1⟩) := rfl
  rw [hb, hv]
  refine ⟨rfl, rfl, rfl, rfl, h.si, ?_, h.r10, h.r11, h.dx⟩
  simp only [h.di]
  rw [show 8#64 = BitVec.ofNat 64 8 from rfl, ← BitVec.ofNat_add]; congr 1

theorem ja52 (e : Env) (st : St) (f : Flags) (h : st.fl = some f) :
    steps @P e 1 ⟨some @{52}, st⟩ = .ok ⟨some (if f.above then @{19} else @{53}), st⟩ := by
  have : step @P e ⟨some @{52}, st⟩ = (do return ⟨some (← cond st.fl Flags.above @{19} @{52}), st⟩ : Go Config) := rfl
  show (do steps @P e 0 (← step @P e ⟨some @{52}, st⟩)) = _
  rw [this, h]; rfl

theorem loop_body (e : Env) (hl : e.p.length < 2 ^ 63) (st : St) (s : V) (k : Nat) (hk : k < e.p.length / 8)
    (h : AtWord e st s k) :
    ∃ st', Reaches @P e ⟨some @{19}, st⟩ ⟨some (if k + 1 < e.p.length / 8 then @{19} else @{53}), st'⟩ ∧
      AtWord e st' (compress1 s (le64 (e.p.drop (8 * k)))) (k + 1) := by
  have hb : 8 * k + 8 ≤ e.p.length := by omega
  have hload := at_ok e (8 * k) 8 hb (by omega) (BitVec.ofNat 64 0 + st.SI + st.DI) (by rw [h.si, h.di]; simp)
  have w : BitVec.ofNat 64 (leNat ((e.p.drop (8 * k)).take 8)) = le64 (e.p.drop (8 * k)) := rfl
  have s1 := load19 e st _ hload
  rw [w] at s1
  generalize hm : le64 (e.p.drop (8 * k)) = m at *
  have s4 := ja52 e (body2 (body1 { st with R8 := m })) ⟨st.R10 == st.DI + 8#64, (st.DI + 8#64).ult st.R10⟩ rfl
  have : ((st.DI + 8#64).ult st.R10) = decide (k + 1 < e.p.length / 8) := by
    rw [h.di, h.r10, BitVec.ult, BitVec.toNat_add, BitVec.toNat_ofNat, BitVec.toNat_ofNat, BitVec.toNat_ofNat]
    rw [decide_eq_decide]; omega
  simp only [this, decide_eq_true_eq] at s4
  exact ⟨_, (Reaches.of s1).trans ((Reaches.of (seg20 e _)).trans ((Reaches.of (seg36 e _)).trans (Reaches.of s4))),
    body_eq e st s k h m⟩

/-- The word loop from word `k` on. -/
theorem loop (e : Env) (hl : e.p.length < 2 ^ 63) (j : Nat) (st : St) (s : V) (k : Nat)
    (hk : k + j + 1 = e.p.length / 8) (h : AtWord e st s k) :
    ∃ st', Reaches @P e ⟨some @{19}, st⟩ ⟨some @{53}, st'⟩ ∧
      AtWord e st' ((blocks 8 (e.p.drop (8 * k))).foldl (fun s b => compress1 s (le64 b)) s) (e.p.length / 8) := by
  induction j generalizing st s k with
  | zero =>
    obtain ⟨st', r, a⟩ := loop_body e hl st s k (by omega) h
    rw [if_neg (by omega)] at r
    have hk1 : k + 1 = e.p.length / 8 := by omega
    refine ⟨st', r, ?_⟩
    rw [blocks_of_le (by omega) (by simp; omega), blocks_of_lt (by simp; omega), List.foldl_cons, le64_of_take, ← hk1]
    exact a
  | succ j ih =>
    obtain ⟨st1, r, a⟩ := loop_body e hl st s k (by omega) h
    rw [if_pos (by omega)] at r
    obtain ⟨st2, r2, a2⟩ := ih st1 _ (k + 1) (by omega) a
    refine ⟨st2, r.trans r2, ?_⟩
    rw [blocks_of_le (by omega) (by simp; omega), List.foldl_cons, le64_of_take, List.drop_drop]
    exact a2

/-- From entry to the end of the word loop. -/
theorem to_tail (e : Env) (hl : e.p.length < 2 ^ 63) (st : St) :
    ∃ st', Reaches @P e ⟨some 0, st⟩ ⟨some @{53}, st'⟩ ∧
      AtWord e st' ((blocks 8 e.p).foldl (fun s b => compress1 s (le64 b)) (@INIT e.k0 e.k1)) (e.p.length / 8) := by
  have p0 := prologue e st
  rw [and_mask _ (by omega)] at p0
  generalize hst : St.mk _ _ _ _ _ _ _ _ _ _ _ _ _ = st1 at p0
  have hw : AtWord e st1 (@INIT e.k0 e.k1) 0 := by
    subst hst
    refine ⟨?_, ?_, ?_, ?_, rfl, ?_, rfl, shlW_eq _ _, rfl⟩ <;> simp only [@INIT] <;> first | ac_rfl | simp
  have hfl : st1.fl = some ⟨BitVec.ofNat 64 (8 * (e.p.length / 8)) == 0#64, !(BitVec.ofNat 64 (8 * (e.p.length / 8)) == 0#64)⟩ := by
    subst hst; rfl
  have p1 := je17 e st1 _ hfl
  have hz : (BitVec.ofNat 64 (8 * (e.p.length / 8)) == 0#64) = decide (e.p.length / 8 = 0) := by
    rw [Bool.eq_iff_iff]
    simp only [beq_iff_eq, decide_eq_true_eq]
    constructor
    · intro h
      have := congrArg BitVec.toNat h
      simp only [BitVec.toNat_ofNat] at this
      omega
    · intro h; rw [h]
  simp only [hz, decide_eq_true_eq] at p1
  by_cases h0 : e.p.length / 8 = 0
  · rw [if_pos h0] at p1
    refine ⟨st1, (Reaches.of (p0)).trans ⟨1, p1⟩, ?_⟩
    rw [blocks_of_lt (by omega), h0]; exact hw
  · rw [if_neg h0] at p1
    obtain ⟨st2, r2, a2⟩ := loop e hl (e.p.length / 8 - 1) st1 (@INIT e.k0 e.k1) 0 (by omega) hw
    refine ⟨st2, (Reaches.of (p0)).trans ((Reaches.of (p1)).trans ((Reaches.of (nop18 e st1)).trans r2)), ?_⟩
    simpa using a2

/-- Registers the tail switch keeps. -/
structure Keep (st st' : St) : Prop where
  v0 : st'.R9 = st.R9
  v1 : st'.AX = st.AX
  v2 : st'.BX = st.BX
  v3 : st'.CX = st.CX
  si : st'.SI = st.SI
  di : st'.DI = st.DI

theorem Keep.trans {a b c : St} (h1 : Keep a b) (h2 : Keep b c) : Keep a c :=
  ⟨h2.v0.trans h1.v0, h2.v1.trans h1.v1, h2.v2.trans h1.v2, h2.v3.trans h1.v3, h2.si.trans h1.si, h2.di.trans h1.di⟩

@SWS

/-- The chain of comparisons and the switch. -/
theorem switch (e : Env) (hl : e.p.length < 2 ^ 63) (st : St) (s : V) (h : AtWord e st s (e.p.length / 8)) :
    ∃ st', Reaches @P e ⟨some @{53}, st⟩ ⟨some @{91}, st'⟩ ∧ Keep st st' ∧
      tailSwitch (BitVec.ofNat 64 e.p.length <<< 56) (tailOf 8 e.p) = .ok st'.R11 := by
  have ht := tailOf_length 8 e.p
  have hlt := Nat.mod_lt e.p.length (by omega : 8 > 0)
  have hdrop : tailOf 8 e.p = e.p.drop (8 * (e.p.length / 8)) := by rw [tailOf, Nat.mul_comm]
  have s0 : steps @P e 1 ⟨some @{53}, st⟩ = .ok ⟨some @{54}, { st with DX := st.DX - st.R10, fl := none }⟩ := rfl
  have hdx : st.DX - st.R10 = BitVec.ofNat 64 (e.p.length % 8) := by
    rw [h.dx, h.r10]
    apply BitVec.eq_of_toNat_eq
    rw [BitVec.toNat_sub, BitVec.toNat_ofNat, BitVec.toNat_ofNat, BitVec.toNat_ofNat]
    omega
  rw [hdx] at s0
  have r0 : Reaches @P e _ _ := ⟨1, s0⟩
  generalize hst1 : ({ st with DX := BitVec.ofNat 64 (e.p.length % 8), fl := none } : St) = st1 at r0
  have k1 : Keep st st1 := by subst hst1; exact ⟨rfl, rfl, rfl, rfl, rfl, rfl⟩
  have hr11 : st1.R11 = BitVec.ofNat 64 e.p.length <<< 56 := by subst hst1; exact h.r11
  have hsi : st1.SI = e.base := k1.si.trans h.si
  have hdi : st1.DI = BitVec.ofNat 64 (8 * (e.p.length / 8)) := k1.di.trans h.di
  have hdx1 : st1.DX = BitVec.ofNat 64 (e.p.length % 8) := by subst hst1; rfl
  have hk : ∀ fl, Keep st1 { st1 with fl := fl } := fun _ => ⟨rfl, rfl, rfl, rfl, rfl, rfl⟩
  rw [← hr11, hdrop]
  rcases (by omega : e.p.length % 8 = 7 ∨ e.p.length % 8 = 6 ∨ e.p.length % 8 = 5 ∨ e.p.length % 8 = 4 ∨
    e.p.length % 8 = 3 ∨ e.p.length % 8 = 2 ∨ e.p.length % 8 = 1 ∨ e.p.length % 8 = 0) with
    hr | hr | hr | hr | hr | hr | hr | hr
@CASES

/-- The four state words in the registers used after the switch. -/
def vOf (st : St) : V := ⟨st.SI, st.AX, st.CX, st.DX⟩

/-- The first round after the switch: the words move to other registers. -/
def first (st : St) : St :=
  let CX := st.CX ^^^ st.R11
  let SI := BitVec.ofNat 64 0 + st.AX + st.R9
  let BX := st.BX + CX
  let AX := st.AX.rotateRight 51 ^^^ SI
  let DX := CX.rotateRight 48 ^^^ BX
  let SI := SI.rotateRight 32 + DX
  let CX := BitVec.ofNat 64 0 + BX + AX
  ⟨AX.rotateRight 47 ^^^ CX, BX, CX.rotateRight 32, DX.rotateRight 43 ^^^ SI, SI, st.DI, st.R8, st.R9, st.R10,
    st.R11, none, st.r0, st.r1⟩

theorem seg@{91} (e : Env) (st : St) : steps @P e 16 ⟨some @{91}, st⟩ = .ok ⟨some @{107}, first st⟩ := rfl

theorem first_v (st : St) : vOf (first st) = round ⟨st.R9, st.AX, st.BX, st.CX ^^^ st.R11⟩ := by
  rw [← roundR_eq]
  simp only [vOf, first, roundR, BitVec.zero_add]
  rw [BitVec.add_comm st.R9]

/-- Any later round. -/
def rnd (st : St) : St :=
  let r := roundR (vOf st)
  { st with SI := r.v0, AX := r.v1, CX := r.v2, DX := r.v3, fl := none }

theorem rnd_v (st : St) : vOf (rnd st) = round (vOf st) := by rw [← roundR_eq]; rfl

@FIN

end Verif.Lemmas.SipAsm.@NS
'''
def gen(ns, P, o, AX, INIT):
    t = T
    sws = ""
    pcs = {7:71,6:74,5:77,4:80,3:83,2:86,1:89,0:91}
    for k in range(1,8):
        n = 2 if k == 1 else 3
        S = (lambda x: x) if k == 1 else (lambda x: f"shlW ({x}) {8*(k-1)}")
        sws += f'''
theorem ld{k} (e : Env) (st : St) (bs : List U8)
    (h : e.at_ (BitVec.ofNat 64 {k-1} + st.SI + st.DI) 1 = .ok bs) :
    steps {P} e {n} ⟨some {pcs[k]+o}, st⟩ = .ok ⟨some {pcs[k-1]+o},
      {{ st with DX := {S("BitVec.ofNat 64 (leNat bs)")}, R11 := st.R11 ||| {S("BitVec.ofNat 64 (leNat bs)")}, fl := none }}⟩ := by
  have e1 : step {P} e ⟨some {pcs[k]+o}, st⟩ = (do
      let s ← (do
        let bs ← e.at_ (BitVec.ofNat 64 {k-1} + st.SI + st.DI) 1
        return st.put .DX (BitVec.ofNat 64 (leNat bs)) : Go St)
      return ⟨some {pcs[k]+o+1}, s⟩ : Go Config) := rfl
  have rest : ∀ st : St, steps {P} e {n-1} ⟨some {pcs[k]+o+1}, st⟩ =
      .ok ⟨some {pcs[k-1]+o}, {{ st with DX := {S("st.DX")}, R11 := st.R11 ||| {S("st.DX")}, fl := none }}⟩ := fun _ => rfl
  show (do steps {P} e {n-1} (← step {P} e ⟨some {pcs[k]+o}, st⟩)) = _
  rw [e1, h]
  exact rest (st.put .DX (BitVec.ofNat 64 (leNat bs)))

theorem sw{k} (e : Env) (hl : e.p.length < 2 ^ 63) (st : St) (i : Nat) (hsi : st.SI = e.base)
    (hdi : st.DI = BitVec.ofNat 64 i) (hi : i + {k} ≤ e.p.length) :
    ∃ st', Reaches {P} e ⟨some {pcs[k]+o}, st⟩ ⟨some {91+o}, st'⟩ ∧ Keep st st' ∧
      tail{k} st.R11 (e.p.drop i) = .ok st'.R11 := by
  have hb := byte_at e (i + {k-1}) (by omega) (by omega) (BitVec.ofNat 64 {k-1} + st.SI + st.DI) (by
    rw [hsi, hdi, BitVec.ofNat_add]; ac_rfl)
  have s1 := ld{k} e st _ hb
  rw [byte_word] at s1
  have hidx : Go.idx (e.p.drop i) {k-1} = .ok e.p[i + {k-1}] := by
    rw [Go.idx_eq (by simp; omega)]; simp
'''
        if k == 1:
            sws += '''  refine ⟨_, ⟨2, s1⟩, ⟨rfl, rfl, rfl, rfl, rfl, rfl⟩, ?_⟩
  simp only [tail1, hidx]; rfl
'''
        else:
            sws += f'''  obtain ⟨st2, r2, k2, t2⟩ := sw{k-1} e hl
    {{ st with DX := {S(f"u64 e.p[i + {k-1}]")}, R11 := st.R11 ||| {S(f"u64 e.p[i + {k-1}]")}, fl := none }} i hsi hdi (by omega)
  have k1 : Keep st {{ st with DX := {S(f"u64 e.p[i + {k-1}]")}, R11 := st.R11 ||| {S(f"u64 e.p[i + {k-1}]")}, fl := none }} :=
    ⟨rfl, rfl, rfl, rfl, rfl, rfl⟩
  refine ⟨st2, (Reaches.of (s1)).trans r2, k1.trans k2, ?_⟩
  rw [← t2]
  simp only [tail{k}, hidx, shlW_eq]; rfl
'''
    cases = ""
    for k in range(7,-1,-1):
        # instructions executed from 54: cmp, ja, then (cmp, je) for 7..k
        n = 2 + 2*(7-k+1) if k > 0 else 2 + 14 + 1
        cmpi = k if k > 0 else 1
        fl = f"some ⟨true, false⟩" if k > 0 else "some ⟨false, false⟩"
        cases += f'''  · have s1 : steps {P} e {n} ⟨some {54+o}, st1⟩ = .ok ⟨some {pcs[k]+o}, {{ st1 with fl := {fl} }}⟩ := by
      rw [hr] at hdx1
      obtain ⟨AX, BX, CX, DX, SI, DI, R8, R9, R10, R11, fl, r0, r1⟩ := st1
      simp only at hdx1
      subst hdx1
      rfl
'''
        if k > 0:
            cases += f'''    obtain ⟨st2, r2, k2, t2⟩ := sw{k} e hl {{ st1 with fl := {fl} }} (8 * (e.p.length / 8)) hsi hdi (by omega)
    refine ⟨st2, r0.trans ((Reaches.of (s1)).trans r2), k1.trans ((hk _).trans k2), ?_⟩
    unfold tailSwitch
    have hlen : (e.p.drop (8 * (e.p.length / 8))).length = {k} := by rw [← hdrop, ht, hr]
    rw [hlen]; exact t2
'''
        else:
            cases += f'''    refine ⟨_, r0.trans ⟨{n}, s1⟩, k1.trans (hk _), ?_⟩
    unfold tailSwitch
    have hlen : (e.p.drop (8 * (e.p.length / 8))).length = 0 := by rw [← hdrop, ht, hr]
    rw [hlen]; rfl
'''
    def seg(a):
        return f"""theorem seg{a} (e : Env) (st : St) : steps {P} e 14 ⟨some {a}, st⟩ = .ok ⟨some {a+14}, rnd st⟩ := rfl

"""
    fin = ""
    as_ = [107+o, 123+o, 137+o, 151+o] + ([166, 186, 200, 214, 228] if o else [])
    for a in as_: fin += seg(a)
    if o == 0:
        fin += f"""def mid (st : St) : St := {{ st with SI := st.SI ^^^ st.R11, CX := st.CX ^^^ (0xff#8).setWidth 64, fl := none }}

theorem seg121 (e : Env) (st : St) : steps {P} e 2 ⟨some 121, st⟩ = .ok ⟨some 123, mid st⟩ := rfl

/-- The last round, without its final value of the first word, and the result. -/
def last (st : St) : St :=
  let SI := st.SI + st.AX
  let AX := st.AX.rotateRight 51 ^^^ SI
  let CX := st.CX + st.DX
  let DX := st.DX.rotateRight 48 ^^^ CX
  let CX := CX + AX
  let AX := AX.rotateRight 47 ^^^ CX
  let DX := DX.rotateRight 43
  let CX := CX.rotateRight 32
  let AX := AX ^^^ DX ^^^ CX
  ⟨AX, st.BX, CX, DX, SI, st.DI, st.R8, st.R9, st.R10, st.R11, none, AX, st.r1⟩

theorem seg165 (e : Env) (st : St) : steps {P} e 15 ⟨some 165, st⟩ = .ok ⟨none, last st⟩ := rfl

theorem last_r (st : St) : (last st).r0 =
    (let s := round (vOf st); s.v0 ^^^ s.v1 ^^^ s.v2 ^^^ s.v3) := by
  rw [← roundR_eq]
  simp only [last, vOf, roundR]
  generalize st.SI + st.AX = SI
  generalize st.AX.rotateRight 51 ^^^ SI = AX
  generalize st.CX + st.DX = CX
  generalize st.DX.rotateRight 48 ^^^ CX = DX
  generalize CX + AX = CX2
  generalize AX.rotateRight 47 ^^^ CX2 = AX2
  generalize SI.rotateRight 32 + DX = Z
  generalize DX.rotateRight 43 = DX2
  generalize CX2.rotateRight 32 = CX3
  have : Z ^^^ AX2 ^^^ CX3 ^^^ (DX2 ^^^ Z) = (Z ^^^ Z) ^^^ (AX2 ^^^ DX2 ^^^ CX3) := by ac_rfl
  rw [this, BitVec.xor_self, BitVec.zero_xor]

/-- From the end of the switch to the result. -/
theorem finish (e : Env) (st : St) :
    ∃ st', Reaches {P} e ⟨some 91, st⟩ ⟨none, st'⟩ ∧
      st'.r0 = fin64 (compress1 ⟨st.R9, st.AX, st.BX, st.CX⟩ st.R11) := by
  refine ⟨last (rnd (rnd (rnd (mid (rnd (first st)))))), (Reaches.of (seg91 e _)).trans ((Reaches.of (seg107 e _)).trans
    ((Reaches.of (seg121 e _)).trans ((Reaches.of (seg123 e _)).trans ((Reaches.of (seg137 e _)).trans
    ((Reaches.of (seg151 e _)).trans (Reaches.of (seg165 e _))))))), ?_⟩
  have hm : vOf (mid (rnd (first st))) =
      (let s := compress1 ⟨st.R9, st.AX, st.BX, st.CX⟩ st.R11; {{ s with v2 := s.v2 ^^^ 0xff#64 }}) := by
    have h1 : vOf (rnd (first st)) = round (round ⟨st.R9, st.AX, st.BX, st.CX ^^^ st.R11⟩) := by rw [rnd_v, first_v]
    have h2 : ∀ s : St, s.R11 = st.R11 → vOf (mid s) = ⟨(vOf s).v0 ^^^ st.R11, (vOf s).v1, (vOf s).v2 ^^^ 0xff#64, (vOf s).v3⟩ := by
      intro s hs; simp only [vOf, mid, hs]; rfl
    rw [h2 (rnd (first st)) rfl, h1]; rfl
  rw [last_r, rnd_v, rnd_v, rnd_v, hm]; rfl

/-- The whole routine. -/
theorem run (e : Env) (hl : e.p.length < 2 ^ 63) (st : St) :
    ∃ st', Reaches {P} e ⟨some 0, st⟩ ⟨none, st'⟩ ∧ Hash e.k0 e.k1 e.p = .ok st'.r0 := by
  obtain ⟨st1, r1, a1⟩ := to_tail e hl st
  obtain ⟨st2, r2, k2, t2⟩ := switch e hl st1 _ a1
  obtain ⟨st3, r3, h3⟩ := finish e st2
  refine ⟨st3, r1.trans (r2.trans r3), ?_⟩
  rw [h3, k2.v0, k2.v1, k2.v2, k2.v3, a1.v0, a1.v1, a1.v2, a1.v3]
  have hc := core_eq (init64 e.k0 e.k1) e.p (fun s => .ok (fin64 s))
  have ht : st2.R11 = BitVec.ofNat 64 e.p.length <<< 56 ||| BitVec.ofNat 64 (leNat (tailOf 8 e.p)) := by
    rw [tailSwitch_eq _ (tailOf_length_lt (by omega) _)] at t2
    exact (Except.ok.inj t2).symm
  rw [ht]
  exact hc
"""
    else:
        fin += f"""def mid (st : St) : St := {{ st with SI := st.SI ^^^ st.R11, CX := st.CX ^^^ (0xee#8).setWidth 64, fl := none }}

theorem seg122 (e : Env) (st : St) : steps {P} e 2 ⟨some 122, st⟩ = .ok ⟨some 124, mid st⟩ := rfl

def out0 (st : St) : St :=
  {{ st with BX := st.SI ^^^ st.AX ^^^ st.DX ^^^ st.CX, r0 := st.SI ^^^ st.AX ^^^ st.DX ^^^ st.CX,
            AX := st.AX ^^^ (0xdd#8).setWidth 64, fl := none }}

theorem seg180 (e : Env) (st : St) : steps {P} e 6 ⟨some 180, st⟩ = .ok ⟨some 186, out0 st⟩ := rfl

def out1 (st : St) : St :=
  {{ st with BX := st.SI ^^^ st.AX ^^^ st.DX ^^^ st.CX, r1 := st.SI ^^^ st.AX ^^^ st.DX ^^^ st.CX, fl := none }}

theorem seg242 (e : Env) (st : St) : steps {P} e 6 ⟨some 242, st⟩ = .ok ⟨none, out1 st⟩ := rfl

theorem xors (a b c d : U64) : a ^^^ b ^^^ d ^^^ c = a ^^^ b ^^^ c ^^^ d := by ac_rfl

/-- From the end of the switch to the result. -/
theorem finish (e : Env) (st : St) :
    ∃ st', Reaches {P} e ⟨some 92, st⟩ ⟨none, st'⟩ ∧
      (st'.r0, st'.r1) = fin128 (compress1 ⟨st.R9, st.AX, st.BX, st.CX⟩ st.R11) := by
  refine ⟨out1 (rnd (rnd (rnd (rnd (out0 (rnd (rnd (rnd (rnd (mid (rnd (first st)))))))))))),
    (Reaches.of (seg92 e _)).trans ((Reaches.of (seg108 e _)).trans
    ((Reaches.of (seg122 e _)).trans ((Reaches.of (seg124 e _)).trans ((Reaches.of (seg138 e _)).trans
    ((Reaches.of (seg152 e _)).trans ((Reaches.of (seg166 e _)).trans ((Reaches.of (seg180 e _)).trans
    ((Reaches.of (seg186 e _)).trans ((Reaches.of (seg200 e _)).trans ((Reaches.of (seg214 e _)).trans
    ((Reaches.of (seg228 e _)).trans (Reaches.of (seg242 e _))))))))))))), ?_⟩
  have hm : vOf (mid (rnd (first st))) =
      (let s := compress1 ⟨st.R9, st.AX, st.BX, st.CX⟩ st.R11; {{ s with v2 := s.v2 ^^^ 0xee#64 }}) := by
    have h1 : vOf (rnd (first st)) = round (round ⟨st.R9, st.AX, st.BX, st.CX ^^^ st.R11⟩) := by rw [rnd_v, first_v]
    have h2 : ∀ s : St, s.R11 = st.R11 → vOf (mid s) = ⟨(vOf s).v0 ^^^ st.R11, (vOf s).v1, (vOf s).v2 ^^^ 0xee#64, (vOf s).v3⟩ := by
      intro s hs; simp only [vOf, mid, hs]; rfl
    rw [h2 (rnd (first st)) rfl, h1]; rfl
  generalize hc : compress1 ⟨st.R9, st.AX, st.BX, st.CX⟩ st.R11 = c at hm
  generalize mid (rnd (first st)) = st1 at hm
  have h4 : vOf (rnd (rnd (rnd (rnd st1)))) = round (round (round (round {{ c with v2 := c.v2 ^^^ 0xee#64 }}))) := by
    rw [rnd_v, rnd_v, rnd_v, rnd_v, hm]
  generalize hs2 : rnd (rnd (rnd (rnd st1))) = st2 at h4
  have h5 : vOf (out0 st2) = {{ vOf st2 with v1 := (vOf st2).v1 ^^^ 0xdd#64 }} := rfl
  have h6 : vOf (rnd (rnd (rnd (rnd (out0 st2))))) = round (round (round (round (vOf (out0 st2))))) := by
    rw [rnd_v, rnd_v, rnd_v, rnd_v]
  have r0 : (out1 (rnd (rnd (rnd (rnd (out0 st2)))))).r0 = (vOf st2).v0 ^^^ (vOf st2).v1 ^^^ (vOf st2).v2 ^^^ (vOf st2).v3 :=
    xors _ _ _ _
  have r1 : ∀ s : St, (out1 s).r1 = (vOf s).v0 ^^^ (vOf s).v1 ^^^ (vOf s).v2 ^^^ (vOf s).v3 :=
    fun _ => xors _ _ _ _
  rw [r0, r1, h6, h5, h4]
  simp only [fin128]

/-- The whole routine. -/
theorem run (e : Env) (hl : e.p.length < 2 ^ 63) (st : St) :
    ∃ st', Reaches {P} e ⟨some 0, st⟩ ⟨none, st'⟩ ∧ Hash128 e.k0 e.k1 e.p = .ok (st'.r0, st'.r1) := by
  obtain ⟨st1, r1, a1⟩ := to_tail e hl st
  obtain ⟨st2, r2, k2, t2⟩ := switch e hl st1 _ a1
  obtain ⟨st3, r3, h3⟩ := finish e st2
  refine ⟨st3, r1.trans (r2.trans r3), ?_⟩
  rw [h3, k2.v0, k2.v1, k2.v2, k2.v3, a1.v0, a1.v1, a1.v2, a1.v3]
  have hc := core_eq (init128 e.k0 e.k1) e.p (fun s => .ok (fin128 s))
  have ht : st2.R11 = BitVec.ofNat 64 e.p.length <<< 56 ||| BitVec.ofNat 64 (leNat (tailOf 8 e.p)) := by
    rw [tailSwitch_eq _ (tailOf_length_lt (by omega) _)] at t2
    exact (Except.ok.inj t2).symm
  rw [ht]
  exact hc
"""
    t = t.replace("@FIN", fin.rstrip()).replace("@SWS", sws.strip()).replace("@CASES", cases.rstrip())
    import re
    t = re.sub(r"@\{(\d+)\}", lambda m: str(int(m.group(1)) + o), t)
    t = t.replace("@NS", ns).replace("@P", P).replace("@AX", AX).replace("@INIT", INIT)
    return t
open("/verif/lean/Verif/Lemmas/SipAsm64.lean","w").write(gen("H64","hash64",0,"0x646f72616e646f6d#64 ^^^ e.k1","init64"))
open("/verif/lean/Verif/Lemmas/SipAsm128.lean","w").write(gen("H128","hash128",1,"0x646f72616e646f6d#64 ^^^ 0xee#64 ^^^ e.k1","init128"))
