import Verif.Model.X86
import Verif.Lemmas.SipHashPg

namespace Verif.Lemmas.SipAsm
open Verif Verif.Model.X86 Verif.Model.SipHash Verif.Lemmas.SipHash

/-- Reachability: some number of steps leads from one configuration to the other. -/
def Reaches (prog : List Ins) (e : Env) (c c' : Config) : Prop := ∃ n, steps prog e n c = .ok c'

theorem steps_add (prog : List Ins) (e : Env) (a b : Nat) (c c' : Config) (h : steps prog e a c = .ok c') :
    steps prog e (a + b) c = steps prog e b c' := by
  induction a generalizing c with
  | zero => simp only [steps] at h; cases h; simp
  | succ a ih =>
    rw [show a + 1 + b = (a + b) + 1 by omega]
    simp only [steps, bind, Except.bind] at h ⊢
    cases hs : step prog e c with
    | error x => rw [hs] at h; cases h
    | ok c1 => rw [hs] at h; exact ih c1 h

theorem Reaches.of {prog : List Ins} {e : Env} {n : Nat} {c c' : Config} (h : steps prog e n c = .ok c') :
    Reaches prog e c c' := ⟨n, h⟩

theorem Reaches.refl (prog : List Ins) (e : Env) (c : Config) : Reaches prog e c c := ⟨0, rfl⟩

theorem Reaches.trans {prog : List Ins} {e : Env} {a b c : Config} (h1 : Reaches prog e a b)
    (h2 : Reaches prog e b c) : Reaches prog e a c := by
  obtain ⟨n, hn⟩ := h1
  obtain ⟨m, hm⟩ := h2
  exact ⟨n + m, by rw [steps_add _ _ _ _ _ _ hn, hm]⟩

/-- The round with right rotations, as the assembly writes it. -/
def roundR (s : V) : V :=
  let v0 := s.v0 + s.v1
  let v1 := s.v1.rotateRight 51 ^^^ v0
  let v0 := v0.rotateRight 32
  let v2 := s.v2 + s.v3
  let v3 := s.v3.rotateRight 48 ^^^ v2
  let v0 := v0 + v3
  let v3 := v3.rotateRight 43 ^^^ v0
  let v2 := v2 + v1
  let v1 := v1.rotateRight 47 ^^^ v2
  let v2 := v2.rotateRight 32
  ⟨v0, v1, v2, v3⟩

theorem rr (x : U64) (n : Nat) (h0 : 0 < n) (h : n < 64) : x.rotateRight (64 - n) = x.rotateLeft n :=
  (rotateLeft_eq_rotateRight x h0 h).symm

theorem roundR_eq (s : V) : roundR s = round s := by
  rw [round_eq]
  have h51 := fun x => rr x 13 (by decide) (by decide)
  have h48 := fun x => rr x 16 (by decide) (by decide)
  have h43 := fun x => rr x 21 (by decide) (by decide)
  have h47 := fun x => rr x 17 (by decide) (by decide)
  have h32 := fun x => rr x 32 (by decide) (by decide)
  simp only [Nat.reduceSub] at h51 h48 h43 h47 h32
  simp only [roundR, h51, h48, h43, h47, h32]

/-- An in-bounds load. -/
theorem at_ok (e : Env) (i n : Nat) (h : i + n ≤ e.p.length) (hl : e.p.length < 2 ^ 64) (a : U64)
    (ha : a = e.base + BitVec.ofNat 64 i) : e.at_ a n = .ok ((e.p.drop i).take n) := by
  have : (a - e.base).toNat = i := by
    rw [ha, BitVec.add_comm, BitVec.add_sub_cancel, BitVec.toNat_ofNat, Nat.mod_eq_of_lt (by omega)]
  simp only [Env.at_, this, if_pos h]

theorem byte_at (e : Env) (i : Nat) (h : i < e.p.length) (hl : e.p.length < 2 ^ 64) (a : U64)
    (ha : a = e.base + BitVec.ofNat 64 i) : e.at_ a 1 = .ok [e.p[i]] := by
  rw [at_ok e i 1 (by omega) hl a ha, List.drop_eq_getElem_cons h]; rfl

theorem byte_word (b : U8) : BitVec.ofNat 64 (leNat [b]) = u64 b := by
  apply BitVec.eq_of_toNat_eq
  simp [leNat, u64, BitVec.toNat_setWidth]

/-- Registers at the head of the word loop after `k` words. -/
structure AtWord (e : Env) (st : St) (s : V) (k : Nat) : Prop where
  v0 : st.R9 = s.v0
  v1 : st.AX = s.v1
  v2 : st.BX = s.v2
  v3 : st.CX = s.v3
  si : st.SI = e.base
  di : st.DI = BitVec.ofNat 64 (8 * k)
  r10 : st.R10 = BitVec.ofNat 64 (8 * (e.p.length / 8))
  r11 : st.R11 = BitVec.ofNat 64 e.p.length <<< 56
  dx : st.DX = BitVec.ofNat 64 e.p.length

theorem and_mask (n : Nat) (h : n < 2 ^ 64) :
    BitVec.ofNat 64 n &&& 0xfffffffffffffff8#64 = BitVec.ofNat 64 (8 * (n / 8)) := by
  have h7 : (BitVec.ofNat 64 n &&& 7#64) = BitVec.ofNat 64 (n % 8) := by
    apply BitVec.eq_of_toNat_eq
    have : (7#64).toNat = 2 ^ 3 - 1 := by decide
    rw [BitVec.toNat_and, this, Nat.and_two_pow_sub_one_eq_mod, BitVec.toNat_ofNat, BitVec.toNat_ofNat]
    omega
  have hs : (BitVec.ofNat 64 n &&& 0xfffffffffffffff8#64) + (BitVec.ofNat 64 n &&& 7#64) = BitVec.ofNat 64 n := by
    generalize BitVec.ofNat 64 n = x
    rw [BitVec.add_eq_or_of_and_eq_zero]
    · rw [← BitVec.and_or_distrib_left]
      have : 0xfffffffffffffff8#64 ||| 7#64 = BitVec.allOnes 64 := by decide
      rw [this, BitVec.and_allOnes]
    · have e1 : x &&& 0xfffffffffffffff8#64 &&& (x &&& 7#64) = x &&& x &&& (0xfffffffffffffff8#64 &&& 7#64) := by ac_rfl
      have e2 : 0xfffffffffffffff8#64 &&& 7#64 = 0#64 := by decide
      rw [e1, e2]; simp
  have := congrArg (· - (BitVec.ofNat 64 n &&& 7#64)) hs
  simp only [BitVec.add_sub_cancel] at this
  rw [this, h7]
  apply BitVec.eq_of_toNat_eq
  rw [BitVec.toNat_sub, BitVec.toNat_ofNat, BitVec.toNat_ofNat, BitVec.toNat_ofNat]
  omega

end Verif.Lemmas.SipAsm
