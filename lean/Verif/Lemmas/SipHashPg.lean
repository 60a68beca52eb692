import Verif.Lemmas.SipHashStream

namespace Verif.Lemmas.SipHash
open Verif.Model.SipHash
open Verif.Spec.SipHash (State sipRound rounds absorb pad compress)

theorem sipround_eq (s : V) : sipround s = round s := rfl

theorem siproundba_eq (s : V) : siproundb (siprounda s) = round s := rfl

theorem siprounds_spec (n : Nat) (s : V) : V.spec (siprounds n s) = rounds n (V.spec s) := by
  induction n generalizing s with
  | zero => rfl
  | succ n ih => rw [siprounds, ih, sipround_eq, round_spec]; rfl

/-- One message word in siphashpg. -/
def pgAbsorb (cr : Nat) (s : V) (m : U64) : V :=
  { siprounds cr { s with v3 := s.v3 ^^^ m } with v0 := (siprounds cr { s with v3 := s.v3 ^^^ m }).v0 ^^^ m }

theorem pgAbsorb_spec (cr : Nat) (s : V) (m : U64) : V.spec (pgAbsorb cr s m) = absorb cr (V.spec s) m := by
  have h : V.spec (siprounds cr { s with v3 := s.v3 ^^^ m })
      = rounds cr { V.spec s with v3 := (V.spec s).v3 ^^^ m } := by
    rw [siprounds_spec]; rfl
  unfold absorb
  rw [← h]; rfl

theorem pgFold_spec (cr : Nat) (s : V) (bs : List (List U8)) :
    V.spec (bs.foldl (fun s b => pgAbsorb cr s (le64 b)) s) = (bs.map le64).foldl (absorb cr) (V.spec s) := by
  induction bs generalizing s with
  | nil => rfl
  | cons b bs ih => rw [List.foldl_cons, ih, pgAbsorb_spec]; rfl

theorem pgLoop_gen (in0 : List U8) (cr : Nat) (fuel : Nat) (s : V) (cnt : Nat)
    (hf : (in0.drop (8 * cnt)).length / 8 ≤ fuel) :
    Go.while_ fuel (fun (x : V × Nat × Nat × List U8) => decide (x.2.2.1 ≥ 8))
    (fun x => do
      let m ← wordAt in0 x.2.1
      let in_ ← Go.from_ x.2.2.2 8
      return (pgAbsorb cr x.1 m, x.2.1 + 1, x.2.2.1 - 8, in_)) (s, cnt, (in0.drop (8 * cnt)).length, in0.drop (8 * cnt))
    = .ok ((blocks 8 (in0.drop (8 * cnt))).foldl (fun s b => pgAbsorb cr s (le64 b)) s,
        cnt + (in0.drop (8 * cnt)).length / 8, (tailOf 8 (in0.drop (8 * cnt))).length, tailOf 8 (in0.drop (8 * cnt))) := by
  induction fuel generalizing s cnt with
  | zero =>
    have h : (in0.drop (8 * cnt)).length < 8 := by omega
    have h' : ¬ (in0.drop (8 * cnt)).length ≥ 8 := by omega
    simp only [Go.while_, h', decide_false, Bool.false_eq_true, if_false, blocks_of_lt h, tailOf_of_lt h, List.foldl_nil]
    rw [Nat.div_eq_of_lt h]; rfl
  | succ n ih =>
    by_cases h : (in0.drop (8 * cnt)).length ≥ 8
    · have hl : (in0.drop (8 * cnt)).length = in0.length - 8 * cnt := by simp
      have hw : wordAt in0 cnt = .ok (le64 ((in0.drop (8 * cnt)).take 8)) := by
        rw [wordAt, if_pos (by omega), le64_of_take]
      have hd : (in0.drop (8 * cnt)).drop 8 = in0.drop (8 * (cnt + 1)) := by
        rw [List.drop_drop]; congr 1
      have hl2 : (in0.drop (8 * cnt)).length - 8 = (in0.drop (8 * (cnt + 1))).length := by simp; omega
      have hq : cnt + (in0.drop (8 * cnt)).length / 8 = cnt + 1 + (in0.drop (8 * (cnt + 1))).length / 8 := by
        rw [← hl2]; omega
      rw [Go.while_]
      simp only [h, decide_true, if_true, hw, Go.from_eq h, bind, Except.bind, pure, Except.pure]
      rw [hl2, hd]
      simp only [bind, Except.bind, pure, Except.pure] at ih
      rw [ih _ _ (by rw [← hl2]; omega), hq, blocks_of_le (by omega) h, tailOf_of_le (by omega) h, hd]
      rfl
    · have h1 : (in0.drop (8 * cnt)).length < 8 := by omega
      rw [Go.while_]
      simp only [h, decide_false, Bool.false_eq_true, if_false, blocks_of_lt h1, tailOf_of_lt h1, List.foldl_nil]
      rw [Nat.div_eq_of_lt h1]; rfl

theorem pgLoop_eq (in0 : List U8) (cr : Nat) (s : V) :
    pgLoop in0 cr s = .ok ((blocks 8 in0).foldl (fun s b => pgAbsorb cr s (le64 b)) s,
      in0.length / 8, (tailOf 8 in0).length, tailOf 8 in0) := by
  have := pgLoop_gen in0 cr in0.length s 0 (Nat.div_le_self _ _)
  simp only [Nat.mul_zero, List.drop_zero, Nat.zero_add] at this
  exact this

theorem pgTail_eq (t : U64) {p : List U8} (h : p.length < 8) :
    pgTail t p = .ok (t ||| BitVec.ofNat 64 (leNat p)) := by
  have : pgTail t p = tailSwitch t p := by
    unfold pgTail tailSwitch
    rcases (by omega : p.length = 7 ∨ p.length = 6 ∨ p.length = 5 ∨ p.length = 4 ∨ p.length = 3 ∨ p.length = 2 ∨
      p.length = 1 ∨ p.length = 0) with hk | hk | hk | hk | hk | hk | hk | hk <;> rw [hk] <;> rfl
  rw [this, tailSwitch_eq t h]

theorem pg_absorb_pad (cr : Nat) (s : V) (m : List U8) :
    V.spec (pgAbsorb cr ((blocks 8 m).foldl (fun s b => pgAbsorb cr s (le64 b)) s)
        (BitVec.ofNat 64 m.length <<< 56 ||| BitVec.ofNat 64 (leNat (tailOf 8 m))))
      = ((blocks 8 (pad m)).map le64).foldl (absorb cr) (V.spec s) := by
  have ht := tailOf_length_lt (by omega : 0 < 8) m
  rw [pgAbsorb_spec, pgFold_spec, blocks_pad, List.map_append, List.foldl_append, List.map_cons, lastWord _ _ ht]
  rfl

/-- The finalisation of siphashpg. -/
def pgFin (dr : Nat) (dbl : Bool) (s : V) : Go (U64 × U64) :=
    let s := if dbl then { s with v2 := s.v2 ^^^ 0xee#64 } else { s with v2 := s.v2 ^^^ 0xff#64 }
    let s := siprounds dr s
    let ra := s.v0 ^^^ s.v1 ^^^ s.v2 ^^^ s.v3
    if dbl then
      let s := { s with v1 := s.v1 ^^^ 0xdd#64 }
      let s := siprounds dr s
      .ok (ra, s.v0 ^^^ s.v1 ^^^ s.v2 ^^^ s.v3)
    else .ok (ra, 0#64)

theorem pgFin_false (dr : Nat) (s : V) : pgFin dr false s =
    .ok (Spec.SipHash.fold (rounds dr { V.spec s with v2 := (V.spec s).v2 ^^^ 0xff#64 }), 0#64) := by
  have h1 := siprounds_spec dr { s with v2 := s.v2 ^^^ 0xff#64 }
  have e1 : V.spec { s with v2 := s.v2 ^^^ 0xff#64 } = { V.spec s with v2 := (V.spec s).v2 ^^^ 0xff#64 } := rfl
  rw [e1] at h1
  rw [← h1]
  simp only [pgFin, fold_spec, Bool.false_eq_true, if_false]

theorem pgFin_true (dr : Nat) (s : V) : pgFin dr true s =
    .ok (let s := V.spec s
     let s := rounds dr { s with v2 := s.v2 ^^^ 0xee#64 }
     let r := rounds dr { s with v1 := s.v1 ^^^ 0xdd#64 }
     (Spec.SipHash.fold s, Spec.SipHash.fold r)) := by
  have h1 := siprounds_spec dr { s with v2 := s.v2 ^^^ 0xee#64 }
  have e1 : V.spec { s with v2 := s.v2 ^^^ 0xee#64 } = { V.spec s with v2 := (V.spec s).v2 ^^^ 0xee#64 } := rfl
  rw [e1] at h1
  generalize hs1 : siprounds dr { s with v2 := s.v2 ^^^ 0xee#64 } = s1 at h1
  have h2 := siprounds_spec dr { s1 with v1 := s1.v1 ^^^ 0xdd#64 }
  have e2 : V.spec { s1 with v1 := s1.v1 ^^^ 0xdd#64 } = { V.spec s1 with v1 := (V.spec s1).v1 ^^^ 0xdd#64 } := rfl
  rw [e2] at h2
  simp only [pgFin, if_true, hs1, ← h1, ← h2, fold_spec]

theorem pgCore_eq (cr : Nat) (s : V) (p : List U8) (f : V → Go α) :
    (do let (s, _, _, q) ← pgLoop p cr s
        let t ← pgTail (BitVec.ofNat 64 p.length <<< 56) q
        f (pgAbsorb cr s t))
    = f (pgAbsorb cr ((blocks 8 p).foldl (fun s b => pgAbsorb cr s (le64 b)) s)
        (BitVec.ofNat 64 p.length <<< 56 ||| BitVec.ofNat 64 (leNat (tailOf 8 p)))) := by
  have ht := tailOf_length_lt (by omega : 0 < 8) p
  rw [pgLoop_eq]
  simp only [bind, Except.bind, pgTail_eq _ ht]

theorem Siphash_bad (in_ k : List U8) (cr dr : Int) (dbl : Bool) (h : k.length ≠ 16 ∨ cr ≤ 0 ∨ dr ≤ 0) :
    Siphash in_ k cr dr dbl = .error (.explicit "siphash") := by
  simp only [Siphash, if_pos h]; rfl

theorem Siphash_good (in_ k : List U8) (cr dr : Int) (dbl : Bool) (hk : k.length = 16) (hc : 0 < cr) (hd : 0 < dr) :
    Siphash in_ k cr dr dbl = .ok (if dbl then Spec.SipHash.hash128 cr.toNat dr.toNat (le64 k) (le64 (k.drop 8)) in_
      else (Spec.SipHash.hash64 cr.toNat dr.toNat (le64 k) (le64 (k.drop 8)) in_, 0#64)) := by
  have hn : ¬ (k.length ≠ 16 ∨ cr ≤ 0 ∨ dr ≤ 0) := by omega
  have e0 : Siphash in_ k cr dr dbl = (do
        let (s, _, _, q) ← pgLoop in_ cr.toNat ⟨0x736f6d6570736575#64 ^^^ le64 k,
          if dbl then 0x646f72616e646f6d#64 ^^^ le64 (k.drop 8) ^^^ 0xee#64 else 0x646f72616e646f6d#64 ^^^ le64 (k.drop 8),
          0x6c7967656e657261#64 ^^^ le64 k, 0x7465646279746573#64 ^^^ le64 (k.drop 8)⟩
        let t ← pgTail (BitVec.ofNat 64 in_.length <<< 56) q
        pgFin dr.toNat dbl (pgAbsorb cr.toNat s t)) := by
    simp only [Siphash, if_neg hn, U8tou64le, load_eq (by omega : 8 ≤ k.length), Go.from_eq (by omega : 8 ≤ k.length),
      load_eq (by simp; omega : 8 ≤ (k.drop 8).length), bind, Except.bind]
    rfl
  rw [e0, pgCore_eq]
  cases dbl with
  | false =>
    rw [pgFin_false, pg_absorb_pad]
    have : V.spec ⟨0x736f6d6570736575#64 ^^^ le64 k, 0x646f72616e646f6d#64 ^^^ le64 (k.drop 8),
          0x6c7967656e657261#64 ^^^ le64 k, 0x7465646279746573#64 ^^^ le64 (k.drop 8)⟩
        = Spec.SipHash.init false (le64 k) (le64 (k.drop 8)) := by
      simp [V.spec, Spec.SipHash.init, BitVec.xor_comm]
    simp only [Bool.false_eq_true, if_false]
    rw [this]; rfl
  | true =>
    rw [pgFin_true, pg_absorb_pad]
    have : V.spec ⟨0x736f6d6570736575#64 ^^^ le64 k, 0x646f72616e646f6d#64 ^^^ le64 (k.drop 8) ^^^ 0xee#64,
          0x6c7967656e657261#64 ^^^ le64 k, 0x7465646279746573#64 ^^^ le64 (k.drop 8)⟩
        = Spec.SipHash.init true (le64 k) (le64 (k.drop 8)) := by
      simp [V.spec, Spec.SipHash.init, BitVec.xor_comm]
    simp only [if_true]
    rw [this]; rfl

/-- The undo of one round. -/
def unround (s : V) : V :=
  let v2 := s.v2.rotateRight 32
  let v1 := (s.v1 ^^^ v2).rotateRight 17
  let v2 := v2 - v1
  let v3 := (s.v3 ^^^ s.v0).rotateRight 21
  let v0 := s.v0 - v3
  let v3 := (v3 ^^^ v2).rotateRight 16
  let v2 := v2 - v3
  let v0 := v0.rotateRight 32
  let v1 := (v1 ^^^ v0).rotateRight 13
  let v0 := v0 - v1
  ⟨v0, v1, v2, v3⟩

theorem xor_cancel (a b : U64) : a ^^^ b ^^^ b = a := by rw [BitVec.xor_assoc]; simp

theorem round_eq (s : V) : round s =
  let v0 := s.v0 + s.v1
  let v1 := s.v1.rotateLeft 13 ^^^ v0
  let v0 := v0.rotateLeft 32
  let v2 := s.v2 + s.v3
  let v3 := s.v3.rotateLeft 16 ^^^ v2
  let v0 := v0 + v3
  let v3 := v3.rotateLeft 21 ^^^ v0
  let v2 := v2 + v1
  let v1 := v1.rotateLeft 17 ^^^ v2
  let v2 := v2.rotateLeft 32
  ⟨v0, v1, v2, v3⟩ := by
  simp only [round, rl _ _ (by decide : 13 < 64), rl _ _ (by decide : 32 < 64), rl _ _ (by decide : 16 < 64),
    rl _ _ (by decide : 21 < 64), rl _ _ (by decide : 17 < 64)]

theorem unround_round (s : V) : unround (round s) = s := by
  rw [round_eq]
  simp only [unround, rotateRight_rotateLeft _ (by decide : 32 < 64), xor_cancel,
    rotateRight_rotateLeft _ (by decide : 17 < 64), rotateRight_rotateLeft _ (by decide : 21 < 64),
    rotateRight_rotateLeft _ (by decide : 16 < 64), rotateRight_rotateLeft _ (by decide : 13 < 64), BitVec.add_sub_cancel]

theorem round_unround (s : V) : round (unround s) = s := by
  rw [round_eq]
  simp only [unround, rotateLeft_rotateRight _ (by decide : 32 < 64), xor_cancel, BitVec.sub_add_cancel,
    rotateLeft_rotateRight _ (by decide : 17 < 64), rotateLeft_rotateRight _ (by decide : 21 < 64),
    rotateLeft_rotateRight _ (by decide : 16 < 64), rotateLeft_rotateRight _ (by decide : 13 < 64)]

theorem and_ff (v : U64) : (v &&& 0xff#64).setWidth 8 = v.setWidth 8 := by
  apply BitVec.eq_of_toNat_eq
  rw [BitVec.toNat_setWidth, BitVec.toNat_setWidth, BitVec.toNat_and]
  have : (0xff#64).toNat = 2 ^ 8 - 1 := by decide
  rw [this, Nat.and_two_pow_sub_one_eq_mod, Nat.mod_mod]

theorem U64tou8le_eq (v : U64) : U64tou8le v = .ok (leBytes 8 v.toNat) := by
  have h0 : v.setWidth 8 = BitVec.ofNat 8 v.toNat := by
    apply BitVec.eq_of_toNat_eq; simp [BitVec.toNat_setWidth]
  have h : ∀ k, (v >>> k).setWidth 8 = BitVec.ofNat 8 (v.toNat / 2 ^ k) := fun k => ofNat_div v.toNat k v rfl
  have e : U64tou8le v = .ok [(v &&& 0xff#64).setWidth 8,
      ((v >>> 8) &&& 0xff#64).setWidth 8,
      (((v >>> 8) >>> 8) &&& 0xff#64).setWidth 8,
      ((((v >>> 8) >>> 8) >>> 8) &&& 0xff#64).setWidth 8,
      (((((v >>> 8) >>> 8) >>> 8) >>> 8) &&& 0xff#64).setWidth 8,
      ((((((v >>> 8) >>> 8) >>> 8) >>> 8) >>> 8) &&& 0xff#64).setWidth 8,
      (((((((v >>> 8) >>> 8) >>> 8) >>> 8) >>> 8) >>> 8) &&& 0xff#64).setWidth 8,
      ((((((((v >>> 8) >>> 8) >>> 8) >>> 8) >>> 8) >>> 8) >>> 8) &&& 0xff#64).setWidth 8] := rfl
  rw [e]
  simp only [and_ff, ← BitVec.shiftRight_add, h, h0, leBytes, Nat.div_div_eq_div_mul, Nat.reduceAdd, Nat.reducePow, Nat.reduceMul]

end Verif.Lemmas.SipHash
