import Verif.Lemmas.KeccakCSqueeze

/-! The C interface on bit strings: padding of bit strings, and the steps of the contract. -/

namespace Verif.Lemmas.KeccakC
open Verif Verif.Model.KeccakC
open Verif.Spec.Keccak (State keccakf xorInto bytes squeeze)
open Verif.Lemmas.Keccak (bytes_length)
open Verif.Spec.KeccakBits (bits byte pack padBits absorbed output lowBits highBits CState fresh)
open Verif.Spec.KeccakC (Sound)

theorem bits_append (a b : List U8) : bits (a ++ b) = bits a ++ bits b := by
  unfold bits; rw [List.flatMap_append]

theorem bits_cons (a : U8) (b : List U8) : bits (a :: b) = (List.range 8).map a.getLsbD ++ bits b := rfl

theorem bits_length (l : List U8) : (bits l).length = 8 * l.length := by
  induction l with
  | nil => rfl
  | cons a l ih => rw [bits_cons, List.length_append, ih, List.length_map, List.length_range, List.length_cons]; omega

theorem byte_congr {l l' : List Bool} (h : ∀ i, i < 8 → l.getD i false = l'.getD i false) : byte l = byte l' := by
  unfold byte
  apply List.foldl_ext
  intro b i hi
  rw [h i (List.mem_range.1 hi)]

theorem byte_of (b : U8) : byte ((List.range 8).map b.getLsbD) = b := by
  have h : ∀ x, x < 256 → byte ((List.range 8).map (BitVec.ofNat 8 x).getLsbD) = BitVec.ofNat 8 x := by decide +kernel
  have := h b.toNat b.isLt
  rw [BitVec.ofNat_toNat, BitVec.setWidth_eq] at this
  exact this

theorem pack_append {x l : List Bool} (h : x.length = 8) : pack (x ++ l) = byte x :: pack l := by
  unfold pack
  rw [List.length_append, h, show (8 + l.length) / 8 = l.length / 8 + 1 by omega, List.range_succ_eq_map, List.map_cons, List.map_map]
  congr 1
  · rw [Nat.mul_zero, List.drop_zero]
    apply byte_congr
    intro i hi
    rw [List.getD_eq_getElem?_getD, List.getD_eq_getElem?_getD, List.getElem?_append_left (by omega)]
  · apply List.map_congr_left
    intro i _
    simp only [Function.comp]
    rw [List.drop_append, List.drop_of_length_le (by omega), List.nil_append, h, show 8 * i.succ - 8 = 8 * i by omega]

theorem pack_bits (l : List U8) : pack (bits l) = l := by
  induction l with
  | nil => rfl
  | cons a l ih => rw [bits_cons, pack_append (by rw [List.length_map, List.length_range]), byte_of, ih]

theorem bits_zeros (m : Nat) : bits (List.replicate m 0#8) = List.replicate (8 * m) false := by
  induction m with
  | zero => rfl
  | succ m ih => rw [List.replicate_succ, bits_cons, ih, Nat.mul_succ, Nat.add_comm, List.replicate_add]; rfl

/-- The first `k` bits of a byte. -/
def loBits (v : U8) (k : Nat) : List Bool := (List.range k).map v.getLsbD

theorem loBits_length (v : U8) (k : Nat) : (loBits v k).length = k := by unfold loBits; rw [List.length_map, List.length_range]

theorem bits_one {k : Nat} (hk : k < 8) {v : U8} (hv : v.toNat < 2 ^ k) : bits [v ||| 1#8 <<< k] = loBits v k ++ true :: List.replicate (7 - k) false := by
  have h : ∀ k, k < 8 → ∀ x, x < 256 → (BitVec.ofNat 8 x).toNat < 2 ^ k → bits [BitVec.ofNat 8 x ||| 1#8 <<< k] = loBits (BitVec.ofNat 8 x) k ++ true :: List.replicate (7 - k) false := by decide +kernel
  have := h k hk v.toNat v.isLt
  rw [BitVec.ofNat_toNat, BitVec.setWidth_eq] at this
  exact this hv

theorem bits_two {k : Nat} (hk : k < 7) {v : U8} (hv : v.toNat < 2 ^ k) : bits [v ||| 1#8 <<< k ||| 0x80#8] = loBits v k ++ true :: (List.replicate (6 - k) false ++ [true]) := by
  have h : ∀ k, k < 7 → ∀ x, x < 256 → (BitVec.ofNat 8 x).toNat < 2 ^ k → bits [BitVec.ofNat 8 x ||| 1#8 <<< k ||| 0x80#8] = loBits (BitVec.ofNat 8 x) k ++ true :: (List.replicate (6 - k) false ++ [true]) := by
    decide +kernel
  have := h k hk v.toNat v.isLt
  rw [BitVec.ofNat_toNat, BitVec.setWidth_eq] at this
  exact this hv

theorem mask_low (b : U8) {k : Nat} (hk : k < 8) : (b &&& ((1#8 <<< k) - 1#8)).toNat < 2 ^ k ∧ loBits (b &&& ((1#8 <<< k) - 1#8)) k = (bits [b]).take k := by
  have h : ∀ k, k < 8 → ∀ x, x < 256 → (BitVec.ofNat 8 x &&& ((1#8 <<< k) - 1#8)).toNat < 2 ^ k ∧ loBits (BitVec.ofNat 8 x &&& ((1#8 <<< k) - 1#8)) k = (bits [BitVec.ofNat 8 x]).take k := by decide +kernel
  have := h k hk b.toNat b.isLt
  rw [BitVec.ofNat_toNat, BitVec.setWidth_eq] at this
  exact this

theorem mask_high (b : U8) {k : Nat} (hk : k < 8) : loBits ((b >>> (8 - k)) &&& ((1#8 <<< k) - 1#8)) k = ((bits [b]).drop (8 - k)).take k := by
  have h : ∀ k, k < 8 → ∀ x, x < 256 → loBits ((BitVec.ofNat 8 x >>> (8 - k)) &&& ((1#8 <<< k) - 1#8)) k = ((bits [BitVec.ofNat 8 x]).drop (8 - k)).take k := by decide +kernel
  have := h k hk b.toNat b.isLt
  rw [BitVec.ofNat_toNat, BitVec.setWidth_eq] at this
  exact this

theorem replicate_join (a b c : Nat) (l : List Bool) : List.replicate a false ++ (List.replicate b false ++ (List.replicate c false ++ l)) = List.replicate (a + b + c) false ++ l := by
  rw [← List.append_assoc, ← List.append_assoc, ← List.replicate_add, ← List.replicate_add]

theorem bits_80 : bits [0x80#8] = List.replicate 7 false ++ [true] := by decide

theorem single_block {r : Nat} (h0 : 0 < r) {b : List U8} (h : b.length = r) (l : List U8) : blocks r (b ++ l) = b :: blocks r l := by
  rw [blocks_of_le h0 (by rw [List.length_append]; omega), List.take_left' h, List.drop_left' h]

/-- The last blocks are the padding of the bit string. -/
theorem absorbed_eq {r : Nat} (hr : 0 < r) (T : List U8) {k : Nat} (hk : k < 8) {v : U8} (hv : v.toNat < 2 ^ k) :
    absorbed r (bits T ++ loBits v k) = (lastBlocks r (tailOf r T) v k).foldl stepC ((blocks r T).foldl stepC (fun _ _ => 0#64)) := by
  have hlt := tailOf_length_lt hr T
  have htl : (tailOf r T).length = T.length % r := tailOf_length r T
  have hz : ∀ X : List U8, padBits (8 * r) (bits T ++ loBits v k) = bits T ++ bits X → blocks r (tailOf r T ++ X) = lastBlocks r (tailOf r T) v k →
      absorbed r (bits T ++ loBits v k) = (lastBlocks r (tailOf r T) v k).foldl stepC ((blocks r T).foldl stepC (fun _ _ => 0#64)) := by
    intro X h1 h2
    unfold absorbed
    rw [h1, ← bits_append, pack_bits, blocks_append hr, List.foldl_append, h2]
    rfl
  have hmod : ∀ x, (8 * T.length + x) % (8 * r) = (8 * (tailOf r T).length + x) % (8 * r) := by
    intro x
    rw [htl]
    conv => lhs; rw [← Nat.div_add_mod T.length r]
    rw [Nat.mul_add, ← Nat.mul_assoc, Nat.add_assoc, Nat.mul_add_mod]
  have hpad : padBits (8 * r) (bits T ++ loBits v k) = bits T ++ (loBits v k ++ true :: (List.replicate ((8 * r - (8 * (tailOf r T).length + (k + 2)) % (8 * r)) % (8 * r)) false ++ [true])) := by
    unfold padBits
    rw [List.length_append, bits_length, loBits_length, Nat.add_assoc, hmod, List.append_assoc]
  rw [hpad] at hz
  generalize tailOf r T = t at hlt hz
  by_cases h1 : t.length = r - 1
  · by_cases h7 : k = 7
    · subst h7
      refine hz ([v ||| 1#8 <<< 7] ++ (List.replicate (r - 1) 0#8 ++ [0x80#8])) ?_ ?_
      · rw [bits_append, bits_append, bits_zeros, bits_80, bits_one (by decide) hv, h1]
        have e : (8 * r - (8 * (r - 1) + (7 + 2)) % (8 * r)) % (8 * r) = 8 * (r - 1) + 7 := by
          rw [show 8 * (r - 1) + (7 + 2) = 8 * r + 1 by omega, Nat.add_mod_left, Nat.mod_eq_of_lt (show 1 < 8 * r by omega), Nat.mod_eq_of_lt (by omega)]
          omega
        rw [e, List.replicate_add]
        simp only [List.append_assoc, List.cons_append, Nat.sub_self, List.replicate_zero, List.nil_append]
      · rw [← List.append_assoc, single_block hr (by rw [List.length_append]; simp only [List.length_cons, List.length_nil]; omega)]
        unfold lastBlocks
        rw [if_pos h1, if_pos rfl]
        congr 1
        rw [← List.append_nil (List.replicate (r - 1) 0#8 ++ [0x80#8]), single_block hr (by rw [List.length_append, List.length_replicate]; simp only [List.length_cons, List.length_nil]; omega), blocks_nil, List.append_nil]
    · refine hz [v ||| 1#8 <<< k ||| 0x80#8] ?_ ?_
      · rw [bits_two (by omega) hv, h1]
        have e : (8 * r - (8 * (r - 1) + (k + 2)) % (8 * r)) % (8 * r) = 6 - k := by
          by_cases h6 : k = 6
          · subst h6
            rw [show 8 * (r - 1) + (6 + 2) = 8 * r by omega, Nat.mod_self, Nat.sub_zero, Nat.mod_self]
          · rw [Nat.mod_eq_of_lt (show 8 * (r - 1) + (k + 2) < 8 * r by omega), Nat.mod_eq_of_lt (by omega)]
            omega
        rw [e]
      · unfold lastBlocks
        rw [if_pos h1, if_neg h7, ← List.append_nil (t ++ _), single_block hr (by rw [List.length_append]; simp only [List.length_cons, List.length_nil]; omega), blocks_nil, List.append_nil]
  · refine hz ((v ||| 1#8 <<< k) :: (List.replicate (r - t.length - 2) 0#8 ++ [0x80#8])) ?_ ?_
    · rw [show (v ||| 1#8 <<< k) :: (List.replicate (r - t.length - 2) 0#8 ++ [0x80#8]) = [v ||| 1#8 <<< k] ++ (List.replicate (r - t.length - 2) 0#8 ++ [0x80#8]) from rfl, bits_append, bits_append,
        bits_zeros, bits_80, bits_one hk hv]
      have e : (8 * r - (8 * t.length + (k + 2)) % (8 * r)) % (8 * r) = (7 - k) + 8 * (r - t.length - 2) + 7 := by
        rw [Nat.mod_eq_of_lt (show 8 * t.length + (k + 2) < 8 * r by omega), Nat.mod_eq_of_lt (by omega)]
        omega
      rw [e, ← replicate_join]
      simp only [List.append_assoc, List.cons_append]
    · unfold lastBlocks
      rw [if_neg h1, ← List.append_nil (t ++ _), single_block hr, blocks_nil, List.append_nil]
      simp only [List.length_append, List.length_cons, List.length_replicate, List.length_nil]; omega

/-! ## Objects and the contract -/

/-- The C object `s` is in the state `c` of the contract. -/
def CInv (s : Sponge) (c : CState) : Prop :=
  ∃ n, c.rate = 8 * n ∧ s.fixedOutputLength.toNat = c.size ∧ c.size % 8 = 0 ∧
    match c.out with
    | none => ∃ T k v, k < 8 ∧ v.toNat < 2 ^ k ∧ c.msg = bits T ++ loBits v k ∧ RepB s n ((blocks (8 * n) T).foldl stepC (fun _ _ => 0#64)) (tailOf (8 * n) T) k v
    | some p => ∃ b o, b * (8 * n) + o = p ∧ SqRep s n (absorbed (8 * n) c.msg) b o

theorem init_repB {n : Nat} {r c : U32} (hr : r.toNat = 64 * n) (h0 : 0 < n) (hn : n ≤ 24) (fixed : U32) (hf : fixed.toNat % 8 = 0) :
    CInv ⟨KeccakInitializeState, List.replicate 192 0#8, r, c, 0#32, fixed, false, 0#32⟩ ⟨8 * n, fixed.toNat, [], none⟩ := by
  refine ⟨n, rfl, rfl, hf, [], 0, 0#8, by decide, by decide, rfl, ?_⟩
  rw [blocks_nil, tailOf_nil]
  exact Rep.repB ⟨hr, h0, hn, rfl, by show 0 < 8 * n; omega, by rfl, rfl, rfl, initial_lanes, rfl⟩ _

theorem step_initSponge {s : Sponge} {c : CState} (h : CInv s c) (r k : U32) : ∃ s', cstep s (.initSponge r k) = .ok (s', (c.step (.initSponge r k)).2) ∧ CInv s' (c.step (.initSponge r k)).1 := by
  unfold cstep CState.step fresh InitSponge
  dsimp only
  have hrl := r.isLt
  have hkl := k.isLt
  have h1 : (r + k ≠ 1600#32) ↔ (r.toNat + k.toNat) % 2 ^ 32 ≠ 1600 := by
    constructor
    · intro h c
      exact h (BitVec.eq_of_toNat_eq (by rw [BitVec.toNat_add, c]; rfl))
    · intro h c
      have := congrArg BitVec.toNat c
      rw [BitVec.toNat_add] at this
      exact h this
  have h2 : (r ≤ 0#32 ∨ r ≥ 1600#32 ∨ r % 64#32 ≠ 0#32) ↔ (r.toNat = 0 ∨ 1600 ≤ r.toNat ∨ r.toNat % 64 ≠ 0) := by
    refine or_congr ?_ (or_congr ?_ ?_)
    · rw [BitVec.le_def]
      exact Nat.le_zero
    · show 1600#32 ≤ r ↔ _
      rw [BitVec.le_def]; rfl
    · refine not_congr ⟨fun c => ?_, fun c => BitVec.eq_of_toNat_eq c⟩
      exact congrArg BitVec.toNat c
  by_cases a : r.toNat + k.toNat = 1600 ∧ 0 < r.toNat ∧ r.toNat < 1600 ∧ r.toNat % 64 = 0
  · have a1 : ¬ (r + k ≠ 1600#32) := by rw [h1]; omega
    have a2 : ¬ (r ≤ 0#32 ∨ r ≥ 1600#32 ∨ r % 64#32 ≠ 0#32) := by rw [h2]; omega
    rw [if_pos a, if_neg a1, if_neg a2]
    refine ⟨_, rfl, ?_⟩
    have := init_repB (n := r.toNat / 64) (r := r) (c := k) (by omega) (by omega) (by omega) 0#32 rfl
    rw [show 8 * (r.toNat / 64) = r.toNat / 8 by omega] at this
    exact this
  · rw [if_neg a]
    by_cases a1 : r + k ≠ 1600#32
    · rw [if_pos a1]
      exact ⟨s, rfl, h⟩
    · have a2 : r ≤ 0#32 ∨ r ≥ 1600#32 ∨ r % 64#32 ≠ 0#32 := by
        rw [h2]
        rw [h1] at a1
        omega
      rw [if_neg a1, if_pos a2]
      exact ⟨s, rfl, h⟩

theorem step_init {s : Sponge} {c : CState} (h : CInv s c) (x : U32) : ∃ s', cstep s (.init x) = .ok (s', (c.step (.init x)).2) ∧ CInv s' (c.step (.init x)).1 := by
  unfold cstep CState.step fresh
  dsimp only
  have hx : ∀ m : Nat, m < 2 ^ 32 → (x = BitVec.ofNat 32 m ↔ x.toNat = m) := by
    intro m hm
    constructor
    · rintro rfl; rw [BitVec.toNat_ofNat, Nat.mod_eq_of_lt hm]
    · intro e; exact BitVec.eq_of_toNat_eq (by rw [e, BitVec.toNat_ofNat, Nat.mod_eq_of_lt hm])
  by_cases h0 : x = 0#32
  · subst h0
    exact ⟨_, rfl, init_repB (n := 16) (r := 1024#32) (c := 576#32) rfl (by decide) (by decide) 0#32 rfl⟩
  by_cases h1 : x = 224#32
  · subst h1
    exact ⟨_, rfl, init_repB (n := 18) (r := 1152#32) (c := 448#32) rfl (by decide) (by decide) 224#32 rfl⟩
  by_cases h2 : x = 256#32
  · subst h2
    exact ⟨_, rfl, init_repB (n := 17) (r := 1088#32) (c := 512#32) rfl (by decide) (by decide) 256#32 rfl⟩
  by_cases h3 : x = 384#32
  · subst h3
    exact ⟨_, rfl, init_repB (n := 13) (r := 832#32) (c := 768#32) rfl (by decide) (by decide) 384#32 rfl⟩
  by_cases h4 : x = 512#32
  · subst h4
    exact ⟨_, rfl, init_repB (n := 9) (r := 576#32) (c := 1024#32) rfl (by decide) (by decide) 512#32 rfl⟩
  have hm : ¬ x.toNat ∈ [224, 256, 384, 512] := by
    simp only [List.mem_cons, List.not_mem_nil, or_false]
    rw [hx 224 (by decide)] at h1
    rw [hx 256 (by decide)] at h2
    rw [hx 384 (by decide)] at h3
    rw [hx 512 (by decide)] at h4
    omega
  have hz : ¬ x.toNat = 0 := by rw [hx 0 (by decide)] at h0; exact h0
  unfold Init
  rw [if_neg hz, if_neg hm, if_neg h0, if_neg h1, if_neg h2, if_neg h3, if_neg h4]
  exact ⟨s, rfl, h⟩

theorem absorb_reject {s : Sponge} (h : s.bitsInQueue % 8#32 ≠ 0#32 ∨ s.squeezing = true) (data : List U8) (D : U64) : Absorb s data D = .ok (s, 1) := by
  unfold Absorb
  by_cases h1 : s.bitsInQueue % 8#32 ≠ 0#32
  · rw [if_pos h1, Go.pure_ok]
  · rw [if_neg h1, if_pos (h.resolve_left h1), Go.pure_ok]

theorem update_reject {s : Sponge} (h : s.bitsInQueue % 8#32 ≠ 0#32 ∨ s.squeezing = true) (data : List U8) (D : U64) : Update s data D = .ok (s, 1) := by
  unfold Update
  split
  · exact absorb_reject h data D
  · rw [absorb_reject h, Go.bind_ok]; rfl

theorem msg_length {T : List U8} {k : Nat} {v : U8} : (bits T ++ loBits v k).length = 8 * T.length + k := by rw [List.length_append, bits_length, loBits_length]

/-- An object that does not take input. -/
theorem not_open {s : Sponge} {c : CState} (h : CInv s c) (ho : ¬ c.Open) : s.bitsInQueue % 8#32 ≠ 0#32 ∨ s.squeezing = true := by
  obtain ⟨n, hr, hf, h8, h⟩ := h
  obtain ⟨rate, size, msg, out⟩ := c
  cases out with
  | some p =>
    obtain ⟨b, o, hp, R⟩ := h
    exact Or.inr R.closed
  | none =>
    obtain ⟨T, k, v, hk, hv, hm, R⟩ := h
    left
    intro e
    have := congrArg BitVec.toNat e
    rw [BitVec.toNat_umod, R.bits] at this
    have this : (8 * (tailOf (8 * n) T).length + k) % 8 = 0 := this
    apply ho
    refine ⟨rfl, ?_⟩
    show msg.length % 8 = 0
    have hm : msg = _ := hm
    rw [hm, msg_length]
    omega

/-- An object that does. -/
theorem open_rep {s : Sponge} {c : CState} (h : CInv s c) (ho : c.Open) :
    ∃ n T, c = ⟨8 * n, s.fixedOutputLength.toNat, bits T, none⟩ ∧ s.fixedOutputLength.toNat % 8 = 0 ∧ Rep s n ((blocks (8 * n) T).foldl stepC (fun _ _ => 0#64)) (tailOf (8 * n) T) := by
  obtain ⟨n, hr, hf, h8, h⟩ := h
  obtain ⟨rate, size, msg, out⟩ := c
  obtain ⟨o1, o2⟩ := ho
  have o1 : out = none := o1
  subst o1
  obtain ⟨T, k, v, hk, hv, hm, R⟩ := h
  have hm : msg = _ := hm
  have o2 : msg.length % 8 = 0 := o2
  rw [hm, msg_length] at o2
  have hk0 : k = 0 := by omega
  subst hk0
  have hr : rate = 8 * n := hr
  have hf : s.fixedOutputLength.toNat = size := hf
  have h8 : size % 8 = 0 := h8
  refine ⟨n, T, ?_, by rw [hf]; exact h8, R.rep⟩
  rw [hr, hf, hm]
  show _ = (⟨_, _, _, _⟩ : CState)
  rw [show loBits v 0 = [] from rfl, List.append_nil]

theorem low_split {data : List U8} {N k : Nat} (hN : 8 * N + k ≤ 8 * data.length) (hk : k < 8) :
    lowBits data (8 * N + k) = bits (data.take N) ++ loBits (data.getD N 0#8 &&& ((1#8 <<< k) - 1#8)) k := by
  unfold lowBits
  conv => lhs; rw [← List.take_append_drop N data]
  have hl : (bits (data.take N)).length = 8 * N := by rw [bits_length, List.length_take]; omega
  rw [bits_append, List.take_append, hl, List.take_of_length_le (by omega), Nat.add_sub_cancel_left, (mask_low _ hk).2]
  congr 1
  by_cases h0 : k = 0
  · subst h0; rw [List.take_zero, List.take_zero]
  · have hNl : N < data.length := by omega
    rw [List.drop_eq_getElem_cons hNl, show data[N] :: data.drop (N + 1) = [data[N]] ++ data.drop (N + 1) from rfl, bits_append, List.take_append_of_le_length (by rw [bits_length]; simp; omega),
      List.getD_eq_getElem?_getD, List.getElem?_eq_getElem hNl]
    rfl

theorem high_split {data : List U8} {N k : Nat} (hN : 8 * N + k ≤ 8 * data.length) (hk : k < 8) :
    highBits data (8 * N + k) = bits (data.take N) ++ loBits ((data.getD N 0#8 >>> (8 - k)) &&& ((1#8 <<< k) - 1#8)) k := by
  unfold highBits
  rw [show (8 * N + k) / 8 = N by omega, show (8 * N + k) % 8 = k by omega, mask_high _ hk]
  congr 1
  by_cases h0 : k = 0
  · subst h0; rw [List.take_zero, List.take_zero]
  · have hNl : N < data.length := by omega
    rw [List.drop_eq_getElem_cons hNl, List.take_succ_cons, List.take_zero, List.getD_eq_getElem?_getD, List.getElem?_eq_getElem hNl]
    rfl

theorem absorbed_inv {s s' : Sponge} {n : Nat} {T p : List U8} {k : Nat} {v : U8} (h8 : s.fixedOutputLength.toNat % 8 = 0) (hpos : 0 < 8 * n) (hk : k < 8) (hv : v.toNat < 2 ^ k)
    (R : RepB s' n ((blocks (8 * n) (tailOf (8 * n) T ++ p)).foldl stepC ((blocks (8 * n) T).foldl stepC (fun _ _ => 0#64))) (tailOf (8 * n) (tailOf (8 * n) T ++ p)) k v)
    (hf : s'.fixedOutputLength = s.fixedOutputLength) : CInv s' ⟨8 * n, s.fixedOutputLength.toNat, bits T ++ (bits p ++ loBits v k), none⟩ := by
  refine ⟨n, rfl, by rw [hf], h8, T ++ p, k, v, hk, hv, by rw [bits_append, List.append_assoc], ?_⟩
  rw [blocks_append hpos, tailOf_append hpos T, List.foldl_append]
  exact R

theorem step_absorb {s : Sponge} {c : CState} (h : CInv s c) (data : List U8) (D : U64) (hr : c.Ready (.absorb data D)) :
    ∃ s', cstep s (.absorb data D) = .ok (s', (c.step (.absorb data D)).2) ∧ CInv s' (c.step (.absorb data D)).1 := by
  unfold cstep CState.step CState.feed
  dsimp only
  by_cases ho : c.Open
  · rw [if_pos ho]
    obtain ⟨hl, hs⟩ := hr ho
    obtain ⟨n, T, rfl, h8, R⟩ := open_rep h ho
    have hpos : 0 < 8 * n := by have := R.pos; omega
    have hD : D.toNat = 8 * (D.toNat / 8) + D.toNat % 8 := by omega
    have hk : D.toNat % 8 < 8 := by omega
    dsimp only at hs
    rw [bits_length, Nat.mul_div_cancel_left _ (by decide), ← tailOf_length] at hs
    obtain ⟨s', e1, e2, e3⟩ := absorb_bits R hk hD (data := data) (by omega) hs
    refine ⟨s', by rw [e1, Go.bind_ok]; rfl, ?_⟩
    have := absorbed_inv h8 hpos hk (mask_low _ hk).1 e2 e3
    rw [← low_split (by omega) hk, ← hD] at this
    exact this
  · rw [if_neg ho, absorb_reject (not_open h ho), Go.bind_ok]
    exact ⟨s, rfl, h⟩

theorem step_update {s : Sponge} {c : CState} (h : CInv s c) (data : List U8) (D : U64) (hr : c.Ready (.update data D)) :
    ∃ s', cstep s (.update data D) = .ok (s', (c.step (.update data D)).2) ∧ CInv s' (c.step (.update data D)).1 := by
  unfold cstep CState.step CState.feed
  dsimp only
  by_cases ho : c.Open
  · rw [if_pos ho]
    obtain ⟨hl, hs⟩ := hr ho
    obtain ⟨n, T, rfl, h8, R⟩ := open_rep h ho
    have hpos : 0 < 8 * n := by have := R.pos; omega
    have hD : D.toNat = 8 * (D.toNat / 8) + D.toNat % 8 := by omega
    have hk : D.toNat % 8 < 8 := by omega
    have hm8 : (D % 8#64).toNat = D.toNat % 8 := rfl
    dsimp only at hs
    rw [bits_length, Nat.mul_div_cancel_left _ (by decide), ← tailOf_length] at hs
    unfold Update
    by_cases h0 : D.toNat % 8 = 0
    · obtain ⟨s', e1, e2, e3⟩ := absorb_bits (k := 0) R (by decide) (show D.toNat = 8 * (D.toNat / 8) + 0 by omega) (data := data) (by omega) hs
      rw [if_pos (show D % 8#64 = 0#64 from BitVec.eq_of_toNat_eq h0)]
      refine ⟨s', by rw [e1, Go.bind_ok]; rfl, ?_⟩
      have := absorbed_inv h8 hpos (by decide) (mask_low _ (by decide)).1 e2 e3
      have hh := high_split (data := data) (N := D.toNat / 8) (k := 0) (by omega) (by decide)
      rw [show loBits (data.getD (D.toNat / 8) 0#8 &&& ((1#8 <<< 0) - 1#8)) 0 = loBits ((data.getD (D.toNat / 8) 0#8 >>> (8 - 0)) &&& ((1#8 <<< 0) - 1#8)) 0 from rfl, ← hh,
        show 8 * (D.toNat / 8) + 0 = D.toNat by omega] at this
      exact this
    · have hD0 : (D - D % 8#64).toNat = 8 * (D.toNat / 8) + 0 := by
        rw [BitVec.toNat_sub_of_le (by rw [BitVec.le_def, hm8]; omega), hm8]; omega
      obtain ⟨s1, e1, e2, e3⟩ := absorb_bits (k := 0) R (by decide) hD0 (data := data) (by omega) hs
      have hne : ¬ (D % 8#64 = 0#64) := by
        intro c
        have := congrArg BitVec.toNat c
        exact h0 this
      have hNl : D.toNat / 8 < data.length := by omega
      have hd8 : (D / 8#64).toNat = D.toNat / 8 := by rw [BitVec.toNat_udiv]; rfl
      have hl1 : load data (D.toNat / 8) = .ok (data.getD (D.toNat / 8) 0#8) := by
        unfold load
        rw [List.getD_eq_getElem?_getD, List.getElem?_eq_getElem hNl]
        rfl
      have hs8 : (8#64 - D % 8#64).toNat = 8 - D.toNat % 8 := by
        rw [BitVec.toNat_sub_of_le (by rw [BitVec.le_def, hm8]; show _ ≤ 8; omega), hm8]; rfl
      have R1 := e2.rep
      obtain ⟨s2, f1, f2, f3⟩ := absorb_bits (N := 0) (k := D.toNat % 8) (D := D % 8#64) (data := [data.getD (D.toNat / 8) 0#8 >>> (8 - D.toNat % 8)]) R1 hk (by rw [hm8]; omega) (by simp; omega)
        (Or.inr (Or.inl (by rw [Nat.zero_add]; exact R1.lt)))
      rw [List.take_zero, List.append_nil, blocks_of_lt R1.lt, tailOf_of_lt R1.lt, List.foldl_nil] at f2
      refine ⟨s2, ?_, ?_⟩
      · rw [if_neg hne, e1, Go.bind_ok]
        dsimp only
        rw [if_pos rfl, hd8, hl1, Go.bind_ok, hs8, f1, Go.bind_ok]
        rfl
      · have := absorbed_inv h8 hpos hk (mask_low _ hk).1 f2 (f3.trans e3)
        rw [show [data.getD (D.toNat / 8) 0#8 >>> (8 - D.toNat % 8)].getD 0 0#8 = data.getD (D.toNat / 8) 0#8 >>> (8 - D.toNat % 8) from rfl, ← high_split (by omega) hk, ← hD] at this
        exact this
  · rw [if_neg ho, update_reject (not_open h ho), Go.bind_ok]
    exact ⟨s, rfl, h⟩

/-- Both calls for output. -/
theorem take_step {s : Sponge} {c : CState} (h : CInv s c) (b : List U8) (D : U64) (hb : D.toNat % 8 = 0 → D.toNat / 8 ≤ b.length) :
    ∃ s', Squeeze s b D = .ok (s', (c.take b D.toNat).2.buf, (c.take b D.toNat).2.code) ∧ CInv s' (c.take b D.toNat).1 := by
  -- in the squeezing phase
  have main : ∀ (s1 : Sponge) (n x o : Nat), c.rate = 8 * n → s1.fixedOutputLength.toNat = c.size → c.size % 8 = 0 → x * (8 * n) + o = c.out.getD 0 → SqRep s1 n (absorbed (8 * n) c.msg) x o →
      ∃ s', Squeeze s1 b D = .ok (s', (c.take b D.toNat).2.buf, (c.take b D.toNat).2.code) ∧ CInv s' (c.take b D.toNat).1 := by
    intro s1 n x o hr hf h8 hp R
    obtain ⟨s', b', o', h1, h2, h3, h4⟩ := squeeze_more R b hb
    refine ⟨s', ?_, ?_⟩
    · rw [h4]
      unfold CState.take
      by_cases hm : D.toNat % 8 = 0
      · simp only [if_pos hm]
        unfold output
        rw [hr, output_eq (by have := R.pos; omega) (by have := R.le; omega), hp]
      · simp only [if_neg hm]
    · unfold CState.take
      by_cases hm : D.toNat % 8 = 0
      · rw [if_pos hm] at h3 ⊢
        exact ⟨n, hr, by rw [h2]; exact hf, h8, b', o', by rw [h3, hp], h1⟩
      · rw [if_neg hm] at h3 ⊢
        exact ⟨n, hr, by rw [h2]; exact hf, h8, b', o', by rw [h3, hp]; rfl, h1⟩
  obtain ⟨n, hr, hf, h8, h⟩ := h
  cases ho : c.out with
  | some p =>
    rw [ho] at h
    obtain ⟨x, o, hp, R⟩ := h
    exact main s n x o hr hf h8 (by rw [ho]; exact hp) R
  | none =>
    rw [ho] at h
    obtain ⟨T, k, v, hk, hv, hm, R⟩ := h
    obtain ⟨s1, e1, e2, e3⟩ := squeeze_first R b D
    have hw : (if k = 0 then 0#8 else v) = v := by
      split
      · rename_i hk0
        subst hk0
        exact BitVec.eq_of_toNat_eq (by have : v.toNat < 1 := hv; show 0 = v.toNat; omega)
      · rfl
    rw [hw, ← absorbed_eq (by have := R.pos; omega) T hk hv, ← hm] at e1
    rw [e3]
    exact main s1 n 0 0 hr (by rw [e2]; exact hf) h8 (by rw [ho, Nat.zero_mul]; rfl) e1

theorem step_ok {s : Sponge} {c : CState} (h : CInv s c) (op : COp) (hr : c.Ready op) : ∃ s', cstep s op = .ok (s', (c.step op).2) ∧ CInv s' (c.step op).1 := by
  cases op with
  | initSponge r k => exact step_initSponge h r k
  | init x => exact step_init h x
  | absorb data n => exact step_absorb h data n hr
  | update data n => exact step_update h data n hr
  | squeeze b n =>
    obtain ⟨s', e1, e2⟩ := take_step h b n hr
    refine ⟨s', ?_, e2⟩
    unfold cstep
    dsimp only
    rw [e1, Go.bind_ok]
    rfl
  | final b =>
    obtain ⟨n, x1, hf, h8, x4⟩ := id h
    have hu : (u64 s.fixedOutputLength).toNat = c.size := by rw [u64_toNat, hf]
    obtain ⟨s', e1, e2⟩ := take_step h b (u64 s.fixedOutputLength) (fun _ => by rw [hu]; exact hr)
    rw [hu] at e1 e2
    refine ⟨s', ?_, e2⟩
    unfold cstep Final
    dsimp only
    rw [e1, Go.bind_ok]
    rfl

end Verif.Lemmas.KeccakC
