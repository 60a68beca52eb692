import Verif.Spec.Hashf
import Verif.Props.Keccak
import Verif.Props.Small
import Verif.Props.Gomap
import Verif.Props.Jenkins
import Verif.Props.Spooky
import Verif.Props.Murmur3
import Verif.Props.SipHash
import Verif.Props.Farm
import Verif.Props.Metro

namespace Verif.Lemmas.Hashf
open Verif Verif.Model.Hashf
open Verif.Spec.Hashf (table outcome counters low wide pack firstEight)

/-- The globals after any history: the objects are usable, the key buffer has 16 bytes. -/
structure Inv (s : State) : Prop where
  m332 : s.m332.buf.length = 16
  m364 : s.m364.buf.length = 16
  k643 : ∃ m, Lemmas.Keccak.Inv s.k643 184 3 8 m
  k644 : ∃ m, Lemmas.Keccak.Inv s.k644 184 4 8 m
  k648 : ∃ m, Lemmas.Keccak.Inv s.k648 184 8 8 m
  k160 : ∃ m, Lemmas.Keccak.Inv s.k160 160 24 20 m
  seeds : s.seeds.length = 16

theorem init_inv : Inv init where
  m332 := by simp [init, Model.Murmur3.new, Model.Murmur3.Digest.reset]
  m364 := by simp [init, Model.Murmur3.new, Model.Murmur3.Digest.reset]
  k643 := ⟨[], Lemmas.Keccak.new_inv 64 3 (by decide) (by decide)⟩
  k644 := ⟨[], Lemmas.Keccak.new_inv 64 4 (by decide) (by decide)⟩
  k648 := ⟨[], Lemmas.Keccak.new_inv 64 8 (by decide) (by decide)⟩
  k160 := ⟨[], Lemmas.Keccak.new_inv 160 24 (by decide) (by decide)⟩
  seeds := rfl

theorem u64_wide (x : U32) : u64 x = wide x := by
  apply BitVec.eq_of_toNat_eq; simp [u64, wide, BitVec.toNat_setWidth, BitVec.toNat_ofNat]

theorem u32_low (x : U64) : u32 x = low x := rfl

/-- `x << k | y` with `y < 2^k`. -/
theorem shl_or_nat {a b k : Nat} (hb : b < 2 ^ k) : a <<< k ||| b = a * 2 ^ k + b := by
  rw [Nat.shiftLeft_eq, Nat.mul_comm, Nat.two_pow_add_eq_or_of_lt hb]

theorem pack_eq (a b : U32) : u64 a <<< 32 ||| u64 b = pack a b := by
  apply BitVec.eq_of_toNat_eq
  have ha := a.isLt
  have hb := b.isLt
  simp only [u64, pack, BitVec.toNat_or, BitVec.toNat_shiftLeft, BitVec.toNat_setWidth, BitVec.toNat_ofNat]
  rw [Nat.mod_eq_of_lt (show a.toNat < 2 ^ 64 by omega), Nat.mod_eq_of_lt (show b.toNat < 2 ^ 64 by omega),
    Nat.mod_eq_of_lt (show a.toNat <<< 32 < 2 ^ 64 by rw [Nat.shiftLeft_eq]; omega), shl_or_nat hb]
  omega

theorem be8_eq (fp : List U8) : be8 fp = if fp.length < 8 then .error .index else .ok (firstEight fp) := by
  rcases Nat.lt_or_ge fp.length 8 with h | h
  · rw [if_pos h]
    unfold be8
    match fp, h with
    | [], _ => rfl
    | [_], _ => rfl
    | [_, _], _ => rfl
    | [_, _, _], _ => rfl
    | [_, _, _, _], _ => rfl
    | [_, _, _, _, _], _ => rfl
    | [_, _, _, _, _, _], _ => rfl
    | [_, _, _, _, _, _, _], _ => rfl
  · rw [if_neg (by omega)]
    match fp, h with
    | a :: b :: c :: d :: f :: g :: i :: j :: rest, _ =>
    have e := or8_eq j i g f d c b a []
    show Except.ok _ = Except.ok _
    refine congrArg Except.ok ?_
    have e2 : firstEight (a :: b :: c :: d :: f :: g :: i :: j :: rest) = le64 [j, i, g, f, d, c, b, a] := by
      simp only [firstEight, beNat, le64, List.take_succ_cons, List.take_zero, List.reverse_cons, List.reverse_nil, List.nil_append, List.cons_append]
    rw [e2, ← e, BitVec.shiftLeft_zero]
    generalize a.setWidth 64 <<< 56 = A, b.setWidth 64 <<< 48 = B, c.setWidth 64 <<< 40 = C, d.setWidth 64 <<< 32 = D,
      f.setWidth 64 <<< 24 = F, g.setWidth 64 <<< 16 = G, i.setWidth 64 <<< 8 = I, j.setWidth 64 = J
    ac_rfl

/-- A case computes `g`, keeps the invariant and leaves the two counters alone. -/
def Good (e : Ext) (f : Case) (g : List U8 → U64 → Option U64) : Prop :=
  ∀ s k seed, Inv s →
    (∀ h, g k seed = some h → ∃ s', f e s k seed = .ok (s', h) ∧ Inv s' ∧ s'.nh = s.nh ∧ s'.nhf64 = s.nhf64) ∧
    (g k seed = none → f e s k seed = .error .index)

/-- Cases that always return. -/
theorem good_some {e : Ext} {f : Case} {g : List U8 → U64 → U64}
    (h : ∀ s k seed, Inv s → ∃ s', f e s k seed = .ok (s', g k seed) ∧ Inv s' ∧ s'.nh = s.nh ∧ s'.nhf64 = s.nhf64) :
    Good e f (fun k seed => some (g k seed)) := by
  intro s k seed hs
  refine ⟨fun v hv => ?_, fun hv => nomatch hv⟩
  cases hv
  exact h s k seed hs

/-- Cases that do not touch the globals. -/
theorem good_pure {e : Ext} {f : Case} {g : List U8 → U64 → U64} (h : ∀ s k seed, f e s k seed = .ok (s, g k seed)) :
    Good e f (fun k seed => some (g k seed)) :=
  good_some fun s k seed hs => ⟨s, h s k seed, hs, rfl, rfl⟩

theorem Inv.setc {s : State} (h : Inv s) (c b : U32) : Inv { s with c := c, b := b } := ⟨h.1, h.2, h.3, h.4, h.5, h.6, h.7⟩
theorem Inv.sett {s : State} (h : Inv s) (t l : U64) : Inv { s with t := t, l := l } := ⟨h.1, h.2, h.3, h.4, h.5, h.6, h.7⟩

variable (e : Ext)

theorem good_perfecthash : Good e perfecthash fun k _ => if k.length < 4 then none else some (BitVec.ofNat 64 (leNat (k.take 4))) := by
  intro s k seed hs
  rcases Nat.lt_or_ge k.length 4 with h | h
  · simp only [if_pos h]
    refine ⟨fun v hv => (nomatch hv), fun _ => ?_⟩
    unfold perfecthash
    rw [Go.idx_none (by omega)]; rfl
  · simp only [if_neg (Nat.not_lt.2 h)]
    refine ⟨fun v hv => ⟨s, ?_, hs, rfl, rfl⟩, fun hv => nomatch hv⟩
    cases hv
    obtain ⟨a, b, c, d, q, rfl⟩ := exists_cons4 h
    show Except.ok _ = Except.ok _
    refine congrArg (fun x => Except.ok (s, x)) ?_
    have := orBytes_eq (w := 64) [a, b, c, d] (by simp)
    simp only [orBytes, Nat.zero_add, Nat.reduceAdd, BitVec.shiftLeft_zero, BitVec.zero_or] at this
    simp only [List.take_succ_cons, List.take_zero]
    rw [← this, BitVec.shiftLeft_zero]
    generalize a.setWidth 64 = A, b.setWidth 64 <<< 8 = B, c.setWidth 64 <<< 16 = C, d.setWidth 64 <<< 24 = D
    ac_rfl

theorem good_gomap64 : Good e gomap64 fun k s => if k = [] then none else some (Spec.Gomap.hash Spec.Gomap.family64 k s) := by
  intro s k seed hs
  by_cases h : k = []
  · subst h
    exact ⟨fun v hv => (nomatch hv), fun _ => rfl⟩
  · simp only [if_neg h]
    refine ⟨fun v hv => ⟨s, ?_, hs, rfl, rfl⟩, fun hv => nomatch hv⟩
    cases hv
    unfold gomap64
    rw [(Props.C48_total k 0#32 seed h).2, Go.bind_ok]; rfl

theorem good_gomap32 : Good e gomap32 fun k s => if k = [] then none else some (wide (Spec.Gomap.hash Spec.Gomap.family32 k (low s))) := by
  intro s k seed hs
  by_cases h : k = []
  · subst h
    exact ⟨fun v hv => (nomatch hv), fun _ => rfl⟩
  · simp only [if_neg h]
    refine ⟨fun v hv => ⟨s, ?_, hs, rfl, rfl⟩, fun hv => nomatch hv⟩
    cases hv
    unfold gomap32
    rw [(Props.C48_total k (u32 seed) 0#64 h).1, Go.bind_ok, u64_wide]; rfl

theorem good_aeshash64 : Good e aeshash64 fun k s => some (e.aesHash k s) := good_pure fun _ _ _ => rfl

theorem good_aeshash32I : Good e aeshash32I fun k s => if k.length < 4 then none else some (e.aesHash64 (BitVec.ofNat 64 (beNat (k.take 4))) s) := by
  intro s k seed hs
  rcases Nat.lt_or_ge k.length 4 with h | h
  · simp only [if_pos h]
    refine ⟨fun v hv => (nomatch hv), fun _ => ?_⟩
    match k, h with
    | [], _ => rfl
    | [_], _ => rfl
    | [_, _], _ => rfl
    | [_, _, _], _ => rfl
  · simp only [if_neg (Nat.not_lt.2 h)]
    refine ⟨fun v hv => ⟨s, ?_, hs, rfl, rfl⟩, fun hv => nomatch hv⟩
    cases hv
    obtain ⟨a, b, c, d, q, rfl⟩ := exists_cons4 h
    show Except.ok _ = Except.ok _
    refine congrArg (fun x => Except.ok (s, e.aesHash64 x seed)) ?_
    have := orBytes_eq (w := 64) [d, c, b, a] (by simp)
    simp only [orBytes, Nat.zero_add, Nat.reduceAdd, BitVec.shiftLeft_zero, BitVec.zero_or] at this
    simp only [List.take_succ_cons, List.take_zero, beNat, List.reverse_cons, List.reverse_nil, List.nil_append, List.cons_append]
    rw [← this, BitVec.shiftLeft_zero]
    generalize a.setWidth 64 <<< 24 = A, b.setWidth 64 <<< 16 = B, c.setWidth 64 <<< 8 = C, d.setWidth 64 = D
    ac_rfl

theorem good_aeshash64I : Good e aeshash64I fun k s => if k.length < 8 then none else some (e.aesHash64 (BitVec.ofNat 64 (beNat (k.take 8))) s) := by
  intro s k seed hs
  have hb := be8_eq k
  rcases Nat.lt_or_ge k.length 8 with h | h
  · simp only [if_pos h]
    refine ⟨fun v hv => (nomatch hv), fun _ => ?_⟩
    unfold aeshash64I
    rw [hb, if_pos h]; rfl
  · simp only [if_neg (Nat.not_lt.2 h)]
    refine ⟨fun v hv => ⟨s, ?_, hs, rfl, rfl⟩, fun hv => nomatch hv⟩
    cases hv
    unfold aeshash64I
    rw [hb, if_neg (Nat.not_lt.2 h)]; rfl

theorem good_adler32 : Good e adler32 fun k _ => some (wide (e.adler32 k)) := good_pure fun s k seed => by
  unfold adler32; rw [u64_wide]

theorem good_sbox : Good e sbox fun k s => some (wide (Spec.Sbox.sbox k (low s))) := good_pure fun s k seed => by
  unfold sbox; rw [Props.C51_fold, Go.bind_ok, u64_wide]; rfl

theorem good_crapWow : Good e crapWow fun k s => some (wide (Spec.CrapWow.crapwow k (low s))) := good_pure fun s k seed => by
  unfold crapWow; rw [Props.C52_sum, Go.bind_ok, u64_wide]; rfl

theorem good_maHash : Good e maHash8v64 fun k _ => some (Spec.Hashf.mahash k) := good_pure fun s k seed => by
  unfold maHash8v64; rw [Props.C53_fold, Go.bind_ok]; rfl

theorem look (k : List U8) (seed : U64) : Model.Jenkins.Jenkins364 k k.length (u32 seed) (u32 seed) = .ok (Spec.Hashf.look3 k (low seed)) :=
  (Props.C33_jenkins364 k (u32 seed) (u32 seed)).1

theorem good_j364 : Good e j364 fun k s => some (pack (Spec.Hashf.look3 k (low s)).2 (Spec.Hashf.look3 k (low s)).1) := good_some fun s k seed hs => by
  refine ⟨{ s with c := (Spec.Hashf.look3 k (low seed)).1, b := (Spec.Hashf.look3 k (low seed)).2 }, ?_, hs.setc _ _, rfl, rfl⟩
  unfold j364; rw [look, Go.bind_ok]
  simp only
  rw [pack_eq]; rfl

theorem good_j332c : Good e j332c fun k s => some (wide (Spec.Hashf.look3 k (low s)).1) := good_some fun s k seed hs => by
  refine ⟨{ s with c := (Spec.Hashf.look3 k (low seed)).1 }, ?_, hs.setc _ _, rfl, rfl⟩
  unfold j332c; rw [look, Go.bind_ok]
  simp only
  rw [u64_wide]; rfl

theorem good_j332b : Good e j332b fun k s => some (wide (Spec.Hashf.look3 k (low s)).2) := good_some fun s k seed hs => by
  refine ⟨{ s with b := (Spec.Hashf.look3 k (low seed)).2 }, ?_, hs.setc _ _, rfl, rfl⟩
  unfold j332b; rw [look, Go.bind_ok]
  simp only
  rw [u64_wide]; rfl

theorem good_j232 : Good e j232 fun k s => some (wide (Spec.Jenkins.hash232 (k.take (k.length % 2 ^ 32)) (low s))) := good_pure fun s k seed => by
  unfold j232
  rw [show Model.Jenkins.Hash232 k (u32 seed) = .ok _ from Props.C29_hash232 true k (u32 seed), Go.bind_ok, u64_wide]; rfl

theorem h264 (k : List U8) (seed : U64) : Model.Jenkins.Hash264 k seed = .ok (Spec.Jenkins.hash264 k seed) := (Props.C31_hash264 true k seed).1

theorem good_j264 : Good e j264 fun k s => some (Spec.Jenkins.hash264 k s) := good_pure fun s k seed => by
  unfold j264; rw [h264, Go.bind_ok]; rfl

theorem and_low (h : U64) : h &&& 0xFFFFFFFF#64 = BitVec.ofNat 64 (h.toNat % 2 ^ 32) := by
  apply BitVec.eq_of_toNat_eq
  rw [BitVec.toNat_and, BitVec.toNat_ofNat, BitVec.toNat_ofNat]
  have e1 : (4294967295 : Nat) % 2 ^ 64 = 2 ^ 32 - 1 := by norm_num
  rw [e1, Nat.and_two_pow_sub_one_eq_mod]
  omega

theorem good_j264l : Good e j264l fun k s => some (BitVec.ofNat 64 ((Spec.Jenkins.hash264 k s).toNat % 2 ^ 32)) := good_pure fun s k seed => by
  unfold j264l; rw [h264, Go.bind_ok, and_low]; rfl

theorem and_high (h : U64) : h >>> 32 &&& 0xFFFFFFFF#64 = BitVec.ofNat 64 (h.toNat / 2 ^ 32) := by
  rw [and_low, BitVec.toNat_ushiftRight, Nat.shiftRight_eq_div_pow]
  have := h.isLt
  rw [Nat.mod_eq_of_lt (by omega)]

theorem good_j264h : Good e j264h fun k s => some (BitVec.ofNat 64 ((Spec.Jenkins.hash264 k s).toNat / 2 ^ 32)) := good_pure fun s k seed => by
  unfold j264h; rw [h264, Go.bind_ok, and_high]; rfl

theorem u32_and (h : U64) : u32 (h &&& 0xFFFFFFFF#64) = h.setWidth 32 := by
  rw [and_low]
  apply BitVec.eq_of_toNat_eq
  simp only [u32, BitVec.toNat_setWidth, BitVec.toNat_ofNat]
  omega

theorem good_j264xor : Good e j264xor fun k s => some (wide ((Spec.Jenkins.hash264 k s).setWidth 32 ^^^ (Spec.Jenkins.hash264 k s >>> 32).setWidth 32)) :=
  good_pure fun s k seed => by
    unfold j264xor; rw [h264, Go.bind_ok, u32_and, u32_and, u64_wide]; rfl

theorem good_spooky32 : Good e spooky32 fun k s => some (wide ((Spec.Spooky.spooky128 k (wide (low s)) (wide (low s))).1.setWidth 32)) := good_pure fun s k seed => by
  unfold spooky32; rw [(Props.C41_widths k 0#64 (u32 seed)).2.2, Go.bind_ok, u64_wide, ← u64_wide (low seed)]; rfl

theorem good_spooky64 : Good e spooky64 fun k s => some (Spec.Spooky.spooky128 k s s).1 := good_pure fun s k seed => by
  unfold spooky64; rw [(Props.C41_widths k seed 0#32).2.1, Go.bind_ok]; rfl

theorem good_spooky128h : Good e spooky128h fun k s => some (Spec.Spooky.spooky128 k s s).1 := good_pure fun s k seed => by
  unfold spooky128h; rw [(Props.C41_widths k seed 0#32).1, Go.bind_ok]; rfl

theorem good_spooky128l : Good e spooky128l fun k s => some (Spec.Spooky.spooky128 k s s).2 := good_pure fun s k seed => by
  unfold spooky128l; rw [(Props.C41_widths k seed 0#32).1, Go.bind_ok]; rfl

theorem good_spooky128xor : Good e spooky128xor fun k s => some ((Spec.Spooky.spooky128 k s s).1 ^^^ (Spec.Spooky.spooky128 k s s).2) := good_some fun s k seed hs => by
  refine ⟨{ s with t := (Spec.Spooky.spooky128 k seed seed).1, l := (Spec.Spooky.spooky128 k seed seed).2 }, ?_, hs.sett _ _, rfl, rfl⟩
  unfold spooky128xor; rw [(Props.C41_widths k seed 0#32).1, Go.bind_ok]; rfl

theorem good_murmur332 : Good e murmur332 fun k _ => some (wide (Spec.Murmur3.x86_32 0#32 k)) := good_some fun s k seed hs => by
  obtain ⟨d, ed, j⟩ := Lemmas.Murmur3.write_ok Lemmas.Murmur3.folds32 (Lemmas.Murmur3.reset_J (x := Model.Murmur3.mixer32) (step := Lemmas.Murmur3.step32) hs.m332) k
  refine ⟨{ s with m332 := d }, ?_, ⟨j.blen, hs.2, hs.3, hs.4, hs.5, hs.6, hs.7⟩, rfl, rfl⟩
  unfold murmur332
  simp only
  rw [ed, Go.bind_ok]
  simp only
  rw [Lemmas.Murmur3.sum32_ok j, Go.bind_ok, u64_wide]; rfl

theorem good_murmur364 : Good e murmur364 fun k _ => some (Spec.Murmur3.x64_128 0#64 k).1 := good_some fun s k seed hs => by
  obtain ⟨d, ed, j⟩ := Lemmas.Murmur3.write_ok Lemmas.Murmur3.folds128 (Lemmas.Murmur3.reset_J (x := Model.Murmur3.mixer128) (step := Lemmas.Murmur3.step128) hs.m364) k
  refine ⟨{ s with m364 := d }, ?_, ⟨hs.1, j.blen, hs.3, hs.4, hs.5, hs.6, hs.7⟩, rfl, rfl⟩
  unfold murmur364
  simp only
  rw [ed, Go.bind_ok]
  simp only
  unfold Model.Murmur3.Digest.sum64
  rw [Lemmas.Murmur3.sum128_ok j, Go.bind_ok]; rfl

theorem good_siphash64 : Good e siphash64 fun k _ => some (Spec.SipHash.hash64 2 4 0#64 0#64 k) := good_pure fun s k seed => by
  unfold siphash64; rw [Props.C13_hash_is_siphash24, Go.bind_ok]; rfl

theorem byte_and (seed : U64) (n : Nat) : ((seed >>> n) &&& 0xFF#64).setWidth 8 = BitVec.ofNat 8 (seed.toNat / 2 ^ n) := by
  apply BitVec.eq_of_toNat_eq
  simp only [BitVec.toNat_setWidth, BitVec.toNat_and, BitVec.toNat_ushiftRight, Nat.shiftRight_eq_div_pow, BitVec.toNat_ofNat]
  have e1 : (255 : Nat) % 2 ^ 64 = 2 ^ 8 - 1 := by norm_num
  rw [e1, Nat.and_two_pow_sub_one_eq_mod]
  omega

theorem sipSeedSet_ok (s : State) (hs : s.seeds.length = 16) (seed : U64) :
    sipSeedSet s seed = .ok { s with seeds := leBytes 8 seed.toNat ++ leBytes 8 seed.toNat } := by
  obtain ⟨a0, b0, s1⟩ := List.exists_cons_of_length_pos (show 0 < s.seeds.length by omega)
  have e0 : (seed &&& 0xFF#64).setWidth 8 = BitVec.ofNat 8 seed.toNat := by
    have := byte_and seed 0
    simpa using this
  generalize hx : s.seeds = x at hs
  match x, hs with
  | [a, b, c, d, f, g, i, j, a', b', c', d', f', g', i', j'], _ =>
  unfold sipSeedSet
  rw [hx, e0, byte_and, byte_and, byte_and, byte_and, byte_and, byte_and, byte_and]
  simp only [leBytes, Nat.div_div_eq_div_mul, Nat.reduceMul]
  rfl

theorem good_siphash64pg : Good e siphash64pg fun k s => some (Spec.SipHash.hash64 2 4 s s k) := good_some fun s k seed hs => by
  refine ⟨{ s with seeds := leBytes 8 seed.toNat ++ leBytes 8 seed.toNat }, ?_, ⟨hs.1, hs.2, hs.3, hs.4, hs.5, hs.6, by simp [leBytes_length]⟩, rfl, rfl⟩
  unfold siphash64pg
  rw [sipSeedSet_ok s hs.seeds, Go.bind_ok]
  simp only
  have hl : (leBytes 8 seed.toNat).length = 8 := leBytes_length _ _
  have e1 : le64 (leBytes 8 seed.toNat ++ leBytes 8 seed.toNat) = seed := by
    unfold le64
    rw [List.take_left' hl, leNat_leBytes]
    apply BitVec.eq_of_toNat_eq
    have := seed.isLt
    rw [BitVec.toNat_ofNat]; omega
  have e2 : le64 ((leBytes 8 seed.toNat ++ leBytes 8 seed.toNat).drop 8) = seed := by
    rw [List.drop_left' hl]
    unfold le64
    rw [List.take_of_length_le (by omega), leNat_leBytes]
    apply BitVec.eq_of_toNat_eq
    have := seed.isLt
    rw [BitVec.toNat_ofNat]; omega
  rw [Props.C17_general_rounds k _ 2 4 false (by rw [List.length_append, hl]) (by decide) (by decide), Go.bind_ok, e1, e2]
  rfl

theorem good_farm32 : Good e farmHash32 fun k _ => some (wide (Spec.Farm.hash32 k)) := good_pure fun s k seed => by
  unfold farmHash32
  rw [(Props.C45_fingerprints k).1, (Props.C45_farm k 0#32 0#64 0#64).1, Go.bind_ok, u64_wide]
  have : Spec.Farm.hash32 k &&& 0xFFFFFFFF#32 = Spec.Farm.hash32 k := by
    rw [show (0xFFFFFFFF#32 : U32) = BitVec.allOnes 32 from rfl, BitVec.and_allOnes]
  rw [this]; rfl

theorem good_farm64 : Good e farmHash64 fun k _ => some (Spec.Farm.hash64 k) := good_pure fun s k seed => by
  unfold farmHash64
  rw [(Props.C45_fingerprints k).2.1, (Props.C45_farm k 0#32 0#64 0#64).2.2.1, Go.bind_ok]; rfl

theorem farm128 (k : List U8) : Model.Farm.Fingerprint128 k = .ok (Spec.Farm.hash128 k) := by
  rw [(Props.C45_fingerprints k).2.2, (Props.C45_farm k 0#32 0#64 0#64).2.2.2.2.2.1]

theorem good_farm128high : Good e farmHash128high fun k _ => some (Spec.Farm.hash128 k).1 := good_pure fun s k seed => by
  unfold farmHash128high; rw [farm128, Go.bind_ok]; rfl
theorem good_farm128low : Good e farmHash128low fun k _ => some (Spec.Farm.hash128 k).2 := good_pure fun s k seed => by
  unfold farmHash128low; rw [farm128, Go.bind_ok]; rfl
theorem good_farm128xor : Good e farmHash128xor fun k _ => some ((Spec.Farm.hash128 k).1 ^^^ (Spec.Farm.hash128 k).2) := good_some fun s k seed hs => by
  refine ⟨{ s with t := (Spec.Farm.hash128 k).1, l := (Spec.Farm.hash128 k).2 }, ?_, hs.sett _ _, rfl, rfl⟩
  unfold farmHash128xor; rw [farm128, Go.bind_ok]; rfl

theorem metro64_1_ok (k : List U8) (seed : U32) : Model.Metro.Hash64_1 k seed = .ok (Spec.Hashf.metro64_1 k seed) := by
  unfold Spec.Hashf.metro64_1
  by_cases h : k.length % 8 = 4
  · rw [if_pos h]
    have hne : k ≠ [] := by rintro rfl; simp at h
    have e1 := Props.C43_last_byte_skipped k.dropLast (k.getLast hne) seed (by rw [List.dropLast_append_getLast]; exact h)
    rw [List.dropLast_append_getLast] at e1
    exact e1
  · rw [if_neg h]; exact Props.C43_published k seed h

theorem good_metro64_1 : Good e metroHash64_1 fun k s => some (Spec.Hashf.metro64_1 k (low s)) := good_pure fun s k seed => by
  unfold metroHash64_1; rw [metro64_1_ok, Go.bind_ok]; rfl
theorem good_metro64_2 : Good e metroHash64_2 fun k s => some (Spec.Metro.metro64 Spec.Metro.params64_2 k (low s)) := good_pure fun s k seed => by
  unfold metroHash64_2; rw [(Props.C42_published k (u32 seed)).1, Go.bind_ok]; rfl
theorem good_metro128_1h : Good e metroHash128_1h fun k s => some (Spec.Metro.metro128 Spec.Metro.params128_1 k (low s)).1 := good_pure fun s k seed => by
  unfold metroHash128_1h; rw [(Props.C42_published k (u32 seed)).2.1, Go.bind_ok]; rfl
theorem good_metro128_1l : Good e metroHash128_1l fun k s => some (Spec.Metro.metro128 Spec.Metro.params128_1 k (low s)).2 := good_pure fun s k seed => by
  unfold metroHash128_1l; rw [(Props.C42_published k (u32 seed)).2.1, Go.bind_ok]; rfl
theorem good_metro128_1xor : Good e metroHash128_1xor fun k s => some ((Spec.Metro.metro128 Spec.Metro.params128_1 k (low s)).1 ^^^ (Spec.Metro.metro128 Spec.Metro.params128_1 k (low s)).2) := good_some fun s k seed hs => by
  refine ⟨{ s with t := (Spec.Metro.metro128 Spec.Metro.params128_1 k (low seed)).1, l := (Spec.Metro.metro128 Spec.Metro.params128_1 k (low seed)).2 }, ?_, hs.sett _ _, rfl, rfl⟩
  unfold metroHash128_1xor; rw [(Props.C42_published k (u32 seed)).2.1, Go.bind_ok]; rfl
theorem good_metro128_2h : Good e metroHash128_2h fun k s => some (Spec.Metro.metro128 Spec.Metro.params128_2 k (low s)).1 := good_pure fun s k seed => by
  unfold metroHash128_2h; rw [(Props.C42_published k (u32 seed)).2.2, Go.bind_ok]; rfl
theorem good_metro128_2l : Good e metroHash128_2l fun k s => some (Spec.Metro.metro128 Spec.Metro.params128_2 k (low s)).2 := good_pure fun s k seed => by
  unfold metroHash128_2l; rw [(Props.C42_published k (u32 seed)).2.2, Go.bind_ok]; rfl
theorem good_metro128_2xor : Good e metroHash128_2xor fun k s => some ((Spec.Metro.metro128 Spec.Metro.params128_2 k (low s)).1 ^^^ (Spec.Metro.metro128 Spec.Metro.params128_2 k (low s)).2) := good_some fun s k seed hs => by
  refine ⟨{ s with t := (Spec.Metro.metro128 Spec.Metro.params128_2 k (low seed)).1, l := (Spec.Metro.metro128 Spec.Metro.params128_2 k (low seed)).2 }, ?_, hs.sett _ _, rfl, rfl⟩
  unfold metroHash128_2xor; rw [(Props.C42_published k (u32 seed)).2.2, Go.bind_ok]; rfl

theorem slice00 (l : List U8) : Go.slice l 0 0 = .ok [] := by
  unfold Go.slice; rw [if_pos ⟨Nat.le_refl 0, Nat.zero_le _⟩]; rfl

theorem be8_ok {fp : List U8} (h : 8 ≤ fp.length) : be8 fp = .ok (firstEight fp) := by rw [be8_eq, if_neg (by omega)]

theorem good_keccak224 (he : Spec.Hashf.Ok e) : Good e keccak224 fun k _ => some (firstEight (e.keccak224 k)) := good_some fun s k seed hs => by
  refine ⟨{ s with fp28 := e.keccak224 k }, ?_, ⟨hs.1, hs.2, hs.3, hs.4, hs.5, hs.6, hs.7⟩, rfl, rfl⟩
  unfold keccak224
  rw [slice00, Go.bind_ok]
  simp only [List.nil_append]
  rw [be8_ok (he.keccak224 k), Go.bind_ok]; rfl

theorem good_whirlpool (he : Spec.Hashf.Ok e) : Good e whirlpool fun k _ => some (firstEight (e.whirlpool k)) := good_some fun s k seed hs => by
  refine ⟨{ s with fp64 := e.whirlpool k }, ?_, ⟨hs.1, hs.2, hs.3, hs.4, hs.5, hs.6, hs.7⟩, rfl, rfl⟩
  unfold whirlpool
  rw [slice00, Go.bind_ok]
  simp only [List.nil_append]
  rw [be8_ok (he.whirlpool k), Go.bind_ok]; rfl

theorem good_blake2b (he : Spec.Hashf.Ok e) : Good e blake2b fun k _ => some (firstEight (e.blake2b k)) := good_some fun s k seed hs => by
  refine ⟨{ s with fp32 := e.blake2b k }, ?_, ⟨hs.1, hs.2, hs.3, hs.4, hs.5, hs.6, hs.7⟩, rfl, rfl⟩
  unfold blake2b
  rw [slice00, Go.bind_ok]
  simp only [List.nil_append]
  rw [be8_ok (he.blake2b k), Go.bind_ok]; rfl

theorem good_sha1 (he : Spec.Hashf.Ok e) : Good e sha1 fun k _ => some (firstEight (e.sha1 k)) := good_some fun s k seed hs => by
  refine ⟨{ s with fp20 := e.sha1 k }, ?_, ⟨hs.1, hs.2, hs.3, hs.4, hs.5, hs.6, hs.7⟩, rfl, rfl⟩
  unfold sha1
  rw [slice00, Go.bind_ok]
  simp only [List.nil_append]
  rw [be8_ok (he.sha1 k), Go.bind_ok]; rfl

theorem keccakSum_ok {o : Model.Keccak.Keccak} {r n size : Nat} {m : List U8} (h : Lemmas.Keccak.Inv o r n size m) (hs : size ≤ 200) (k : List U8) :
    ∃ o', keccakSum o k [] = .ok (o', Lemmas.Keccak.digestW n r size k) ∧ Lemmas.Keccak.Inv o' r n size k := by
  obtain ⟨o', e1, i1⟩ := Lemmas.Keccak.write_ok (Lemmas.Keccak.reset_ok h) k
  refine ⟨o', ?_, i1⟩
  unfold keccakSum
  rw [e1, Go.bind_ok]
  exact Lemmas.Keccak.sum_ok i1 hs []

theorem digestW_sponge {n r size : Nat} (h8 : r % 8 = 0) (hr : 0 < r) (h200 : r ≤ 200) (hs : size ≤ r) (m : List U8) :
    Lemmas.Keccak.digestW n r size m = Spec.Keccak.sponge n r size m := by
  rw [Lemmas.Keccak.digestW_lossy]; exact Lemmas.Keccak.lossy_sponge h8 hr h200 hs m

theorem digestW_length {n r size : Nat} (hs : size ≤ 200) (m : List U8) : (Lemmas.Keccak.digestW n r size m).length = size := by
  unfold Lemmas.Keccak.digestW
  rw [List.length_take, Lemmas.Keccak.bytes_length]; omega

theorem good_keccakpg643 : Good e keccakpg643 fun k _ => some (firstEight (Spec.Keccak.sponge 3 184 8 k)) := good_some fun s k seed hs => by
  obtain ⟨m, hm⟩ := hs.k643
  obtain ⟨o, e1, i1⟩ := keccakSum_ok hm (by decide) k
  refine ⟨{ s with fp8 := Lemmas.Keccak.digestW 3 184 8 k, k643 := o }, ?_, ⟨hs.1, hs.2, ⟨k, i1⟩, hs.4, hs.5, hs.6, hs.7⟩, rfl, rfl⟩
  unfold keccakpg643
  rw [slice00, Go.bind_ok, e1, Go.bind_ok]
  simp only
  rw [be8_ok (by simp [digestW_length]), Go.bind_ok, digestW_sponge (by decide) (by decide) (by decide) (by decide)]; rfl

theorem good_keccakpg644 : Good e keccakpg644 fun k _ => some (firstEight (Spec.Keccak.sponge 4 184 8 k)) := good_some fun s k seed hs => by
  obtain ⟨m, hm⟩ := hs.k644
  obtain ⟨o, e1, i1⟩ := keccakSum_ok hm (by decide) k
  refine ⟨{ s with fp8 := Lemmas.Keccak.digestW 4 184 8 k, k644 := o }, ?_, ⟨hs.1, hs.2, hs.3, ⟨k, i1⟩, hs.5, hs.6, hs.7⟩, rfl, rfl⟩
  unfold keccakpg644
  rw [slice00, Go.bind_ok, e1, Go.bind_ok]
  simp only
  rw [be8_ok (by simp [digestW_length]), Go.bind_ok, digestW_sponge (by decide) (by decide) (by decide) (by decide)]; rfl

theorem good_keccakpg648 : Good e keccakpg648 fun k _ => some (firstEight (Spec.Keccak.sponge 8 184 8 k)) := good_some fun s k seed hs => by
  obtain ⟨m, hm⟩ := hs.k648
  obtain ⟨o, e1, i1⟩ := keccakSum_ok hm (by decide) k
  refine ⟨{ s with fp8 := Lemmas.Keccak.digestW 8 184 8 k, k648 := o }, ?_, ⟨hs.1, hs.2, hs.3, hs.4, ⟨k, i1⟩, hs.6, hs.7⟩, rfl, rfl⟩
  unfold keccakpg648
  rw [slice00, Go.bind_ok, e1, Go.bind_ok]
  simp only
  rw [be8_ok (by simp [digestW_length]), Go.bind_ok, digestW_sponge (by decide) (by decide) (by decide) (by decide)]; rfl

theorem good_keccakpg160 : Good e keccakpg160 fun k _ => some (firstEight (Spec.Keccak.sponge 24 160 20 k)) := good_some fun s k seed hs => by
  obtain ⟨m, hm⟩ := hs.k160
  obtain ⟨o, e1, i1⟩ := keccakSum_ok hm (by decide) k
  refine ⟨{ s with fp32 := Lemmas.Keccak.digestW 24 160 20 k, k160 := o }, ?_, ⟨hs.1, hs.2, hs.3, hs.4, hs.5, ⟨k, i1⟩, hs.7⟩, rfl, rfl⟩
  unfold keccakpg160
  rw [slice00, Go.bind_ok, e1, Go.bind_ok]
  simp only
  rw [be8_ok (by simp [digestW_length]), Go.bind_ok, digestW_sponge (by decide) (by decide) (by decide) (by decide)]; rfl

end Verif.Lemmas.Hashf
