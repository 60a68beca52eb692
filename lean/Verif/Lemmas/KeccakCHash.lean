import Verif.Lemmas.KeccakCSponge

/-! Padding, squeezing and the Go object; the writes that fail. -/

namespace Verif.Lemmas.KeccakC
open Verif Verif.Model.KeccakC
open Verif.Spec.Keccak (State keccakf xorInto bytes pad sponge squeeze absorb)
open Verif.Lemmas.Keccak (padTail padTail_length pad_blocks bytes_length)

theorem orInto_ok {a : List U8} {i : Nat} {x b : U8} (h : a[i]? = some x) : orInto a i b = .ok (a.set i (x ||| b)) := by
  unfold orInto load
  rw [h]
  rfl

/-- The queue after padding starts with the last block. -/
theorem pad_queue {q t : List U8} {r : Nat} (hr : r ≤ 192) (hq : q.length = 192) (ht : t.length < r) (h : q.take t.length = t) :
    ∃ q1 q2 q3, memzero q t.length (r - t.length) = .ok q1 ∧ orInto q1 t.length 0x01#8 = .ok q2 ∧ orInto q2 (r - 1) 0x80#8 = .ok q3 ∧ q3.length = 192 ∧ q3.take r = padTail r t := by
  have e1 : memzero q t.length (r - t.length) = .ok (t ++ List.replicate (r - t.length) 0#8 ++ q.drop r) := by
    unfold memzero
    rw [if_pos (by omega), h, show t.length + (r - t.length) = r by omega]
  obtain ⟨k, hk⟩ : ∃ k, r - t.length = k + 1 := ⟨r - t.length - 1, by omega⟩
  have e2 : orInto (t ++ List.replicate (r - t.length) 0#8 ++ q.drop r) t.length 0x01#8 = .ok (t ++ 0x01#8 :: (List.replicate k 0#8 ++ q.drop r)) := by
    rw [orInto_ok (x := 0#8)]
    · rw [hk, List.append_assoc, List.set_append_right _ _ (Nat.le_refl _), Nat.sub_self, List.replicate_succ]; rfl
    · rw [hk, List.append_assoc, List.getElem?_append_right (Nat.le_refl _), Nat.sub_self, List.replicate_succ]; rfl
  suffices hh : ∃ q3, orInto (t ++ 0x01#8 :: (List.replicate k 0#8 ++ q.drop r)) (r - 1) 0x80#8 = .ok q3 ∧ q3.length = 192 ∧ q3.take r = padTail r t by
    obtain ⟨q3, a, b, c⟩ := hh
    exact ⟨_, _, q3, e1, e2, a, b, c⟩
  unfold padTail
  cases k with
  | zero =>
    refine ⟨t ++ 0x81#8 :: q.drop r, ?_, ?_, ?_⟩
    · rw [orInto_ok (x := 0x01#8)]
      · rw [show r - 1 = t.length by omega, List.set_append_right _ _ (Nat.le_refl _), Nat.sub_self]; rfl
      · rw [show r - 1 = t.length by omega, List.getElem?_append_right (Nat.le_refl _), Nat.sub_self]; rfl
    · rw [List.length_append, List.length_cons, List.length_drop]; omega
    · rw [if_pos (by omega), show t ++ 0x81#8 :: q.drop r = (t ++ [0x81#8]) ++ q.drop r by rw [List.append_assoc]; rfl, List.take_left']
      rw [List.length_append]; simp only [List.length_cons, List.length_nil]; omega
  | succ k =>
    have hrep : List.replicate (k + 1) 0#8 ++ q.drop r = List.replicate k 0#8 ++ 0#8 :: q.drop r := by
      rw [show List.replicate (k + 1) 0#8 = List.replicate k 0#8 ++ [0#8] from List.replicate_succ', List.append_assoc]; rfl
    refine ⟨t ++ 0x01#8 :: (List.replicate k 0#8 ++ 0x80#8 :: q.drop r), ?_, ?_, ?_⟩
    · rw [hrep, orInto_ok (x := 0#8)]
      · rw [List.set_append_right _ _ (by omega), show r - 1 - t.length = k + 1 by omega, List.set_cons_succ, List.set_append_right _ _ (by simp), List.length_replicate, Nat.sub_self]
        rfl
      · rw [List.getElem?_append_right (by omega), show r - 1 - t.length = k + 1 by omega, List.getElem?_cons_succ, List.getElem?_append_right (by simp), List.length_replicate, Nat.sub_self]
        rfl
    · simp only [List.length_append, List.length_cons, List.length_drop, List.length_replicate]; omega
    · rw [if_neg (by omega), show r - t.length - 2 = k by omega,
        show t ++ 0x01#8 :: (List.replicate k 0#8 ++ 0x80#8 :: q.drop r) = (t ++ 0x01#8 :: (List.replicate k 0#8 ++ [0x80#8])) ++ q.drop r by
          simp only [List.append_assoc, List.cons_append, List.nil_append], List.take_left']
      simp only [List.length_append, List.length_cons, List.length_replicate, List.length_nil]; omega

theorem extract_ok {s : Sponge} {n : Nat} (hr : s.rate.toNat = 64 * n) (hn : n ≤ 24) (hq : s.dataQueue.length = 192) :
    ∃ q, extract s = .ok { s with dataQueue := q, bitsAvailableForSqueezing := s.rate } ∧ q.length = 192 ∧ q.take (8 * n) = (bytes (lanesC s.state)).take (8 * n) := by
  unfold extract
  have h16 := ofNat_rate (k := 16) hr (by decide)
  simp only [Nat.reduceMul] at h16
  have hb : ∀ k, k ≤ 25 → ((bytes (lanesC s.state)).take (8 * k)).length = 8 * k := by
    intro k hk
    rw [List.length_take, bytes_length]; omega
  by_cases h : s.rate = 1024#32
  · obtain rfl := h16.1 h
    obtain ⟨q, e1, e2, e3⟩ := take_memcpy (dst := s.dataQueue) (src := KeccakExtract1024bits s.state) (d := 0) (o := 0) (k := 128) (by omega) (by rw [extract_1024]; exact Nat.le_of_eq (hb 16 (by decide)).symm)
    refine ⟨q, ?_, by omega, ?_⟩
    · rw [if_pos h, e1, Go.bind_ok, Go.pure_ok, ← h]
    · rw [Nat.zero_add, List.take_zero, List.nil_append, List.drop_zero, extract_1024, List.take_take] at e3
      exact e3
  · have h8 : (s.rate / 64#32).toNat = n := by
      rw [BitVec.toNat_udiv, hr]
      show 64 * n / 64 = n
      omega
    obtain ⟨q, e1, e2, e3⟩ := take_memcpy (dst := s.dataQueue) (src := KeccakExtract s.state n) (d := 0) (o := 0) (k := 8 * n) (by omega) (by rw [extract_generic _ (by omega), hb n (by omega)]; omega)
    refine ⟨q, ?_, by omega, ?_⟩
    · rw [if_neg h, h8, e1, Go.bind_ok, Go.pure_ok]
    · rw [Nat.zero_add, List.take_zero, List.nil_append, List.drop_zero, extract_generic _ (by omega), List.take_take, Nat.min_self] at e3
      exact e3

/-- Padding: the last block goes through and the first output block is in the queue. -/
theorem pad_switch {s : Sponge} {n : Nat} {A : State} {t : List U8} (R : Rep s n A t) :
    ∃ s', PadAndSwitchToSqueezingPhase s = .ok s' ∧ s'.rate = s.rate ∧ s'.squeezing = true ∧ s'.bitsAvailableForSqueezing = s.rate ∧ s'.dataQueue.length = 192 ∧
      s'.dataQueue.take (8 * n) = (bytes (stepC A (padTail (8 * n) t))).take (8 * n) := by
  have hle := R.le
  have hpos := R.pos
  have hlt := R.lt
  have hr := R.rate
  have hb := R.bits
  obtain ⟨q1, q2, q3, z1, z2, z3, z4, z5⟩ := pad_queue (r := 8 * n) (by omega) R.qlen hlt R.queue
  have c1 : s.bitsInQueue + 1#32 ≠ s.rate := by
    intro c
    have := congrArg BitVec.toNat c
    rw [BitVec.toNat_add, hb, hr, show (1#32 : U32).toNat = 1 from rfl, Nat.mod_eq_of_lt (by omega)] at this
    omega
  have a1 : ((s.bitsInQueue + 7#32) / 8#32).toNat = t.length := by
    rw [BitVec.toNat_udiv, BitVec.toNat_add, hb, show (7#32 : U32).toNat = 7 from rfl, Nat.mod_eq_of_lt (by omega)]
    show (8 * t.length + 7) / 8 = t.length
    omega
  have a2 : (s.rate / 8#32).toNat = 8 * n := by
    rw [BitVec.toNat_udiv, hr]
    show 64 * n / 8 = 8 * n
    omega
  have a3 : (s.rate / 8#32 - (s.bitsInQueue + 7#32) / 8#32).toNat = 8 * n - t.length := by
    rw [BitVec.toNat_sub_of_le (by rw [BitVec.le_def, a1, a2]; omega), a1, a2]
  have a4 : (s.bitsInQueue / 8#32).toNat = t.length := div8' hb
  have a5 : (s.bitsInQueue % 8#32).toNat = 0 := by
    rw [BitVec.toNat_umod, hb]
    show 8 * t.length % 8 = 0
    omega
  have a6 : (s.rate - 1#32).toNat = 64 * n - 1 := by
    rw [BitVec.toNat_sub_of_le (by rw [BitVec.le_def, hr, show (1#32 : U32).toNat = 1 from rfl]; omega), hr]; rfl
  have a7 : ((s.rate - 1#32) / 8#32).toNat = 8 * n - 1 := by
    rw [BitVec.toNat_udiv, a6]
    show (64 * n - 1) / 8 = 8 * n - 1
    omega
  have a8 : ((s.rate - 1#32) % 8#32).toNat = 7 := by
    rw [BitVec.toNat_umod, a6]
    show (64 * n - 1) % 8 = 7
    omega
  obtain ⟨st, f1, f2, f3⟩ := queue_ok (s := { s with dataQueue := q3 }) (A := A) hr hle z4 z5 R.len R.state
  obtain ⟨q, g1, g2, g3⟩ := extract_ok (s := { s with dataQueue := q3, state := st, bitsInQueue := 0#32 }) hr hle z4
  refine ⟨{ s with dataQueue := q, state := st, bitsInQueue := 0#32, bitsAvailableForSqueezing := s.rate, squeezing := true }, ?_, rfl, rfl, rfl, g2, ?_⟩
  · unfold PadAndSwitchToSqueezingPhase
    rw [if_neg c1, a1, a3, z1, Go.bind_ok, a4, a5, show (1#8 : U8) <<< 0 = 0x01#8 from rfl, z2, Go.bind_ok, Go.pure_ok, Go.bind_ok]
    dsimp only
    rw [a7, a8, show (1#8 : U8) <<< 7 = 0x80#8 from rfl, z3, Go.bind_ok, f1, Go.bind_ok]
    dsimp only at g1 ⊢
    rw [g1, Go.bind_ok, Go.pure_ok]
  · rw [← f3]; exact g3

/-- `Final` returns the sponge's output, for every size that fits in a block. -/
theorem final_ok {s : Sponge} {n : Nat} {m : List U8} (R : Rep s n ((blocks (8 * n) m).foldl stepC (fun _ _ => 0#64)) (tailOf (8 * n) m)) {size : Nat} (hf : s.fixedOutputLength.toNat = 8 * size)
    (h0 : 0 < size) (hs : size < 8 * n) : ∃ s', Final s (List.replicate size 0#8) = .ok (s', sponge 24 (8 * n) size m, 0) := by
  obtain ⟨s1, e1, e2, e3, e4, e5, e6⟩ := pad_switch R
  have hle := R.le
  have hlt := R.lt
  unfold Final Squeeze
  rw [R.open_, if_neg (by simp), e1, Go.bind_ok]
  have hD : (u64 s.fixedOutputLength).toNat = 8 * size := by rw [u64_toNat, hf]
  generalize u64 s.fixedOutputLength = D at hD
  have hmod : D % 8#64 = 0#64 := by
    apply BitVec.eq_of_toNat_eq
    rw [BitVec.toNat_umod, hD]
    show 8 * size % 8 = 0
    omega
  dsimp only
  rw [if_neg (by rw [hmod]; simp)]
  have hrate : s1.rate.toNat = 64 * n := by rw [e2]; exact R.rate
  have hav : s1.bitsAvailableForSqueezing ≠ 0#32 := by
    intro c
    have := congrArg BitVec.toNat c
    rw [e4, R.rate] at this
    have : 64 * n = 0 := this
    omega
  obtain ⟨o, g1, g2, g3⟩ := take_memcpy (dst := List.replicate size 0#8) (src := s1.dataQueue) (d := 0) (o := 0) (k := size) (by simp) (by omega)
  have ho : o = sponge 24 (8 * n) size m := by
    rw [List.length_replicate] at g2
    rw [Nat.zero_add, List.take_zero, List.nil_append, List.drop_zero, List.take_of_length_le (by omega)] at g3
    rw [g3]
    have : s1.dataQueue.take size = (s1.dataQueue.take (8 * n)).take size := by rw [List.take_take, Nat.min_eq_left (by omega)]
    rw [this, e6, List.take_take, Nat.min_eq_left (by omega)]
    unfold sponge
    rw [Nat.div_eq_of_lt hs, Nat.zero_add, squeeze, squeeze, List.append_nil, List.take_take, Nat.min_eq_left (by omega)]
    unfold absorb
    rw [pad_blocks (by omega), List.foldl_append, List.foldl_cons, List.foldl_nil]
    rfl
  have hbody : squeezeBody D (s1, List.replicate size 0#8, 0#64) = .ok ({ s1 with bitsAvailableForSqueezing := s1.bitsAvailableForSqueezing - D.setWidth 32 }, o, D) := by
    have hset : (D.setWidth 32).toNat = 8 * size := by
      rw [BitVec.toNat_setWidth, hD, Nat.mod_eq_of_lt (by omega)]
    unfold squeezeBody
    dsimp only
    rw [if_neg hav, Go.pure_ok, Go.bind_ok, BitVec.sub_zero]
    rw [if_pos (show u64 s1.bitsAvailableForSqueezing > D by show D < _; rw [BitVec.lt_def, u64_toNat, e4, R.rate, hD]; omega), div8' hset,
      show (0#64 / 8#64 : U64).toNat = 0 from rfl, e4, e2, BitVec.sub_self, show (0#32 / 8#32 : U32).toNat = 0 from rfl, g1, Go.bind_ok, Go.pure_ok]
    have : (0#64 : U64) + u64 (D.setWidth 32) = D := by
      apply BitVec.eq_of_toNat_eq
      rw [BitVec.zero_add, u64_toNat, hset, hD]
    rw [this]
  have hw : Go.while_ (D.toNat + 1) (fun p : Sponge × List U8 × U64 => decide (p.2.2 < D)) (squeezeBody D) (s1, List.replicate size 0#8, 0#64) =
      .ok ({ s1 with bitsAvailableForSqueezing := s1.bitsAvailableForSqueezing - D.setWidth 32 }, o, D) := by
    obtain ⟨f, hfu⟩ : ∃ f, D.toNat = f + 1 := ⟨D.toNat - 1, by omega⟩
    rw [hfu, Go.while_, if_pos (by simp only [decide_eq_true_eq, BitVec.lt_def]; rw [hD]; show 0 < _; omega), hbody]
    rw [show ∀ (x : Sponge × List U8 × U64) (g : Sponge × List U8 × U64 → Go (Sponge × List U8 × U64)), Except.bind (Except.ok x) g = g x from fun _ _ => rfl, Go.while_, if_neg (by simp)]
  refine ⟨{ s1 with bitsAvailableForSqueezing := s1.bitsAvailableForSqueezing - D.setWidth 32 }, ?_⟩
  rw [hw, Go.bind_ok, ← ho]
  rfl

/-- A Go object that has absorbed `m`. -/
structure Inv (k : Keccak) (n size : Nat) (m : List U8) : Prop where
  rep : Rep k.hashState n ((blocks (8 * n) m).foldl stepC (fun _ _ => 0#64)) (tailOf (8 * n) m)
  out : k.hashState.fixedOutputLength.toNat = 8 * size
  bitlen : k.bitlen.toNat = 8 * size
  rel : 8 * n + 2 * size = 200
  small : 0 < size ∧ size < 8 * n

theorem Inv.size_eq {k : Keccak} {n size : Nat} {m : List U8} (h : Inv k n size m) : k.Size = size := div8' h.bitlen

theorem write_fits {k : Keccak} {n size : Nat} {m : List U8} (h : Inv k n size m) (p : List U8) (hN : p.length < 2 ^ 61) (hf : Fits (8 * n) (m.length % (8 * n)) p.length) :
    ∃ k', k.Write p = .ok (k', p.length, false) ∧ Inv k' n size (m ++ p) ∧ k'.bitlen = k.bitlen := by
  have hpos : 0 < 8 * n := by have := h.rep.pos; omega
  unfold Keccak.Write
  by_cases h0 : p.length = 0
  · have : p = [] := List.eq_nil_of_length_eq_zero h0
    subst this
    refine ⟨k, rfl, by rw [List.append_nil]; exact h, rfl⟩
  · rw [if_neg h0]
    dsimp only
    obtain ⟨s', e1, e2, e3⟩ := absorb_fits h.rep p (by omega) (by rw [tailOf_length]; exact hf)
    have hmod : BitVec.ofNat 64 (p.length * 8) % 8#64 = 0#64 := by
      apply BitVec.eq_of_toNat_eq
      rw [BitVec.toNat_umod, BitVec.toNat_ofNat, Nat.mod_eq_of_lt (show p.length * 8 < 2 ^ 64 by omega)]
      show p.length * 8 % 8 = 0
      omega
    refine ⟨{ k with hashState := s' }, ?_, ⟨?_, by rw [← h.out, ← e3], h.bitlen, h.rel, h.small⟩, rfl⟩
    · unfold Update
      rw [if_pos hmod, Nat.mul_comm p.length 8, e1, Go.bind_ok]
      dsimp only
      rw [if_neg (by simp), Go.pure_ok]
    · show Rep s' _ _ _
      rw [blocks_append hpos, tailOf_append hpos m, List.foldl_append]
      exact e2

theorem sum_ok {k : Keccak} {n size : Nat} {m : List U8} (h : Inv k n size m) (b : List U8) : k.Sum b = .ok (k, b ++ sponge 24 (8 * n) size m) := by
  obtain ⟨s', e⟩ := final_ok h.rep h.out h.small.1 h.small.2
  unfold Keccak.Sum
  rw [h.size_eq]
  dsimp only
  rw [e, Go.bind_ok]
  dsimp only
  rw [if_neg (by simp), Go.pure_ok]

theorem initial_lanes : lanesC KeccakInitializeState = fun _ _ => 0#64 := by
  have h : ∀ i, i < 25 → wordC KeccakInitializeState i = 0#64 := by decide
  funext x y
  exact below25 (P := fun i => wordC KeccakInitializeState i = 0#64) h x y

/-- The four sizes the package offers. -/
def Known (n size : Nat) : Prop := (n = 18 ∧ size = 28) ∨ (n = 17 ∧ size = 32) ∨ (n = 13 ∧ size = 48) ∨ (n = 9 ∧ size = 64)

theorem init_rep {n size : Nat} (h : Known n size) (s : Sponge) :
    Rep (Init s (BitVec.ofNat 32 (8 * size))).1 n (fun _ _ => 0#64) [] ∧ (Init s (BitVec.ofNat 32 (8 * size))).1.fixedOutputLength.toNat = 8 * size := by
  rcases h with ⟨rfl, rfl⟩ | ⟨rfl, rfl⟩ | ⟨rfl, rfl⟩ | ⟨rfl, rfl⟩
  · exact ⟨⟨rfl, by decide, by decide, rfl, by decide, by rfl, rfl, rfl, initial_lanes, rfl⟩, rfl⟩
  · exact ⟨⟨rfl, by decide, by decide, rfl, by decide, by rfl, rfl, rfl, initial_lanes, rfl⟩, rfl⟩
  · exact ⟨⟨rfl, by decide, by decide, rfl, by decide, by rfl, rfl, rfl, initial_lanes, rfl⟩, rfl⟩
  · exact ⟨⟨rfl, by decide, by decide, rfl, by decide, by rfl, rfl, rfl, initial_lanes, rfl⟩, rfl⟩

theorem reset_inv {n size : Nat} (h : Known n size) {k : Keccak} (hb : k.bitlen = BitVec.ofNat 32 (8 * size)) : Inv k.Reset n size [] := by
  obtain ⟨h1, h2⟩ := init_rep h k.hashState
  refine ⟨?_, ?_, ?_, ?_, ?_⟩
  · unfold Keccak.Reset
    rw [hb, blocks_nil, tailOf_nil]
    exact h1
  · unfold Keccak.Reset
    rw [hb]
    exact h2
  · show k.bitlen.toNat = _
    rw [hb, BitVec.toNat_ofNat, Nat.mod_eq_of_lt]
    unfold Known at h
    omega
  · unfold Known at h; omega
  · unfold Known at h; omega

theorem new_inv {n size : Nat} (h : Known n size) : Inv (newKeccak (BitVec.ofNat 32 (8 * size))) n size [] ∧ (newKeccak (BitVec.ofNat 32 (8 * size))).bitlen = BitVec.ofNat 32 (8 * size) :=
  ⟨reset_inv h rfl, rfl⟩

/-! ## Writes that do not fit -/

/-- The copy runs past the end of the queue. -/
theorem write_overflow {k : Keccak} {n size : Nat} {m : List U8} (h : Inv k n size m) (p : List U8) (hN : p.length < 2 ^ 61) (hq : 0 < m.length % (8 * n))
    (hov : 2 ^ 29 ≤ p.length % 2 ^ 29 + m.length % (8 * n)) : k.Write p = .error .unsafeOOB := by
  have hpos : 0 < 8 * n := by have := h.rep.pos; omega
  have hle := h.rep.le
  have hD : (BitVec.ofNat 64 (p.length * 8)).toNat = 8 * p.length := by rw [BitVec.toNat_ofNat, Nat.mod_eq_of_lt (by omega), Nat.mul_comm]
  have hlt := Nat.mod_lt m.length hpos
  have hml := Nat.mod_lt p.length (show 2 ^ 29 > 0 by decide)
  have hmle := Nat.mod_le p.length (2 ^ 29)
  have hR := h.rep
  have htl : (tailOf (8 * n) m).length = m.length % (8 * n) := tailOf_length _ _
  unfold Keccak.Write
  rw [if_neg (by omega)]
  dsimp only
  generalize BitVec.ofNat 64 (p.length * 8) = D at hD
  have hmod : D % 8#64 = 0#64 := by
    apply BitVec.eq_of_toNat_eq
    rw [BitVec.toNat_umod, hD]
    show 8 * _ % 8 = 0
    omega
  have hmod2 : k.hashState.bitsInQueue % 8#32 = 0#32 := by
    apply BitVec.eq_of_toNat_eq
    rw [BitVec.toNat_umod, hR.bits]
    show 8 * _ % 8 = 0
    omega
  obtain ⟨pb, hpb, he⟩ := body_queue_eq hR hD (show (0#64 : U64).toNat = 8 * 0 from rfl) (Nat.zero_le _) (Or.inl (by omega))
  have hc : chunk (8 * n) (tailOf (8 * n) m).length (p.length - 0) = p.length % 2 ^ 29 := by
    unfold chunk
    rw [Nat.sub_zero, htl, if_neg]
    have : (p.length % 2 ^ 29 + m.length % (8 * n)) % 2 ^ 29 = p.length % 2 ^ 29 + m.length % (8 * n) - 2 ^ 29 := by omega
    omega
  rw [hc] at he
  unfold Update Absorb
  rw [if_pos hmod, if_neg (by rw [hmod2]; simp), hR.open_, if_neg (by simp)]
  have hloop : absorbLoop (D.toNat + 1) p D k.hashState 0#64 = .error .unsafeOOB := by
    unfold absorbLoop
    rw [Go.while_, cond_true hD (show (0#64 : U64).toNat = 8 * 0 from rfl) (by omega), if_pos rfl, he]
    unfold memcpy
    rw [if_neg (by rw [hR.qlen]; omega)]
    rfl
  rw [hloop]
  rfl

theorem stuck {data : List U8} {D i : U64} {n : Nat} : ∀ (fuel : Nat) (s : Sponge) (A : State) (t : List U8) (j : Nat), Rep s n A t → D.toNat = 8 * data.length → i.toNat = 8 * j → j < data.length →
    t.length ≠ 0 → (data.length - j) % 2 ^ 29 = 0 → absorbLoop fuel data D s i = .error .diverge := by
  intro fuel
  induction fuel with
  | zero =>
    intro s A t j R hD hi hj ht h
    unfold absorbLoop
    rw [Go.while_, cond_true hD hi hj, if_pos rfl]
  | succ f ih =>
    intro s A t j R hD hi hj ht h
    have hle := R.le
    have hlt := R.lt
    have hk : chunk (8 * n) t.length (data.length - j) = 0 := by
      unfold chunk
      rw [h, Nat.zero_add, Nat.mod_eq_of_lt (by omega), if_neg (by omega)]
    obtain ⟨s', i', e1, e2, e3, e4⟩ := body_partial R hD hi (by omega) (Or.inl ht) hk (by omega) (by omega)
    have hii : i' = i := by
      apply BitVec.eq_of_toNat_eq
      rw [e2, hi]; omega
    subst hii
    rw [loop_step hD hi hj f e1]
    rw [List.take_zero, List.append_nil] at e3
    exact ih s' A t j e3 hD hi hj ht h

/-- The loop of `Absorb` never ends, however long it runs. -/
theorem write_stuck {k : Keccak} {n size : Nat} {m : List U8} (h : Inv k n size m) (p : List U8) (hN : p.length < 2 ^ 61) (hq : 0 < m.length % (8 * n)) (hbig : 2 ^ 29 ≤ p.length)
    (hlow : p.length % 2 ^ 29 + m.length % (8 * n) < 8 * n) :
    (∀ fuel, absorbLoop fuel p (BitVec.ofNat 64 (p.length * 8)) k.hashState 0#64 = .error .diverge) ∧ k.Write p = .error .diverge := by
  have hpos : 0 < 8 * n := by have := h.rep.pos; omega
  have hle := h.rep.le
  have hD : (BitVec.ofNat 64 (p.length * 8)).toNat = 8 * p.length := by rw [BitVec.toNat_ofNat, Nat.mod_eq_of_lt (by omega), Nat.mul_comm]
  have hR := h.rep
  have htl : (tailOf (8 * n) m).length = m.length % (8 * n) := tailOf_length _ _
  have hmd := Nat.div_add_mod p.length (2 ^ 29)
  have hml := Nat.mod_lt p.length (show 2 ^ 29 > 0 by decide)
  have hmm : (p.length - p.length % 2 ^ 29) % 2 ^ 29 = 0 := by
    have : p.length - p.length % 2 ^ 29 = 2 ^ 29 * (p.length / 2 ^ 29) := by omega
    rw [this, Nat.mul_mod_right]
  have key : ∀ fuel, absorbLoop fuel p (BitVec.ofNat 64 (p.length * 8)) k.hashState 0#64 = .error .diverge := by
    intro fuel
    generalize BitVec.ofNat 64 (p.length * 8) = D at hD
    have hi : (0#64 : U64).toNat = 8 * 0 := rfl
    cases fuel with
    | zero =>
      unfold absorbLoop
      rw [Go.while_, cond_true hD hi (by omega), if_pos rfl]
    | succ f =>
      have hk : chunk (8 * n) (tailOf (8 * n) m).length (p.length - 0) = p.length % 2 ^ 29 := by
        unfold chunk
        rw [Nat.sub_zero, htl, Nat.mod_eq_of_lt (by omega), if_neg (by omega)]
      obtain ⟨s', i', e1, e2, e3, e4⟩ := body_partial hR hD hi (by omega) (Or.inl (by omega)) hk (by omega) (by omega)
      rw [loop_step hD hi (by omega) f e1]
      rw [Nat.zero_add] at e2
      refine stuck f s' _ _ _ e3 hD e2 (by omega) ?_ hmm
      rw [List.length_append]; omega
  refine ⟨key, ?_⟩
  have hmod : BitVec.ofNat 64 (p.length * 8) % 8#64 = 0#64 := by
    apply BitVec.eq_of_toNat_eq
    rw [BitVec.toNat_umod, hD]
    show 8 * _ % 8 = 0
    omega
  have hmod2 : k.hashState.bitsInQueue % 8#32 = 0#32 := by
    apply BitVec.eq_of_toNat_eq
    rw [BitVec.toNat_umod, hR.bits]
    show 8 * _ % 8 = 0
    omega
  unfold Keccak.Write
  rw [if_neg (by omega)]
  dsimp only
  unfold Update Absorb
  rw [if_pos hmod, if_neg (by rw [hmod2]; simp), hR.open_, if_neg (by simp), key]
  rfl

end Verif.Lemmas.KeccakC
