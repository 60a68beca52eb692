import Verif.Lemmas.KeccakCHash
import Verif.Spec.KeccakBits

/-! The C sponge on bit strings: absorbing. -/

namespace Verif.Lemmas.KeccakC
open Verif Verif.Model.KeccakC
open Verif.Spec.Keccak (State keccakf xorInto bytes pad sponge squeeze)
open Verif.Lemmas.Keccak (bytes_length)

/-- As `Rep`, with `k` further bits, those of `v`, waiting in an incomplete byte. -/
structure RepB (s : Sponge) (n : Nat) (A : State) (t : List U8) (k : Nat) (v : U8) : Prop where
  rate : s.rate.toNat = 64 * n
  pos : 0 < n
  le : n ≤ 24
  small : k < 8
  bits : s.bitsInQueue.toNat = 8 * t.length + k
  lt : t.length < 8 * n
  qlen : s.dataQueue.length = 192
  queue : s.dataQueue.take t.length = t
  part : k ≠ 0 → s.dataQueue[t.length]? = some v
  len : s.state.length = 25
  state : lanesC s.state = A
  open_ : s.squeezing = false

theorem RepB.rep {s : Sponge} {n : Nat} {A : State} {t : List U8} {v : U8} (R : RepB s n A t 0 v) : Rep s n A t :=
  ⟨R.rate, R.pos, R.le, R.bits, R.lt, R.qlen, R.queue, R.len, R.state, R.open_⟩

theorem Rep.repB {s : Sponge} {n : Nat} {A : State} {t : List U8} (R : Rep s n A t) (v : U8) : RepB s n A t 0 v :=
  ⟨R.rate, R.pos, R.le, by decide, R.bits, R.lt, R.qlen, R.queue, fun h => absurd rfl h, R.len, R.state, R.open_⟩

variable {s : Sponge} {n : Nat} {A : State} {t : List U8} {data : List U8} {D i : U64} {N j k : Nat}

theorem subk (hD : D.toNat = 8 * N + k) (hi : i.toNat = 8 * j) (h : j ≤ N) : (D - i).toNat = 8 * (N - j) + k := by
  rw [BitVec.toNat_sub_of_le (by rw [BitVec.le_def]; omega), hD, hi]
  omega

/-- The whole blocks. -/
theorem bbody_blocks (R : Rep s n A []) (hk : k < 8) (hD : D.toNat = 8 * N + k) (hN : N ≤ data.length)
    (hi : i.toNat = 8 * j) (hj : j + 8 * n ≤ N) :
    ∃ s' i', absorbBody data D (s, i) = .ok (s', i') ∧ i'.toNat = 8 * (j + (N - j) / (8 * n) * (8 * n)) ∧
      Rep s' n ((blocks (8 * n) ((data.take N).drop j)).foldl stepC A) [] ∧ s'.fixedOutputLength = s.fixedOutputLength := by
  have hpos := R.pos
  have hle := R.le
  have hr := R.rate
  have hb : s.bitsInQueue = 0#32 := by
    apply BitVec.eq_of_toNat_eq
    rw [R.bits]; rfl
  have hur : (u64 s.rate).toNat = 8 * (8 * n) := by rw [u64_toNat, hr]; omega
  have h1 : D ≥ u64 s.rate := by show u64 s.rate ≤ D; rw [BitVec.le_def, hur, hD]; omega
  have h2 : i ≤ D - u64 s.rate := by rw [BitVec.le_def, subk hD hur (by omega), hi]; omega
  have hw : ((D - i) / u64 s.rate).toNat = (N - j) / (8 * n) := by
    rw [BitVec.toNat_udiv, subk hD hi (by omega), hur, ← Nat.div_div_eq_div_mul, show (8 * (N - j) + k) / 8 = N - j by omega]
  have hm : (N - j) / (8 * n) * (8 * n) ≤ N - j := Nat.div_mul_le_self _ _
  have hmul : ((D - i) / u64 s.rate * u64 s.rate).toNat = 8 * ((N - j) / (8 * n) * (8 * n)) := by
    have hlt := D.isLt
    rw [BitVec.toNat_mul, hw, hur, Nat.mul_left_comm, Nat.mod_eq_of_lt (by omega)]
  obtain ⟨st, e1, e2, e3⟩ := blocks_loop hr hle data ((N - j) / (8 * n)) j 0 s.state R.len (by omega)
  refine ⟨{ s with state := st }, _, ?_, add8 hi hmul (show j + _ ≤ N by omega) (by have := D.isLt; omega), ?_, rfl⟩
  · unfold absorbBody
    dsimp only
    rw [if_pos ⟨hb, h1, h2⟩, div8 hi, hw, e1, Go.bind_ok, Go.pure_ok]
  · refine ⟨hr, hpos, hle, R.bits, R.lt, R.qlen, R.queue, e2, ?_, R.open_⟩
    show lanesC st = _
    rw [e3, R.state]
    congr 1
    rw [← blocks_eq_map]
    rw [List.length_take, Nat.min_eq_left hN]
    apply List.map_congr_left
    intro x hx
    rw [List.mem_range] at hx
    have hx1 : (x + 1) * (8 * n) ≤ (N - j) / (8 * n) * (8 * n) := Nat.mul_le_mul_right _ hx
    rw [Nat.succ_mul] at hx1
    rw [List.drop_take, List.take_take, Nat.min_eq_left]
    rw [Nat.zero_add]
    omega

theorem bcond_false (R : Rep s n A t) (hk : k < 8) (hD : D.toNat = 8 * N + k) (hi : i.toNat = 8 * j) (hv : viaQueue (8 * n) t.length N j) :
    ¬ (s.bitsInQueue = 0#32 ∧ D ≥ u64 s.rate ∧ i ≤ D - u64 s.rate) := by
  rintro ⟨a, b, c⟩
  have hb := R.bits
  rw [a] at hb
  have hb : 0 = 8 * t.length := hb
  have hur : (u64 s.rate).toNat = 8 * (8 * n) := by rw [u64_toNat, R.rate]; omega
  have b : u64 s.rate ≤ D := b
  rw [BitVec.le_def, hur, hD] at b
  rw [BitVec.le_def, subk hD hur (by omega), hi] at c
  unfold viaQueue at hv
  omega

/-- The number of bits that go through the queue: a whole number of bytes if the queue is filled, everything if it is not. -/
theorem bchunk {q rest : Nat} {x : U64} (hk : k < 8) (hr : s.rate.toNat = 64 * n) (hn : n ≤ 24) (hb : s.bitsInQueue.toNat = 8 * q) (hq : q < 8 * n) (hx : x.toNat = 8 * rest + k) :
    (8 * n ≤ rest % 2 ^ 29 + q → rest % 2 ^ 29 + q < 2 ^ 29 →
      (if x.setWidth 32 + s.bitsInQueue > s.rate then s.rate - s.bitsInQueue else x.setWidth 32 : U32).toNat = 8 * (8 * n - q)) ∧
    (rest + q < 8 * n → (if x.setWidth 32 + s.bitsInQueue > s.rate then s.rate - s.bitsInQueue else x.setWidth 32 : U32).toNat = 8 * rest + k) := by
  have h1 : (x.setWidth 32).toNat = 8 * (rest % 2 ^ 29) + k := by
    rw [BitVec.toNat_setWidth, hx]
    omega
  have h3 : (s.rate - s.bitsInQueue).toNat = 8 * (8 * n - q) := by
    rw [BitVec.toNat_sub_of_le (by rw [BitVec.le_def]; omega), hr, hb]; omega
  have h4 : (x.setWidth 32 + s.bitsInQueue > s.rate) ↔ (64 * n < (8 * (rest % 2 ^ 29) + k + 8 * q) % 2 ^ 32) := by
    show s.rate < _ ↔ _
    rw [BitVec.lt_def, BitVec.toNat_add, h1, hb, hr]
  refine ⟨fun a b => ?_, fun a => ?_⟩
  · split
    · rename_i h
      exact h3
    · rename_i h
      rw [h4] at h
      rw [h1]
      omega
  · rw [if_neg (fun c => ?_), h1]
    · omega
    · have c := h4.1 c
      omega

/-- A round through the queue that fills it. -/
theorem bbody_full (R : Rep s n A t) (hk : k < 8) (hD : D.toNat = 8 * N + k) (hN : N ≤ data.length)
    (hi : i.toNat = 8 * j) (hj : j ≤ N) (hv : viaQueue (8 * n) t.length N j) (h1 : 8 * n ≤ (N - j) % 2 ^ 29 + t.length) (h2 : (N - j) % 2 ^ 29 + t.length < 2 ^ 29) :
    ∃ s' i', absorbBody data D (s, i) = .ok (s', i') ∧ i'.toNat = 8 * (j + (8 * n - t.length)) ∧ Rep s' n (stepC A (t ++ ((data.take N).drop j).take (8 * n - t.length))) [] ∧
      s'.fixedOutputLength = s.fixedOutputLength := by
  have hle := R.le
  have hlt := R.lt
  have hmle : (N - j) % 2 ^ 29 ≤ N - j := Nat.mod_le _ _
  have hx := subk hD hi hj
  have hc := (bchunk hk R.rate R.le R.bits R.lt hx).1 h1 h2
  have hcut : ((data.take N).drop j).take (8 * n - t.length) = (data.drop j).take (8 * n - t.length) := by
    rw [List.drop_take, List.take_take, Nat.min_eq_left (by omega)]
  rw [hcut]
  obtain ⟨q, e1, e2, e3⟩ := take_memcpy (dst := s.dataQueue) (src := data) (d := t.length) (o := j) (k := 8 * n - t.length) (by rw [R.qlen]; omega) (by omega)
  rw [show t.length + (8 * n - t.length) = 8 * n by omega, R.queue] at e3
  unfold absorbBody
  dsimp only
  rw [if_neg (bcond_false R hk hD hi hv)]
  generalize (if (D - i).setWidth 32 + s.bitsInQueue > s.rate then s.rate - s.bitsInQueue else (D - i).setWidth 32 : U32) = pb at hc
  have h0 : pb % 8#32 = 0#32 := by
    apply BitVec.eq_of_toNat_eq
    rw [BitVec.toNat_umod, hc]
    show 8 * _ % 8 = 0
    omega
  have hbits : (s.bitsInQueue + pb).toNat = 64 * n := by
    rw [BitVec.toNat_add, R.bits, hc, Nat.mod_eq_of_lt (by omega)]; omega
  rw [h0, BitVec.sub_zero, div8' R.bits, div8 hi, div8' hc, e1, Go.bind_ok]
  obtain ⟨st, f1, f2, f3⟩ := queue_ok (s := { s with dataQueue := q, bitsInQueue := s.bitsInQueue + pb }) (A := A) R.rate hle (by rw [← R.qlen]; exact e2) e3 R.len R.state
  refine ⟨{ s with dataQueue := q, bitsInQueue := 0#32, state := st }, i + u64 pb, ?_, ?_, ?_, rfl⟩
  · rw [if_pos, f1, Go.bind_ok, if_neg (by decide), Go.pure_ok]
    apply BitVec.eq_of_toNat_eq
    rw [hbits, R.rate]
  · exact add8 hi (by rw [u64_toNat, hc]) (show j + (8 * n - t.length) ≤ N by omega) (by have := D.isLt; omega)
  · exact ⟨R.rate, R.pos, hle, rfl, by show 0 < _; omega, by rw [← R.qlen]; exact e2, rfl, f2, f3, R.open_⟩

/-- A round through the queue that does not fill it is the last. -/
theorem bbody_last (R : Rep s n A t) (hk : k < 8) (hD : D.toNat = 8 * N + k) (hN : 8 * N + k ≤ 8 * data.length)
    (hi : i.toNat = 8 * j) (hj : j ≤ N) (hv : viaQueue (8 * n) t.length N j) (h : N - j + t.length < 8 * n) :
    ∃ s', absorbBody data D (s, i) = .ok (s', D) ∧ RepB s' n A (t ++ (data.take N).drop j) k (data.getD N 0#8 &&& ((1#8 <<< k) - 1#8)) ∧ s'.fixedOutputLength = s.fixedOutputLength := by
  have hle := R.le
  have hlt := R.lt
  have hx := subk hD hi hj
  have hc := (bchunk hk R.rate R.le R.bits R.lt hx).2 h
  have hcut : (data.take N).drop j = (data.drop j).take (N - j) := by rw [List.drop_take]
  rw [hcut]
  obtain ⟨q, e1, e2, e3⟩ := take_memcpy (dst := s.dataQueue) (src := data) (d := t.length) (o := j) (k := N - j) (by rw [R.qlen]; omega) (by omega)
  unfold absorbBody
  dsimp only
  rw [if_neg (bcond_false R hk hD hi hv)]
  generalize (if (D - i).setWidth 32 + s.bitsInQueue > s.rate then s.rate - s.bitsInQueue else (D - i).setWidth 32 : U32) = pb at hc
  have h0 : (pb % 8#32).toNat = k := by
    rw [BitVec.toNat_umod, hc]
    show (8 * (N - j) + k) % 8 = k
    omega
  have hp : (pb - pb % 8#32).toNat = 8 * (N - j) := by
    rw [BitVec.toNat_sub_of_le (by rw [BitVec.le_def, h0, hc]; omega), hc, h0]; omega
  generalize pb % 8#32 = pk at h0 hp
  generalize pb - pk = pw at hp
  have hbits : (s.bitsInQueue + pw).toNat = 8 * (t.length + (N - j)) := by
    rw [BitVec.toNat_add, R.bits, hp, Nat.mod_eq_of_lt (by omega)]; omega
  have hi' : (i + u64 pw).toNat = 8 * N := by
    have := add8 hi (show (u64 pw).toNat = 8 * (N - j) by rw [u64_toNat, hp]) (show j + (N - j) ≤ N by omega) (by have := D.isLt; omega)
    rw [this]; omega
  have hlen : (t ++ (data.drop j).take (N - j)).length = t.length + (N - j) := by
    rw [List.length_append, List.length_take, List.length_drop]; omega
  have hne : ¬ (s.bitsInQueue + pw = s.rate) := by
    intro c
    have := congrArg BitVec.toNat c
    rw [hbits, R.rate] at this
    omega
  rw [div8' R.bits, div8 hi, div8' hp, e1, Go.bind_ok, if_neg hne, Go.pure_ok, Go.bind_ok]
  by_cases hk0 : k = 0
  · subst hk0
    have hpk : pk = 0#32 := BitVec.eq_of_toNat_eq h0
    have hDi : i + u64 pw = D := by
      apply BitVec.eq_of_toNat_eq
      rw [hi', hD, Nat.add_zero]
    refine ⟨{ s with dataQueue := q, bitsInQueue := s.bitsInQueue + pw }, ?_, ?_, rfl⟩
    · rw [hpk, if_neg (by decide), Go.pure_ok, hDi]
    · refine Rep.repB (s := { s with dataQueue := q, bitsInQueue := s.bitsInQueue + pw }) ⟨R.rate, R.pos, hle, by rw [hlen]; exact hbits, by rw [hlen]; omega, by rw [← R.qlen]; exact e2, ?_, R.len, R.state, R.open_⟩ _
      show q.take _ = _
      rw [hlen, e3, R.queue]
  · have hpk : pk > 0#32 := by
      show 0#32 < pk
      rw [BitVec.lt_def, h0]
      show 0 < k
      omega
    have hNl : N < data.length := by omega
    have hDi : i + u64 pw + u64 pk = D := by
      apply BitVec.eq_of_toNat_eq
      have := D.isLt
      rw [BitVec.toNat_add, hi', u64_toNat, h0, hD, Nat.mod_eq_of_lt (by omega)]
    have hql : q.length = 192 := by rw [e2, R.qlen]
    have hl1 : load data N = .ok (data.getD N 0#8) := by
      unfold load
      rw [List.getD_eq_getElem?_getD, List.getElem?_eq_getElem hNl]
      rfl
    have hl2 : ∃ x, load q (t.length + (N - j)) = .ok x := by
      unfold load
      rw [List.getElem?_eq_getElem (by omega)]
      exact ⟨_, rfl⟩
    obtain ⟨x, hl2⟩ := hl2
    refine ⟨{ s with dataQueue := q.set (t.length + (N - j)) (data.getD N 0#8 &&& ((1#8 <<< k) - 1#8)), bitsInQueue := s.bitsInQueue + pw + pk }, ?_, ?_, rfl⟩
    · rw [if_pos hpk, div8 hi', hl1, Go.bind_ok]
      dsimp only
      rw [div8' hbits, hl2, Go.bind_ok, Go.pure_ok, h0, hDi]
    · refine ⟨R.rate, R.pos, hle, hk, ?_, by rw [hlen]; omega, ?_, ?_, fun _ => ?_, R.len, R.state, R.open_⟩
      · show (s.bitsInQueue + pw + pk).toNat = _
        rw [BitVec.toNat_add, hbits, h0, hlen, Nat.mod_eq_of_lt (by omega)]
      · show (q.set _ _).length = 192
        rw [List.length_set, hql]
      · show (q.set _ _).take _ = _
        rw [hlen, List.take_set_of_le (by omega), e3, R.queue]
      · show (q.set _ _)[_]? = _
        rw [hlen, List.getElem?_set_self (by omega)]

theorem bloop_done {fuel : Nat} (s : Sponge) (data : List U8) (D : U64) : absorbLoop fuel data D s D = .ok (s, D) := by
  unfold absorbLoop
  cases fuel with
  | zero => rw [Go.while_, if_neg (by simp)]
  | succ f => rw [Go.while_, if_neg (by simp)]

theorem bloop_step {i' : U64} {s' : Sponge} {fuel : Nat} (h : i.toNat < D.toNat) (hb : absorbBody data D (s, i) = .ok (s', i')) :
    absorbLoop (fuel + 1) data D s i = absorbLoop fuel data D s' i' := by
  unfold absorbLoop
  rw [Go.while_, if_pos (by simp only [decide_eq_true_eq, BitVec.lt_def]; exact h), hb]
  rfl

/-- From an empty queue, less than a block to go. -/
theorem bloop_tail (R : Rep s n A []) (hk : k < 8) (hD : D.toNat = 8 * N + k) (hN : 8 * N + k ≤ 8 * data.length)
    (hi : i.toNat = 8 * j) (hj : N < j + 8 * n) (hj2 : j ≤ N) (fuel : Nat) :
    ∃ s' i', absorbLoop (fuel + 1) data D s i = .ok (s', i') ∧ RepB s' n A ((data.take N).drop j) k (data.getD N 0#8 &&& ((1#8 <<< k) - 1#8)) ∧ s'.fixedOutputLength = s.fixedOutputLength := by
  by_cases h : i.toNat < D.toNat
  · obtain ⟨s', e1, e2, e3⟩ := bbody_last R hk hD hN hi hj2 (Or.inr hj) (by simp; omega)
    exact ⟨s', D, by rw [bloop_step h e1, bloop_done], e2, e3⟩
  · have hjN : j = N := by omega
    have hk0 : k = 0 := by omega
    subst hk0
    have hiD : i = D := BitVec.eq_of_toNat_eq (by omega)
    subst hiD
    refine ⟨s, i, bloop_done _ _ _, ?_, rfl⟩
    rw [List.drop_of_length_le (by rw [List.length_take]; omega)]
    exact R.repB _

theorem bloop_empty (R : Rep s n A []) (hk : k < 8) (hD : D.toNat = 8 * N + k) (hN : 8 * N + k ≤ 8 * data.length) (hi : i.toNat = 8 * j) (hj : j ≤ N) (fuel : Nat) :
    ∃ s' i', absorbLoop (fuel + 2) data D s i = .ok (s', i') ∧
      RepB s' n ((blocks (8 * n) ((data.take N).drop j)).foldl stepC A) (tailOf (8 * n) ((data.take N).drop j)) k (data.getD N 0#8 &&& ((1#8 <<< k) - 1#8)) ∧
      s'.fixedOutputLength = s.fixedOutputLength := by
  have hpos := R.pos
  have hNl : (data.take N).length = N := by rw [List.length_take]; omega
  by_cases h : j + 8 * n ≤ N
  · obtain ⟨s1, i1, e1, e2, e3, e4⟩ := bbody_blocks (data := data) R hk hD (by omega) hi h
    have hm := Nat.div_add_mod' (N - j) (8 * n)
    have hl := Nat.mod_lt (N - j) (show 8 * n > 0 by omega)
    obtain ⟨s2, i2, f1, f2, f3⟩ := bloop_tail e3 hk hD hN e2 (by omega) (by omega) fuel
    refine ⟨s2, i2, ?_, ?_, by rw [f3, e4]⟩
    · rw [bloop_step (by omega) e1, f1]
    · have ht : tailOf (8 * n) ((data.take N).drop j) = (data.take N).drop (j + (N - j) / (8 * n) * (8 * n)) := by
        unfold tailOf
        rw [List.drop_drop, List.length_drop, hNl]
      rw [ht]
      exact f2
  · obtain ⟨s2, i2, f1, f2, f3⟩ := bloop_tail R hk hD hN hi (by omega) hj (fuel + 1)
    refine ⟨s2, i2, f1, ?_, f3⟩
    rw [blocks_of_lt (by rw [List.length_drop, hNl]; omega), tailOf_of_lt (by rw [List.length_drop, hNl]; omega)]
    exact f2

/-- `Absorb` of `8 N + k` bits. -/
theorem absorb_bits (R : Rep s n A t) (hk : k < 8) (hD : D.toNat = 8 * N + k) (hN : 8 * N + k ≤ 8 * data.length) (hf : Fits (8 * n) t.length N) :
    ∃ s', Absorb s data D = .ok (s', 0) ∧
      RepB s' n ((blocks (8 * n) (t ++ data.take N)).foldl stepC A) (tailOf (8 * n) (t ++ data.take N)) k (data.getD N 0#8 &&& ((1#8 <<< k) - 1#8)) ∧
      s'.fixedOutputLength = s.fixedOutputLength := by
  have hpos := R.pos
  have hle := R.le
  have hi : (0#64 : U64).toNat = 8 * 0 := rfl
  have hmod : s.bitsInQueue % 8#32 = 0#32 := by
    apply BitVec.eq_of_toNat_eq
    rw [BitVec.toNat_umod, R.bits]
    show 8 * _ % 8 = 0
    omega
  have hNl : (data.take N).length = N := by rw [List.length_take]; omega
  suffices h : ∃ s' i', absorbLoop (D.toNat + 1) data D s 0#64 = .ok (s', i') ∧
      RepB s' n ((blocks (8 * n) (t ++ data.take N)).foldl stepC A) (tailOf (8 * n) (t ++ data.take N)) k (data.getD N 0#8 &&& ((1#8 <<< k) - 1#8)) ∧
      s'.fixedOutputLength = s.fixedOutputLength by
    obtain ⟨s', i', h1, h2, h3⟩ := h
    refine ⟨s', ?_, h2, h3⟩
    unfold Absorb
    rw [if_neg (by rw [hmod]; simp), R.open_, if_neg (by simp), h1, Go.bind_ok]
    rfl
  by_cases h0 : D.toNat = 0
  · have hN0 : N = 0 := by omega
    have hk0 : k = 0 := by omega
    subst hN0 hk0
    have hD0 : D = 0#64 := BitVec.eq_of_toNat_eq h0
    subst hD0
    refine ⟨s, 0#64, bloop_done _ _ _, ?_, rfl⟩
    rw [List.take_zero, List.append_nil, blocks_of_lt R.lt, tailOf_of_lt R.lt]
    exact R.repB _
  obtain ⟨f, hfu⟩ : ∃ f, D.toNat = f + 1 := ⟨D.toNat - 1, by omega⟩
  rw [hfu]
  by_cases ht : t.length = 0
  · have : t = [] := List.eq_nil_of_length_eq_zero ht
    subst this
    obtain ⟨s', i', e1, e2, e3⟩ := bloop_empty R hk hD hN hi (Nat.zero_le _) f
    rw [List.drop_zero] at e2
    exact ⟨s', i', e1, e2, e3⟩
  have hlt := R.lt
  rcases Nat.lt_or_ge (N + t.length) (8 * n) with hf' | hf'
  · obtain ⟨s', e1, e2, e3⟩ := bbody_last R hk hD hN hi (Nat.zero_le _) (Or.inl ht) (by omega)
    refine ⟨s', D, ?_, ?_, e3⟩
    · rw [bloop_step (by rw [hi]; omega) e1, bloop_done]
    · rw [List.drop_zero] at e2
      rw [blocks_of_lt (by rw [List.length_append, hNl]; omega), tailOf_of_lt (by rw [List.length_append, hNl]; omega)]
      exact e2
  · have hff : 8 * n ≤ N % 2 ^ 29 + t.length ∧ N % 2 ^ 29 + t.length < 2 ^ 29 := by
      rcases hf with hf | hf | hf
      · exact absurd hf ht
      · omega
      · exact hf
    have hmle : N % 2 ^ 29 ≤ N := Nat.mod_le _ _
    obtain ⟨s1, i1, e1, e2, e3, e4⟩ := bbody_full (data := data) R hk hD (by omega) hi (Nat.zero_le _) (Or.inl ht) hff.1 hff.2
    obtain ⟨f', rfl⟩ : ∃ f', f = f' + 1 := ⟨f - 1, by omega⟩
    obtain ⟨s', i', f1, f2, f3⟩ := bloop_empty e3 hk hD hN e2 (by omega) f'
    refine ⟨s', i', ?_, ?_, by rw [f3, e4]⟩
    · rw [bloop_step (by rw [hi]; omega) e1, f1]
    · rw [Nat.zero_add] at f2
      have hm : t ++ data.take N = (t ++ (data.take N).take (8 * n - t.length)) ++ (data.take N).drop (8 * n - t.length) := by rw [List.append_assoc, List.take_append_drop]
      have hlen : (t ++ (data.take N).take (8 * n - t.length)).length = 8 * n := by rw [List.length_append, List.length_take, hNl]; omega
      have hpos8 : 0 < 8 * n := by omega
      have hb1 : blocks (8 * n) (t ++ (data.take N).take (8 * n - t.length)) = [t ++ (data.take N).take (8 * n - t.length)] := by
        rw [blocks_of_le hpos8 (by omega), List.take_of_length_le (by omega), List.drop_of_length_le (by omega), blocks_nil]
      have ht1 : tailOf (8 * n) (t ++ (data.take N).take (8 * n - t.length)) = [] := by
        rw [tailOf_of_le hpos8 (by omega), List.drop_of_length_le (by omega), tailOf_nil]
      rw [hm, blocks_append hpos8, hb1, ht1, tailOf_append hpos8, ht1, List.nil_append, List.foldl_append, List.foldl_cons, List.foldl_nil]
      rw [List.drop_zero] at f2
      exact f2

end Verif.Lemmas.KeccakC
