import Verif.Lemmas.KeccakCBlock
import Verif.Lemmas.Loop

/-! The loops of the C sponge. -/

namespace Verif.Lemmas.KeccakC
open Verif Verif.Model.KeccakC
open Verif.Spec.Keccak (State keccakf xorInto bytes pad sponge)
open Verif.Lemmas.Keccak (padTail padTail_length pad_blocks bytes_length)

/-- One block. -/
def stepC (A : State) (b : List U8) : State := keccakf 24 (xorInto A b)

/-- A C object of rate `8 n` bytes that stands for the state `A` with the bytes `t` waiting in the queue. -/
structure Rep (s : Sponge) (n : Nat) (A : State) (t : List U8) : Prop where
  rate : s.rate.toNat = 64 * n
  pos : 0 < n
  le : n ≤ 24
  bits : s.bitsInQueue.toNat = 8 * t.length
  lt : t.length < 8 * n
  qlen : s.dataQueue.length = 192
  queue : s.dataQueue.take t.length = t
  len : s.state.length = 25
  state : lanesC s.state = A
  open_ : s.squeezing = false

theorem take_memcpy {dst src : List U8} {d o k : Nat} (h1 : d + k ≤ dst.length) (h2 : o + k ≤ src.length) :
    ∃ q, memcpy dst d src o k = .ok q ∧ q.length = dst.length ∧ q.take (d + k) = dst.take d ++ (src.drop o).take k := by
  refine ⟨_, by unfold memcpy; rw [if_pos ⟨h1, h2⟩], ?_, ?_⟩
  · simp only [List.length_append, List.length_take, List.length_drop]; omega
  · rw [List.take_append_of_le_length (by simp only [List.length_append, List.length_take, List.length_drop]; omega), List.take_of_length_le]
    simp only [List.length_append, List.length_take, List.length_drop]; omega

/-- The whole blocks of the input, from byte `o`, straight into the state. -/
theorem blocks_loop {rate : U32} {n : Nat} (hr : rate.toNat = 64 * n) (hn : n ≤ 24) (data : List U8) :
    ∀ (k o lo : Nat) (st : List U64), st.length = 25 → o + lo * (8 * n) + k * (8 * n) ≤ data.length →
    ∃ st', Go.forRange lo k (fun j st => absorbBlock rate st data (o + j * (rate / 8#32).toNat)) st = .ok st' ∧ st'.length = 25 ∧
      lanesC st' = ((List.range k).map fun i => (data.drop (o + (lo + i) * (8 * n))).take (8 * n)).foldl stepC (lanesC st) := by
  have h8 : (rate / 8#32).toNat = 8 * n := by
    rw [BitVec.toNat_udiv, hr]
    show 64 * n / 8 = 8 * n
    omega
  rw [h8]
  intro k
  induction k with
  | zero => intro o lo st hs _; exact ⟨st, rfl, hs, rfl⟩
  | succ k ih =>
    intro o lo st hs h
    have h : o + lo * (8 * n) + (k * (8 * n) + 8 * n) ≤ data.length := by rw [← Nat.succ_mul]; exact h
    obtain ⟨s1, e1, e2, e3⟩ := absorbBlock_ok hr (by omega) st hs data (o + lo * (8 * n)) (by omega)
    obtain ⟨s2, f1, f2, f3⟩ := ih o (lo + 1) s1 e2 (by rw [show (lo + 1) * (8 * n) = lo * (8 * n) + 8 * n from Nat.succ_mul _ _]; omega)
    refine ⟨s2, by rw [Go.forRange, e1]; exact f1, f2, ?_⟩
    rw [f3, e3, List.range_succ_eq_map, List.map_cons, List.foldl_cons, List.map_map]
    have : (fun i => (data.drop (o + (lo + 1 + i) * (8 * n))).take (8 * n)) = (fun i => (data.drop (o + (lo + i) * (8 * n))).take (8 * n)) ∘ Nat.succ := by
      funext i
      simp only [Function.comp]
      rw [show lo + 1 + i = lo + i.succ by omega]
    rw [this]
    rfl

theorem sub8 {D i : U64} {N j : Nat} (hD : D.toNat = 8 * N) (hi : i.toNat = 8 * j) (h : j ≤ N) : (D - i).toNat = 8 * (N - j) := by
  rw [BitVec.toNat_sub_of_le (by rw [BitVec.le_def]; omega), hD, hi]
  omega

theorem add8 {i d : U64} {j k N : Nat} (hi : i.toNat = 8 * j) (hd : d.toNat = 8 * k) (h : j + k ≤ N) (hN : 8 * N < 2 ^ 64) : (i + d).toNat = 8 * (j + k) := by
  rw [BitVec.toNat_add, hi, hd, Nat.mod_eq_of_lt (by omega)]
  omega

theorem u64_toNat (x : U32) : (u64 x).toNat = x.toNat := by
  unfold u64
  rw [BitVec.toNat_setWidth]
  exact Nat.mod_eq_of_lt (Nat.lt_trans x.isLt (by decide))

theorem div8 {i : U64} {j : Nat} (h : i.toNat = 8 * j) : (i / 8#64).toNat = j := by
  rw [BitVec.toNat_udiv, h]
  show 8 * j / 8 = j
  omega

theorem div8' {i : U32} {j : Nat} (h : i.toNat = 8 * j) : (i / 8#32).toNat = j := by
  rw [BitVec.toNat_udiv, h]
  show 8 * j / 8 = j
  omega

theorem blocks_eq_map (r : Nat) (l : List U8) (o : Nat) : (List.range ((l.length - o) / r)).map (fun i => (l.drop (o + (0 + i) * r)).take r) = blocks r (l.drop o) := by
  unfold blocks
  rw [List.length_drop]
  apply List.map_congr_left
  intro i _
  rw [Nat.zero_add, List.drop_drop]

/-- With nothing in the queue and at least a block to go, the loop absorbs the whole blocks. -/
theorem body_blocks {s : Sponge} {n : Nat} {A : State} (R : Rep s n A []) {data : List U8} {D i : U64} {j : Nat} (hD : D.toNat = 8 * data.length)
    (hi : i.toNat = 8 * j) (hj : j + 8 * n ≤ data.length) :
    ∃ s' i', absorbBody data D (s, i) = .ok (s', i') ∧ i'.toNat = 8 * (j + (data.length - j) / (8 * n) * (8 * n)) ∧
      Rep s' n ((blocks (8 * n) (data.drop j)).foldl stepC A) [] ∧ s'.fixedOutputLength = s.fixedOutputLength := by
  have hpos := R.pos
  have hle := R.le
  have hr := R.rate
  have hb : s.bitsInQueue = 0#32 := by
    apply BitVec.eq_of_toNat_eq
    rw [R.bits]; rfl
  have hur : (u64 s.rate).toNat = 8 * (8 * n) := by rw [u64_toNat, hr]; omega
  have h1 : D ≥ u64 s.rate := by show u64 s.rate ≤ D; rw [BitVec.le_def, hur, hD]; omega
  have h2 : i ≤ D - u64 s.rate := by rw [BitVec.le_def, sub8 hD hur (by omega), hi]; omega
  have hw : ((D - i) / u64 s.rate).toNat = (data.length - j) / (8 * n) := by
    rw [BitVec.toNat_udiv, sub8 hD hi (by omega), hur, Nat.mul_div_mul_left _ _ (by decide)]
  have hm : (data.length - j) / (8 * n) * (8 * n) ≤ data.length - j := Nat.div_mul_le_self _ _
  have hmul : ((D - i) / u64 s.rate * u64 s.rate).toNat = 8 * ((data.length - j) / (8 * n) * (8 * n)) := by
    have hlt := D.isLt
    rw [BitVec.toNat_mul, hw, hur, Nat.mul_left_comm, Nat.mod_eq_of_lt (by omega)]
  obtain ⟨st, e1, e2, e3⟩ := blocks_loop hr hle data ((data.length - j) / (8 * n)) j 0 s.state R.len (by omega)
  refine ⟨{ s with state := st }, _, ?_, add8 hi hmul (show j + _ ≤ data.length by omega) (by rw [← hD]; exact D.isLt), ?_, rfl⟩
  · unfold absorbBody
    dsimp only
    rw [if_pos ⟨hb, h1, h2⟩, div8 hi, hw, e1, Go.bind_ok, Go.pure_ok]
  · refine ⟨hr, hpos, hle, R.bits, R.lt, R.qlen, R.queue, e2, ?_, R.open_⟩
    show lanesC st = _
    rw [e3, blocks_eq_map, R.state]

/-- `AbsorbQueue` on a queue whose first block is `b`. -/
theorem queue_ok {s : Sponge} {n : Nat} {A : State} {b : List U8} (hr : s.rate.toNat = 64 * n) (hn : n ≤ 24) (hq : s.dataQueue.length = 192) (hb : s.dataQueue.take (8 * n) = b)
    (hl : s.state.length = 25) (hs : lanesC s.state = A) :
    ∃ st, AbsorbQueue s = .ok { s with state := st, bitsInQueue := 0#32 } ∧ st.length = 25 ∧ lanesC st = stepC A b := by
  obtain ⟨st, e1, e2, e3⟩ := absorbBlock_ok hr (by omega) s.state hl s.dataQueue 0 (by omega)
  refine ⟨st, ?_, e2, ?_⟩
  · unfold AbsorbQueue
    rw [e1, Go.bind_ok, Go.pure_ok]
  · rw [e3, List.drop_zero, hb, hs]; rfl

/-- How many bytes a round through the queue moves: the machine integers of the code, as numbers. -/
def chunk (r q rest : Nat) : Nat := if (rest % 2 ^ 29 + q) % 2 ^ 29 > r then r - q else rest % 2 ^ 29

theorem chunk_bits {s : Sponge} {n q : Nat} {x : U64} {rest : Nat} (hr : s.rate.toNat = 64 * n) (hb : s.bitsInQueue.toNat = 8 * q) (hq : q < 8 * n) (hx : x.toNat = 8 * rest) :
    (if x.setWidth 32 + s.bitsInQueue > s.rate then s.rate - s.bitsInQueue else x.setWidth 32 : U32).toNat = 8 * chunk (8 * n) q rest := by
  have h1 : (x.setWidth 32).toNat = 8 * (rest % 2 ^ 29) := by
    rw [BitVec.toNat_setWidth, hx, show 2 ^ 32 = 8 * 2 ^ 29 from rfl, Nat.mul_mod_mul_left]
  have h2 : (x.setWidth 32 + s.bitsInQueue).toNat = 8 * ((rest % 2 ^ 29 + q) % 2 ^ 29) := by
    rw [BitVec.toNat_add, h1, hb, ← Nat.mul_add, show 2 ^ 32 = 8 * 2 ^ 29 from rfl, Nat.mul_mod_mul_left]
  have h3 : (s.rate - s.bitsInQueue).toNat = 8 * (8 * n - q) := by
    rw [BitVec.toNat_sub_of_le (by rw [BitVec.le_def]; omega), hr, hb]; omega
  have h4 : (x.setWidth 32 + s.bitsInQueue > s.rate) ↔ ((rest % 2 ^ 29 + q) % 2 ^ 29 > 8 * n) := by
    show s.rate < _ ↔ _
    rw [BitVec.lt_def, h2, hr]; omega
  unfold chunk
  by_cases h : (rest % 2 ^ 29 + q) % 2 ^ 29 > 8 * n
  · rw [if_pos (h4.2 h), if_pos h, h3]
  · rw [if_neg (fun c => h (h4.1 c)), if_neg h, h1]

/-- When the loop goes through the queue. -/
def viaQueue (r q N j : Nat) : Prop := q ≠ 0 ∨ N < j + r

theorem cond_false {s : Sponge} {n : Nat} {A : State} {t : List U8} (R : Rep s n A t) {D i : U64} {N j : Nat} (hD : D.toNat = 8 * N) (hi : i.toNat = 8 * j) (hv : viaQueue (8 * n) t.length N j) :
    ¬ (s.bitsInQueue = 0#32 ∧ D ≥ u64 s.rate ∧ i ≤ D - u64 s.rate) := by
  rintro ⟨a, b, c⟩
  have hb := R.bits
  rw [a] at hb
  have hb : 0 = 8 * t.length := hb
  have hur : (u64 s.rate).toNat = 8 * (8 * n) := by rw [u64_toNat, R.rate]; omega
  have b : u64 s.rate ≤ D := b
  rw [BitVec.le_def, hur, hD] at b
  rw [BitVec.le_def, sub8 hD hur (by omega), hi] at c
  unfold viaQueue at hv
  omega

/-- The part of the body that goes through the queue, up to the copy. -/
theorem body_queue_eq {s : Sponge} {n : Nat} {A : State} {t : List U8} (R : Rep s n A t) {data : List U8} {D i : U64} {j : Nat} (hD : D.toNat = 8 * data.length)
    (hi : i.toNat = 8 * j) (hj : j ≤ data.length) (hv : viaQueue (8 * n) t.length data.length j) :
    ∃ pb : U32, pb.toNat = 8 * chunk (8 * n) t.length (data.length - j) ∧
    absorbBody data D (s, i) = (do
      let q ← memcpy s.dataQueue t.length data j (chunk (8 * n) t.length (data.length - j))
      let s' : Sponge := { s with dataQueue := q, bitsInQueue := s.bitsInQueue + pb }
      let s' ← if s'.bitsInQueue = s'.rate then AbsorbQueue s' else pure s'
      return (s', i + u64 pb)) := by
  have hx := sub8 hD hi hj
  have hc := chunk_bits R.rate R.bits R.lt hx
  refine ⟨_, hc, ?_⟩
  unfold absorbBody
  dsimp only
  rw [if_neg (cond_false R hD hi hv)]
  generalize (if (D - i).setWidth 32 + s.bitsInQueue > s.rate then s.rate - s.bitsInQueue else (D - i).setWidth 32 : U32) = pb at hc
  have h0 : pb % 8#32 = 0#32 := by
    apply BitVec.eq_of_toNat_eq
    rw [BitVec.toNat_umod, hc]
    show 8 * _ % 8 = 0
    omega
  rw [h0, BitVec.sub_zero, div8' R.bits, div8 hi, div8' hc]
  have hgt : ((0#32 : U32) > 0#32) = False := by decide
  simp only [hgt, if_false]

/-- A round through the queue that does not fill it. -/
theorem body_partial {s : Sponge} {n : Nat} {A : State} {t : List U8} (R : Rep s n A t) {data : List U8} {D i : U64} {j : Nat} (hD : D.toNat = 8 * data.length)
    (hi : i.toNat = 8 * j) (hj : j ≤ data.length) (hv : viaQueue (8 * n) t.length data.length j) {k : Nat} (hk : chunk (8 * n) t.length (data.length - j) = k) (hlt : t.length + k < 8 * n)
    (hkr : j + k ≤ data.length) :
    ∃ s' i', absorbBody data D (s, i) = .ok (s', i') ∧ i'.toNat = 8 * (j + k) ∧ Rep s' n A (t ++ (data.drop j).take k) ∧ s'.fixedOutputLength = s.fixedOutputLength := by
  obtain ⟨pb, hpb, he⟩ := body_queue_eq R hD hi hj hv
  rw [hk] at hpb he
  have hle := R.le
  obtain ⟨q, e1, e2, e3⟩ := take_memcpy (dst := s.dataQueue) (src := data) (d := t.length) (o := j) (k := k) (by rw [R.qlen]; omega) hkr
  have hbits : (s.bitsInQueue + pb).toNat = 8 * (t.length + k) := by
    rw [BitVec.toNat_add, R.bits, hpb, Nat.mod_eq_of_lt (by omega)]; omega
  have hlen : (t ++ (data.drop j).take k).length = t.length + k := by
    rw [List.length_append, List.length_take, List.length_drop]; omega
  refine ⟨{ s with dataQueue := q, bitsInQueue := s.bitsInQueue + pb }, i + u64 pb, ?_, ?_, ?_, rfl⟩
  · rw [he, e1, Go.bind_ok]
    dsimp only
    rw [if_neg, Go.pure_ok, Go.bind_ok, Go.pure_ok]
    intro c
    have := congrArg BitVec.toNat c
    rw [hbits, R.rate] at this
    omega
  · exact add8 hi (by rw [u64_toNat, hpb]) hkr (by rw [← hD]; exact D.isLt)
  · refine ⟨R.rate, R.pos, hle, by rw [hlen]; exact hbits, by rw [hlen]; exact hlt, by rw [← R.qlen]; exact e2, ?_, R.len, R.state, R.open_⟩
    show q.take _ = _
    rw [hlen, e3, R.queue]

/-- A round through the queue that fills it. -/
theorem body_full {s : Sponge} {n : Nat} {A : State} {t : List U8} (R : Rep s n A t) {data : List U8} {D i : U64} {j : Nat} (hD : D.toNat = 8 * data.length)
    (hi : i.toNat = 8 * j) (hj : j ≤ data.length) (hv : viaQueue (8 * n) t.length data.length j) (hk : chunk (8 * n) t.length (data.length - j) = 8 * n - t.length)
    (hkr : j + (8 * n - t.length) ≤ data.length) :
    ∃ s' i', absorbBody data D (s, i) = .ok (s', i') ∧ i'.toNat = 8 * (j + (8 * n - t.length)) ∧ Rep s' n (stepC A (t ++ (data.drop j).take (8 * n - t.length))) [] ∧
      s'.fixedOutputLength = s.fixedOutputLength := by
  obtain ⟨pb, hpb, he⟩ := body_queue_eq R hD hi hj hv
  rw [hk] at hpb he
  have hle := R.le
  have hlt := R.lt
  obtain ⟨q, e1, e2, e3⟩ := take_memcpy (dst := s.dataQueue) (src := data) (d := t.length) (o := j) (k := 8 * n - t.length) (by rw [R.qlen]; omega) hkr
  have hbits : (s.bitsInQueue + pb).toNat = 64 * n := by
    rw [BitVec.toNat_add, R.bits, hpb, Nat.mod_eq_of_lt (by omega)]; omega
  rw [show t.length + (8 * n - t.length) = 8 * n by omega, R.queue] at e3
  obtain ⟨st, f1, f2, f3⟩ := queue_ok (s := { s with dataQueue := q, bitsInQueue := s.bitsInQueue + pb }) (A := A) R.rate hle (by rw [← R.qlen]; exact e2) e3 R.len R.state
  refine ⟨{ s with dataQueue := q, bitsInQueue := 0#32, state := st }, i + u64 pb, ?_, ?_, ?_, rfl⟩
  · rw [he, e1, Go.bind_ok]
    dsimp only
    rw [if_pos, f1, Go.bind_ok, Go.pure_ok]
    apply BitVec.eq_of_toNat_eq
    rw [hbits, R.rate]
  · exact add8 hi (by rw [u64_toNat, hpb]) hkr (by rw [← hD]; exact D.isLt)
  · exact ⟨R.rate, R.pos, hle, rfl, by show 0 < _; omega, by rw [← R.qlen]; exact e2, rfl, f2, f3, R.open_⟩

theorem cond_true {D i : U64} {N j : Nat} (hD : D.toNat = 8 * N) (hi : i.toNat = 8 * j) (h : j < N) (s : Sponge) : decide ((s, i).2 < D) = true := by
  simp only [decide_eq_true_eq, BitVec.lt_def]
  omega

theorem cond_done {D i : U64} {N j : Nat} (hD : D.toNat = 8 * N) (hi : i.toNat = 8 * j) (h : N ≤ j) (s : Sponge) : decide ((s, i).2 < D) = false := by
  simp only [decide_eq_false_iff_not, BitVec.lt_def]
  omega

theorem loop_done {D i : U64} {N j : Nat} (hD : D.toNat = 8 * N) (hi : i.toNat = 8 * j) (h : N ≤ j) (s : Sponge) (data : List U8) (fuel : Nat) : absorbLoop fuel data D s i = .ok (s, i) := by
  unfold absorbLoop
  cases fuel with
  | zero => rw [Go.while_, cond_done hD hi h s]; rfl
  | succ f => rw [Go.while_, cond_done hD hi h s]; rfl

theorem loop_step {D i i' : U64} {N j : Nat} (hD : D.toNat = 8 * N) (hi : i.toNat = 8 * j) (h : j < N) {s s' : Sponge} {data : List U8} (fuel : Nat) (hb : absorbBody data D (s, i) = .ok (s', i')) :
    absorbLoop (fuel + 1) data D s i = absorbLoop fuel data D s' i' := by
  unfold absorbLoop
  rw [Go.while_, cond_true hD hi h s, if_pos rfl, hb]
  rfl

theorem small_chunk {r rest : Nat} (h : rest < r) (hr : r ≤ 192) : chunk r 0 rest = rest := by
  unfold chunk
  have h1 : rest % 2 ^ 29 = rest := Nat.mod_eq_of_lt (by omega)
  rw [Nat.add_zero, h1, h1, if_neg (by omega)]

/-- From an empty queue the rest of the input is absorbed whatever its length. -/
theorem loop_tail {s : Sponge} {n : Nat} {A : State} (R : Rep s n A []) {data : List U8} {D i : U64} {j : Nat} (hD : D.toNat = 8 * data.length)
    (hi : i.toNat = 8 * j) (hj : data.length < j + 8 * n) (hj2 : j ≤ data.length) (fuel : Nat) :
    ∃ s' i', absorbLoop (fuel + 1) data D s i = .ok (s', i') ∧ Rep s' n A (data.drop j) ∧ s'.fixedOutputLength = s.fixedOutputLength := by
  by_cases h : j = data.length
  · refine ⟨s, i, loop_done hD hi (by omega) s data _, ?_, rfl⟩
    rw [List.drop_of_length_le (by omega)]
    exact R
  · have hle := R.le
    obtain ⟨s', i', e1, e2, e3, e4⟩ := body_partial R hD hi hj2 (Or.inr (by simpa using hj)) (k := data.length - j) (small_chunk (by omega) (by omega)) (by simp; omega) (by omega)
    refine ⟨s', i', ?_, ?_, e4⟩
    · rw [loop_step hD hi (by omega) fuel e1, loop_done hD e2 (by omega)]
    · rw [List.nil_append, List.take_of_length_le (by simp)] at e3
      exact e3

theorem loop_empty {s : Sponge} {n : Nat} {A : State} (R : Rep s n A []) {data : List U8} {D i : U64} {j : Nat} (hD : D.toNat = 8 * data.length)
    (hi : i.toNat = 8 * j) (hj : j ≤ data.length) (fuel : Nat) :
    ∃ s' i', absorbLoop (fuel + 2) data D s i = .ok (s', i') ∧ Rep s' n ((blocks (8 * n) (data.drop j)).foldl stepC A) (tailOf (8 * n) (data.drop j)) ∧ s'.fixedOutputLength = s.fixedOutputLength := by
  have hpos := R.pos
  by_cases h : j + 8 * n ≤ data.length
  · obtain ⟨s1, i1, e1, e2, e3, e4⟩ := body_blocks R hD hi h
    have hm := Nat.div_add_mod' (data.length - j) (8 * n)
    have hl := Nat.mod_lt (data.length - j) (show 8 * n > 0 by omega)
    obtain ⟨s2, i2, f1, f2, f3⟩ := loop_tail e3 hD e2 (by omega) (by omega) fuel
    refine ⟨s2, i2, ?_, ?_, by rw [f3, e4]⟩
    · rw [loop_step hD hi (by omega) _ e1, f1]
    · have ht : tailOf (8 * n) (data.drop j) = data.drop (j + (data.length - j) / (8 * n) * (8 * n)) := by
        unfold tailOf
        rw [List.drop_drop, List.length_drop]
      rw [ht]
      exact f2
  · obtain ⟨s2, i2, f1, f2, f3⟩ := loop_tail R hD hi (by omega) hj (fuel + 1)
    refine ⟨s2, i2, f1, ?_, f3⟩
    rw [blocks_of_lt (by rw [List.length_drop]; omega), tailOf_of_lt (by rw [List.length_drop]; omega)]
    exact f2

/-- The writes the C code gets right: `q` bytes waiting, rate `r` bytes, `N` bytes written. -/
def Fits (r q N : Nat) : Prop := q = 0 ∨ N + q < r ∨ (r ≤ N % 2 ^ 29 + q ∧ N % 2 ^ 29 + q < 2 ^ 29)

theorem absorb_fits {s : Sponge} {n : Nat} {A : State} {t : List U8} (R : Rep s n A t) (data : List U8) (hN : 8 * data.length < 2 ^ 64) (hf : Fits (8 * n) t.length data.length) :
    ∃ s', Absorb s data (BitVec.ofNat 64 (8 * data.length)) = .ok (s', 0) ∧ Rep s' n ((blocks (8 * n) (t ++ data)).foldl stepC A) (tailOf (8 * n) (t ++ data)) ∧
      s'.fixedOutputLength = s.fixedOutputLength := by
  have hD : (BitVec.ofNat 64 (8 * data.length)).toNat = 8 * data.length := by rw [BitVec.toNat_ofNat, Nat.mod_eq_of_lt hN]
  generalize BitVec.ofNat 64 (8 * data.length) = D at hD
  have hpos := R.pos
  have hle := R.le
  have hi : (0#64 : U64).toNat = 8 * 0 := rfl
  have hmod : s.bitsInQueue % 8#32 = 0#32 := by
    apply BitVec.eq_of_toNat_eq
    rw [BitVec.toNat_umod, R.bits]
    show 8 * _ % 8 = 0
    omega
  suffices h : ∃ s' i', absorbLoop (D.toNat + 1) data D s 0#64 = .ok (s', i') ∧ Rep s' n ((blocks (8 * n) (t ++ data)).foldl stepC A) (tailOf (8 * n) (t ++ data)) ∧
      s'.fixedOutputLength = s.fixedOutputLength by
    obtain ⟨s', i', h1, h2, h3⟩ := h
    refine ⟨s', ?_, h2, h3⟩
    unfold Absorb
    rw [if_neg (by rw [hmod]; simp), R.open_, if_neg (by simp), h1, Go.bind_ok]
    rfl
  by_cases h0 : data.length = 0
  · have : data = [] := List.eq_nil_of_length_eq_zero h0
    subst this
    refine ⟨s, 0#64, loop_done hD hi (by simp) s _ _, ?_, rfl⟩
    rw [List.append_nil, blocks_of_lt R.lt, tailOf_of_lt R.lt]
    exact R
  rw [hD]
  by_cases ht : t.length = 0
  · have : t = [] := List.eq_nil_of_length_eq_zero ht
    subst this
    obtain ⟨s', i', e1, e2, e3⟩ := loop_empty R hD hi (by omega) (8 * data.length - 1)
    refine ⟨s', i', ?_, ?_, e3⟩
    · rw [← e1]; congr 1; omega
    · rw [List.drop_zero] at e2; exact e2
  have hlt := R.lt
  rcases hf with hf | hf | ⟨hf1, hf2⟩
  · exact absurd hf ht
  · have hk : chunk (8 * n) t.length (data.length - 0) = data.length := by
      unfold chunk
      have h1 : data.length % 2 ^ 29 = data.length := Nat.mod_eq_of_lt (by omega)
      rw [Nat.sub_zero, h1, Nat.mod_eq_of_lt (by omega), if_neg (by omega)]
    obtain ⟨s', i', e1, e2, e3, e4⟩ := body_partial R hD hi (by omega) (Or.inl ht) hk (by omega) (by omega)
    refine ⟨s', i', ?_, ?_, e4⟩
    · rw [loop_step hD hi (by omega) _ e1, loop_done hD e2 (by omega)]
    · rw [List.drop_zero, List.take_length] at e3
      rw [blocks_of_lt (by rw [List.length_append]; omega), tailOf_of_lt (by rw [List.length_append]; omega)]
      exact e3
  · have hmle : data.length % 2 ^ 29 ≤ data.length := Nat.mod_le _ _
    have hk : chunk (8 * n) t.length (data.length - 0) = 8 * n - t.length := by
      unfold chunk
      rw [Nat.sub_zero, Nat.mod_eq_of_lt hf2]
      split
      · rfl
      · omega
    obtain ⟨s1, i1, e1, e2, e3, e4⟩ := body_full R hD hi (by omega) (Or.inl ht) hk (by omega)
    obtain ⟨s', i', f1, f2, f3⟩ := loop_empty e3 hD e2 (by omega) (8 * data.length - 2)
    refine ⟨s', i', ?_, ?_, by rw [f3, e4]⟩
    · rw [loop_step hD hi (by omega) _ e1, ← f1]; congr 1; omega
    · rw [Nat.zero_add] at f2
      have hm : t ++ data = (t ++ data.take (8 * n - t.length)) ++ data.drop (8 * n - t.length) := by rw [List.append_assoc, List.take_append_drop]
      have hlen : (t ++ data.take (8 * n - t.length)).length = 8 * n := by rw [List.length_append, List.length_take]; omega
      have hpos8 : 0 < 8 * n := by omega
      have hb1 : blocks (8 * n) (t ++ data.take (8 * n - t.length)) = [t ++ data.take (8 * n - t.length)] := by
        rw [blocks_of_le hpos8 (by omega), List.take_of_length_le (by omega), List.drop_of_length_le (by omega), blocks_nil]
      have ht1 : tailOf (8 * n) (t ++ data.take (8 * n - t.length)) = [] := by
        rw [tailOf_of_le hpos8 (by omega), List.drop_of_length_le (by omega), tailOf_nil]
      rw [hm, blocks_append hpos8, hb1, ht1, tailOf_append hpos8, ht1, List.nil_append, List.foldl_append, List.foldl_cons, List.foldl_nil]
      rw [List.drop_zero] at f2
      exact f2

end Verif.Lemmas.KeccakC
