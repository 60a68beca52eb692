import Verif.Lemmas.KeccakCBits

/-! The C sponge on bit strings: padding and squeezing. -/

namespace Verif.Lemmas.KeccakC
open Verif Verif.Model.KeccakC
open Verif.Spec.Keccak (State keccakf xorInto bytes squeeze)
open Verif.Lemmas.Keccak (bytes_length)

/-- The block or two blocks that end the message: `t` is pending, and `k` bits, those of `w`. -/
def lastBlocks (r : Nat) (t : List U8) (w : U8) (k : Nat) : List (List U8) :=
  if t.length = r - 1 then
    if k = 7 then [t ++ [w ||| 1#8 <<< k], List.replicate (r - 1) 0#8 ++ [0x80#8]] else [t ++ [w ||| 1#8 <<< k ||| 0x80#8]]
  else [t ++ (w ||| 1#8 <<< k) :: (List.replicate (r - t.length - 2) 0#8 ++ [0x80#8])]

/-- A C object that gives output: `b` blocks and `o` bytes of the next are gone. -/
structure SqRep (s : Sponge) (n : Nat) (A : State) (b o : Nat) : Prop where
  rate : s.rate.toNat = 64 * n
  pos : 0 < n
  le : n ≤ 24
  qlen : s.dataQueue.length = 192
  queue : s.dataQueue.take (8 * n) = (bytes ((keccakf 24)^[b] A)).take (8 * n)
  state : lanesC s.state = (keccakf 24)^[b] A
  avail : s.bitsAvailableForSqueezing.toNat = 64 * n - 8 * o
  off : o ≤ 8 * n
  closed : s.squeezing = true
  whole : s.bitsInQueue.toNat = 0

theorem take_set_next {q t : List U8} {x : U8} (h : q.take t.length = t) (hl : t.length < q.length) : (q.set t.length x).take (t.length + 1) = t ++ [x] := by
  rw [List.take_add_one, List.take_set_of_le (Nat.le_refl _), h, List.getElem?_set_self hl]
  rfl

theorem take_next {q t : List U8} {x : U8} (h : q.take t.length = t) (hx : q[t.length]? = some x) : q = t ++ x :: q.drop (t.length + 1) := by
  have hl : t.length < q.length := by
    rcases Nat.lt_or_ge t.length q.length with h' | h'
    · exact h'
    · rw [List.getElem?_eq_none h'] at hx; exact nomatch hx
  have h2 : q.drop t.length = x :: q.drop (t.length + 1) := by
    rw [List.drop_eq_getElem_cons hl]
    rw [List.getElem?_eq_getElem hl] at hx
    rw [Option.some.inj hx]
  calc q = q.take t.length ++ q.drop t.length := (List.take_append_drop _ _).symm
    _ = _ := by rw [h, h2]

theorem orInto_mid (t : List U8) (x b : U8) (l : List U8) : orInto (t ++ x :: l) t.length b = .ok (t ++ (x ||| b) :: l) := by
  rw [orInto_ok (x := x)]
  · rw [List.set_append_right _ _ (Nat.le_refl _), Nat.sub_self, List.set_cons_zero]
  · rw [List.getElem?_append_right (Nat.le_refl _), Nat.sub_self, List.getElem?_cons_zero]

/-- What the queue holds after the padding of the usual case. -/
theorem pad_queueB {q t : List U8} {r k : Nat} {v : U8} (hr : r ≤ 192) (hq : q.length = 192) (ht : t.length < r) (h : q.take t.length = t)
    (hv : k ≠ 0 → q[t.length]? = some v) (hc : ¬ (t.length = r - 1 ∧ k = 7)) :
    ∃ q1 q2 q3 b, memzero q (if k = 0 then t.length else t.length + 1) (r - (if k = 0 then t.length else t.length + 1)) = .ok q1 ∧
      orInto q1 t.length (1#8 <<< k) = .ok q2 ∧ orInto q2 (r - 1) 0x80#8 = .ok q3 ∧ q3.length = 192 ∧
      lastBlocks r t (if k = 0 then 0#8 else v) k = [b] ∧ q3.take r = b := by
  generalize hw : (if k = 0 then 0#8 else v) = w
  have e1 : memzero q (if k = 0 then t.length else t.length + 1) (r - (if k = 0 then t.length else t.length + 1)) = .ok (t ++ w :: (List.replicate (r - t.length - 1) 0#8 ++ q.drop r)) := by
    unfold memzero
    by_cases hk : k = 0
    · rw [if_pos hk] at hw
      subst hw
      rw [if_pos hk, if_pos (by omega), h, show t.length + (r - t.length) = r by omega]
      rw [show r - t.length = (r - t.length - 1) + 1 by omega, List.replicate_succ, Nat.add_sub_cancel, List.append_assoc]
      rfl
    · rw [if_neg hk] at hw
      subst hw
      have h2 := take_next h (hv hk)
      rw [if_neg hk, if_pos (by omega), show t.length + 1 + (r - (t.length + 1)) = r by omega, show r - (t.length + 1) = r - t.length - 1 by omega]
      have h3 : q.take (t.length + 1) = t ++ [v] := by
        rw [List.take_add_one, h, hv hk]; rfl
      rw [h3]
      simp only [List.append_assoc, List.cons_append, List.nil_append]
  refine ⟨t ++ w :: (List.replicate (r - t.length - 1) 0#8 ++ q.drop r), t ++ (w ||| 1#8 <<< k) :: (List.replicate (r - t.length - 1) 0#8 ++ q.drop r), ?_⟩
  obtain ⟨m, hm⟩ : ∃ m, m = r - t.length - 1 := ⟨_, rfl⟩
  rw [← hm] at e1 ⊢
  have hdl : (q.drop r).length = 192 - r := by rw [List.length_drop, hq]
  generalize q.drop r = rest at e1 hdl ⊢
  by_cases hlast : t.length = r - 1
  · have hk7 : k ≠ 7 := fun c => hc ⟨hlast, c⟩
    have hm0 : m = 0 := by omega
    subst hm0
    refine ⟨t ++ ((w ||| 1#8 <<< k ||| 0x80#8) :: rest), t ++ [w ||| 1#8 <<< k ||| 0x80#8], e1, orInto_mid _ _ _ _, ?_, ?_, ?_, ?_⟩
    rotate_left 3
    · show (t ++ ((w ||| 1#8 <<< k ||| 0x80#8) :: rest)).take r = t ++ [w ||| 1#8 <<< k ||| 0x80#8]
      rw [show t ++ ((w ||| 1#8 <<< k ||| 0x80#8) :: rest) = (t ++ [w ||| 1#8 <<< k ||| 0x80#8]) ++ rest by simp, List.take_left']
      rw [List.length_append]; simp only [List.length_cons, List.length_nil]; omega
    · rw [← hlast]
      exact orInto_mid _ _ _ _
    · rw [List.length_append, List.length_cons, hdl]; omega
    · unfold lastBlocks
      rw [if_pos hlast, if_neg hk7]
  · obtain ⟨m', rfl⟩ : ∃ m', m = m' + 1 := ⟨m - 1, by omega⟩
    refine ⟨t ++ (w ||| 1#8 <<< k) :: (List.replicate m' 0#8 ++ 0x80#8 :: rest), t ++ (w ||| 1#8 <<< k) :: (List.replicate (r - t.length - 2) 0#8 ++ [0x80#8]), e1, orInto_mid _ _ _ _, ?_, ?_, ?_, ?_⟩
    rotate_left 3
    · show (t ++ (w ||| 1#8 <<< k) :: (List.replicate m' 0#8 ++ 0x80#8 :: rest)).take r = t ++ (w ||| 1#8 <<< k) :: (List.replicate (r - t.length - 2) 0#8 ++ [0x80#8])
      rw [show r - t.length - 2 = m' by omega, show t ++ (w ||| 1#8 <<< k) :: (List.replicate m' 0#8 ++ 0x80#8 :: rest) = (t ++ (w ||| 1#8 <<< k) :: (List.replicate m' 0#8 ++ [0x80#8])) ++ rest by
        simp only [List.append_assoc, List.cons_append, List.nil_append], List.take_left']
      simp only [List.length_append, List.length_cons, List.length_replicate, List.length_nil]; omega
    · have hpre : (t ++ (w ||| 1#8 <<< k) :: List.replicate m' 0#8).length = r - 1 := by
        simp only [List.length_append, List.length_cons, List.length_replicate]; omega
      have := orInto_mid (t ++ (w ||| 1#8 <<< k) :: List.replicate m' 0#8) 0#8 0x80#8 rest
      rw [hpre] at this
      rw [List.replicate_succ']
      simp only [List.append_assoc, List.cons_append, List.nil_append] at this ⊢
      exact this
    · simp only [List.length_append, List.length_cons, List.length_replicate, hdl]; omega
    · unfold lastBlocks
      rw [if_neg hlast]

/-- Padding. -/
theorem pad_switchB {s : Sponge} {n : Nat} {A : State} {t : List U8} {k : Nat} {v : U8} (R : RepB s n A t k v) :
    ∃ s', PadAndSwitchToSqueezingPhase s = .ok s' ∧ SqRep s' n ((lastBlocks (8 * n) t (if k = 0 then 0#8 else v) k).foldl stepC A) 0 0 ∧ s'.fixedOutputLength = s.fixedOutputLength := by
  have hle := R.le
  have hpos := R.pos
  have hlt := R.lt
  have hr := R.rate
  have hb := R.bits
  have hk := R.small
  have a2 : (s.rate / 8#32).toNat = 8 * n := by
    rw [BitVec.toNat_udiv, hr]
    show 64 * n / 8 = 8 * n
    omega
  have a4 : (s.bitsInQueue / 8#32).toNat = t.length := by
    rw [BitVec.toNat_udiv, hb]
    show (8 * t.length + k) / 8 = t.length
    omega
  have a5 : (s.bitsInQueue % 8#32).toNat = k := by
    rw [BitVec.toNat_umod, hb]
    show (8 * t.length + k) % 8 = k
    omega
  have a6 : (s.rate - 1#32).toNat = 64 * n - 1 := by
    rw [BitVec.toNat_sub_of_le (by rw [BitVec.le_def, hr, show (1#32 : U32).toNat = 1 from rfl]; omega), hr]; rfl
  have a7 : ((s.rate - 1#32) / 8#32).toNat = 8 * n - 1 := by
    rw [BitVec.toNat_udiv, a6]
    show (64 * n - 1) / 8 = 8 * n - 1
    omega
  have a8 : ((s.rate - 1#32) % 8#32).toNat = 7 := by
    rw [BitVec.toNat_umod, a6]
    show (64 * n - 1) % 8 = 7
    omega
  have fin : ∀ (q : List U8) (st : List U64) (bq : U32) (B : State) (b : List U8), q.length = 192 → st.length = 25 → lanesC st = B → q.take (8 * n) = b →
      ∃ s', (do
        let s ← AbsorbQueue { s with dataQueue := q, state := st, bitsInQueue := bq }
        let s ← extract s
        return { s with squeezing := true }) = .ok s' ∧ SqRep s' n (stepC B b) 0 0 ∧ s'.fixedOutputLength = s.fixedOutputLength := by
    intro q st bq B b h1 h2 h3 h4
    obtain ⟨st', f1, f2, f3⟩ := queue_ok (s := { s with dataQueue := q, state := st, bitsInQueue := bq }) (A := B) hr hle h1 h4 h2 h3
    obtain ⟨q', g1, g2, g3⟩ := extract_ok (s := { s with dataQueue := q, state := st', bitsInQueue := 0#32 }) hr hle h1
    refine ⟨{ s with dataQueue := q', state := st', bitsInQueue := 0#32, bitsAvailableForSqueezing := s.rate, squeezing := true }, ?_, ?_, rfl⟩
    · rw [f1, Go.bind_ok]
      dsimp only at g1 ⊢
      rw [g1, Go.bind_ok, Go.pure_ok]
    · refine ⟨hr, hpos, hle, g2, ?_, f3, ?_, Nat.zero_le _, rfl, rfl⟩
      · show q'.take (8 * n) = (bytes (stepC B b)).take (8 * n)
        rw [← f3]; exact g3
      · show s.rate.toNat = _
        rw [hr]; omega
  unfold PadAndSwitchToSqueezingPhase
  by_cases hc : t.length = 8 * n - 1 ∧ k = 7
  · obtain ⟨hc1, rfl⟩ := hc
    have c1 : s.bitsInQueue + 1#32 = s.rate := by
      apply BitVec.eq_of_toNat_eq
      rw [BitVec.toNat_add, hb, hr, show (1#32 : U32).toNat = 1 from rfl, Nat.mod_eq_of_lt (by omega)]
      omega
    have hq0 := take_next R.queue (R.part (by decide))
    have ho : orInto s.dataQueue t.length (1#8 <<< 7) = .ok (t ++ (v ||| 1#8 <<< 7) :: s.dataQueue.drop (t.length + 1)) := by
      conv => lhs; rw [hq0]
      exact orInto_mid _ _ _ _
    have hl : (t ++ (v ||| 1#8 <<< 7) :: s.dataQueue.drop (t.length + 1)).length = 192 := by
      rw [List.length_append, List.length_cons, List.length_drop, R.qlen]; omega
    have htk : (t ++ (v ||| 1#8 <<< 7) :: s.dataQueue.drop (t.length + 1)).take (8 * n) = t ++ [v ||| 1#8 <<< 7] := by
      rw [show t ++ (v ||| 1#8 <<< 7) :: s.dataQueue.drop (t.length + 1) = (t ++ [v ||| 1#8 <<< 7]) ++ s.dataQueue.drop (t.length + 1) by simp, List.take_left']
      rw [List.length_append]; simp only [List.length_cons, List.length_nil]; omega
    generalize t ++ (v ||| 1#8 <<< 7) :: s.dataQueue.drop (t.length + 1) = q1 at ho hl htk
    obtain ⟨st, f1, f2, f3⟩ := queue_ok (s := { s with dataQueue := q1 }) (A := A) hr hle hl htk R.len R.state
    have hz : memzero q1 0 (8 * n) = .ok (List.replicate (8 * n - 1) 0#8 ++ 0#8 :: q1.drop (8 * n)) := by
      unfold memzero
      rw [if_pos (by omega), List.take_zero, List.nil_append, Nat.zero_add]
      conv => lhs; rw [show 8 * n = (8 * n - 1) + 1 by omega, List.replicate_succ']
      rw [List.append_assoc, show 8 * n - 1 + 1 = 8 * n by omega]
      rfl
    have ho2 := orInto_mid (List.replicate (8 * n - 1) 0#8) 0#8 0x80#8 (q1.drop (8 * n))
    rw [List.length_replicate] at ho2
    obtain ⟨s', e1, e2, e3⟩ := fin (List.replicate (8 * n - 1) 0#8 ++ (0#8 ||| 0x80#8) :: q1.drop (8 * n)) st 0#32 _ (List.replicate (8 * n - 1) 0#8 ++ [0x80#8])
      (by rw [List.length_append, List.length_cons, List.length_replicate, List.length_drop, hl]; omega) f2 f3 (by
        rw [show List.replicate (8 * n - 1) 0#8 ++ (0#8 ||| 0x80#8) :: q1.drop (8 * n) = (List.replicate (8 * n - 1) 0#8 ++ [0x80#8]) ++ q1.drop (8 * n) by simp, List.take_left']
        rw [List.length_append, List.length_replicate]; simp only [List.length_cons, List.length_nil]; omega)
    refine ⟨s', ?_, ?_, e3⟩
    · rw [if_pos c1, a4, a5, ho, Go.bind_ok, f1, Go.bind_ok]
      dsimp only
      rw [a2, hz, Go.bind_ok, Go.pure_ok, Go.bind_ok]
      dsimp only
      rw [a7, a8, show (1#8 : U8) <<< 7 = 0x80#8 from rfl, ho2, Go.bind_ok]
      exact e1
    · unfold lastBlocks
      rw [if_pos hc1, if_pos rfl, List.foldl_cons, List.foldl_cons, List.foldl_nil, if_neg (by decide)]
      exact e2
  · have c1 : ¬ (s.bitsInQueue + 1#32 = s.rate) := by
      intro c
      have := congrArg BitVec.toNat c
      rw [BitVec.toNat_add, hb, hr, show (1#32 : U32).toNat = 1 from rfl, Nat.mod_eq_of_lt (by omega)] at this
      omega
    have a1 : ((s.bitsInQueue + 7#32) / 8#32).toNat = if k = 0 then t.length else t.length + 1 := by
      rw [BitVec.toNat_udiv, BitVec.toNat_add, hb, show (7#32 : U32).toNat = 7 from rfl, Nat.mod_eq_of_lt (by omega)]
      show (8 * t.length + k + 7) / 8 = _
      split <;> omega
    have a3 : (s.rate / 8#32 - (s.bitsInQueue + 7#32) / 8#32).toNat = 8 * n - (if k = 0 then t.length else t.length + 1) := by
      rw [BitVec.toNat_sub_of_le (by rw [BitVec.le_def, a1, a2]; split <;> omega), a1, a2]
    obtain ⟨q1, q2, q3, b, z1, z2, z3, z4, z5, z6⟩ := pad_queueB (r := 8 * n) (by omega) R.qlen hlt R.queue R.part hc
    obtain ⟨s', e1, e2, e3⟩ := fin q3 s.state s.bitsInQueue A b z4 R.len R.state z6
    refine ⟨s', ?_, ?_, e3⟩
    · rw [if_neg c1, a1, a3, z1, Go.bind_ok, a4, a5, z2, Go.bind_ok, Go.pure_ok, Go.bind_ok]
      dsimp only
      rw [a7, a8, show (1#8 : U8) <<< 7 = 0x80#8 from rfl, z3, Go.bind_ok]
      exact e1
    · rw [z5, List.foldl_cons, List.foldl_nil]
      exact e2

/-! ## Squeezing -/

/-- Byte number `i` of the output. -/
def outByte (r : Nat) (A : State) (i : Nat) : U8 := (bytes ((keccakf 24)^[i / r] A)).getD (i % r) 0#8

theorem squeeze_eq {r : Nat} (h0 : 0 < r) (hr : r ≤ 200) : ∀ (K : Nat) (A : State), squeeze 24 r K A = (List.range (K * r)).map (outByte r A) := by
  intro K
  induction K with
  | zero => intro A; rw [Nat.zero_mul]; rfl
  | succ K ih =>
    intro A
    rw [squeeze, ih, Nat.succ_mul, Nat.add_comm, List.range_add, List.map_append, List.map_map]
    congr 1
    · apply List.ext_getElem
      · rw [List.length_take, bytes_length, List.length_map, List.length_range]; omega
      · intro i h1 h2
        rw [List.length_map, List.length_range] at h2
        rw [List.getElem_take, List.getElem_map, List.getElem_range]
        unfold outByte
        rw [Nat.div_eq_of_lt h2, Nat.mod_eq_of_lt h2, List.getD_eq_getElem?_getD, List.getElem?_eq_getElem]
        rfl
    · apply List.map_congr_left
      intro i _
      unfold outByte
      simp only [Function.comp]
      rw [Nat.add_div_left _ h0, Nat.add_mod_left, Function.iterate_succ_apply]

theorem output_eq {r : Nat} (h0 : 0 < r) (hr : r ≤ 200) (A : State) (p m : Nat) :
    ((squeeze 24 r ((p + m) / r + 1) A).drop p).take m = (List.range' p m).map (outByte r A) := by
  rw [squeeze_eq h0 hr, List.range_eq_range', ← List.map_drop, ← List.map_take, List.drop_range']
  have := Nat.div_add_mod' (p + m) r
  have h3 := Nat.mod_lt (p + m) h0
  have h4 : ((p + m) / r + 1) * r - p = m + (((p + m) / r + 1) * r - p - m) := by
    rw [Nat.succ_mul]
    omega
  rw [h4, ← List.range'_append_1, List.take_left' List.length_range', Nat.zero_add, Nat.mul_one]

/-- One part of the queue. -/
theorem queue_part {s : Sponge} {n : Nat} {A : State} {b o : Nat} (R : SqRep s n A b o) {c : Nat} (hc : o + c ≤ 8 * n) :
    (s.dataQueue.drop o).take c = (List.range' (b * (8 * n) + o) c).map (outByte (8 * n) A) := by
  have hle := R.le
  have hpos := R.pos
  have h1 : (s.dataQueue.drop o).take c = ((s.dataQueue.take (8 * n)).drop o).take c := by
    rw [List.drop_take, List.take_take, Nat.min_eq_left (by omega)]
  rw [h1, R.queue]
  apply List.ext_getElem
  · simp only [List.length_take, List.length_drop, bytes_length, List.length_map, List.length_range']; omega
  · intro i h1 h2
    rw [List.length_map, List.length_range'] at h2
    rw [List.getElem_take, List.getElem_drop, List.getElem_take, List.getElem_map, List.getElem_range']
    unfold outByte
    rw [Nat.one_mul, Nat.add_assoc, Nat.mul_comm b, Nat.mul_add_div (by omega), Nat.mul_add_mod, Nat.div_eq_of_lt (by omega), Nat.mod_eq_of_lt (by omega), Nat.add_zero,
      List.getD_eq_getElem?_getD, List.getElem?_eq_getElem (by rw [bytes_length]; omega)]
    rfl

/-- One round of the loop. -/
theorem squeeze_round {s : Sponge} {n : Nat} {A : State} {b o : Nat} (R : SqRep s n A b o) {out : List U8} {D i : U64} {N j : Nat} (hD : D.toNat = 8 * N) (hi : i.toNat = 8 * j) (hj : j < N) (hN : N ≤ out.length) :
    ∃ s' i' b' o' c, 0 < c ∧ j + c ≤ N ∧ i'.toNat = 8 * (j + c) ∧ b' * (8 * n) + o' = b * (8 * n) + o + c ∧ SqRep s' n A b' o' ∧ s'.fixedOutputLength = s.fixedOutputLength ∧
      squeezeBody D (s, out, i) = .ok (s', out.take j ++ (List.range' (b * (8 * n) + o) c).map (outByte (8 * n) A) ++ out.drop (j + c), i') := by
  have hle := R.le
  have hpos := R.pos
  -- with something in the queue
  have main : ∀ (s1 : Sponge) (b o : Nat), SqRep s1 n A b o → o < 8 * n →
      ∃ s' i' b' o' c, 0 < c ∧ j + c ≤ N ∧ i'.toNat = 8 * (j + c) ∧ b' * (8 * n) + o' = b * (8 * n) + o + c ∧ SqRep s' n A b' o' ∧ s'.fixedOutputLength = s1.fixedOutputLength ∧
      (do
        let partialBlock := s1.bitsAvailableForSqueezing
        let partialBlock := if u64 partialBlock > D - i then (D - i).setWidth 32 else partialBlock
        let output ← memcpy out (i / 8#64).toNat s1.dataQueue ((s1.rate - s1.bitsAvailableForSqueezing) / 8#32).toNat (partialBlock / 8#32).toNat
        return ({ s1 with bitsAvailableForSqueezing := s1.bitsAvailableForSqueezing - partialBlock }, output, i + u64 partialBlock) : Go (Sponge × List U8 × U64)) =
      .ok (s', out.take j ++ (List.range' (b * (8 * n) + o) c).map (outByte (8 * n) A) ++ out.drop (j + c), i') := by
    intro s1 b o R1 ho
    have hav := R1.avail
    have hx := sub8 hD hi (Nat.le_of_lt hj)
    obtain ⟨c, hc⟩ : ∃ c, c = min (8 * n - o) (N - j) := ⟨_, rfl⟩
    have hpb : (if u64 s1.bitsAvailableForSqueezing > D - i then (D - i).setWidth 32 else s1.bitsAvailableForSqueezing : U32).toNat = 8 * c := by
      have h4 : (u64 s1.bitsAvailableForSqueezing > D - i) ↔ 8 * (N - j) < 64 * n - 8 * o := by
        show D - i < _ ↔ _
        rw [BitVec.lt_def, hx, u64_toNat, hav]
      split
      · rename_i h
        rw [h4] at h
        rw [BitVec.toNat_setWidth, hx, Nat.mod_eq_of_lt (by omega)]
        omega
      · rename_i h
        rw [h4] at h
        rw [hav]
        omega
    dsimp only
    generalize (if u64 s1.bitsAvailableForSqueezing > D - i then (D - i).setWidth 32 else s1.bitsAvailableForSqueezing : U32) = pb at hpb
    have hro : ((s1.rate - s1.bitsAvailableForSqueezing) / 8#32).toNat = o := by
      apply div8'
      rw [BitVec.toNat_sub_of_le (by rw [BitVec.le_def, hav, R1.rate]; omega), R1.rate, hav]
      omega
    have hq := R1.qlen
    have hm : memcpy out j s1.dataQueue o c = .ok (out.take j ++ (s1.dataQueue.drop o).take c ++ out.drop (j + c)) := by
      unfold memcpy
      rw [if_pos ⟨by omega, by omega⟩]
    refine ⟨{ s1 with bitsAvailableForSqueezing := s1.bitsAvailableForSqueezing - pb }, i + u64 pb, b, o + c, c, by omega, by omega, ?_, by omega, ?_, rfl, ?_⟩
    · exact add8 hi (by rw [u64_toNat, hpb]) (show j + c ≤ N by omega) (by rw [← hD]; exact D.isLt)
    · refine ⟨R1.rate, R1.pos, R1.le, R1.qlen, R1.queue, R1.state, ?_, by omega, R1.closed, R1.whole⟩
      show (s1.bitsAvailableForSqueezing - pb).toNat = _
      rw [BitVec.toNat_sub_of_le (by rw [BitVec.le_def, hpb, hav]; omega), hpb, hav]
      omega
    · rw [div8 hi, hro, div8' hpb, hm, Go.bind_ok, Go.pure_ok, queue_part R1 (by omega)]
  unfold squeezeBody
  dsimp only
  by_cases ho : o = 8 * n
  · have hz : s.bitsAvailableForSqueezing = 0#32 := by
      apply BitVec.eq_of_toNat_eq
      rw [R.avail, ho]
      show 64 * n - 8 * (8 * n) = 0
      omega
    obtain ⟨q, g1, g2, g3⟩ := extract_ok (s := { s with state := KeccakPermutation s.state }) R.rate hle R.qlen
    have R1 : SqRep { s with state := KeccakPermutation s.state, dataQueue := q, bitsAvailableForSqueezing := s.rate } n A (b + 1) 0 := by
      have hst : lanesC (KeccakPermutation s.state) = (keccakf 24)^[b + 1] A := by
        rw [permutation_ok, R.state, Function.iterate_succ_apply']
      refine ⟨R.rate, hpos, hle, g2, ?_, hst, ?_, Nat.zero_le _, R.closed, R.whole⟩
      · show q.take (8 * n) = _
        rw [g3, ← hst]
      · show s.rate.toNat = _
        rw [R.rate]; omega
    obtain ⟨s', i', b', o', c, h1, h2, h3, h4, h5, h6, h7⟩ := main _ _ _ R1 (by omega)
    have hbo : (b + 1) * (8 * n) + 0 = b * (8 * n) + o := by rw [Nat.succ_mul]; omega
    rw [hbo] at h4 h7
    refine ⟨s', i', b', o', c, h1, h2, h3, h4, h5, h6, ?_⟩
    rw [if_pos hz, g1, Go.bind_ok]
    exact h7
  · have hz : s.bitsAvailableForSqueezing ≠ 0#32 := by
      intro c
      have := congrArg BitVec.toNat c
      rw [R.avail] at this
      have this : 64 * n - 8 * o = 0 := this
      have := R.off
      omega
    obtain ⟨s', i', b', o', c, h1, h2, h3, h4, h5, h6, h7⟩ := main s b o R (by have := R.off; omega)
    refine ⟨s', i', b', o', c, h1, h2, h3, h4, h5, h6, ?_⟩
    rw [if_neg hz, Go.pure_ok, Go.bind_ok]
    exact h7

/-- The loop. -/
theorem squeeze_loop {n : Nat} {A : State} {D : U64} {N : Nat} (hD : D.toNat = 8 * N) : ∀ (fuel : Nat) (s : Sponge) (b o : Nat) (out : List U8) (i : U64) (j : Nat), SqRep s n A b o → i.toNat = 8 * j → j ≤ N → N ≤ out.length →
    N - j ≤ fuel → ∃ s' b' o', b' * (8 * n) + o' = b * (8 * n) + o + (N - j) ∧ SqRep s' n A b' o' ∧ s'.fixedOutputLength = s.fixedOutputLength ∧
      Go.while_ fuel (fun p : Sponge × List U8 × U64 => decide (p.2.2 < D)) (squeezeBody D) (s, out, i) =
        .ok (s', out.take j ++ (List.range' (b * (8 * n) + o) (N - j)).map (outByte (8 * n) A) ++ out.drop N, D) := by
  intro fuel
  have done : ∀ (fuel : Nat) (s : Sponge) (b o : Nat) (out : List U8) (i : U64) (j : Nat), SqRep s n A b o → i.toNat = 8 * j → j = N → N ≤ out.length →
      ∃ s' b' o', b' * (8 * n) + o' = b * (8 * n) + o + (N - j) ∧ SqRep s' n A b' o' ∧ s'.fixedOutputLength = s.fixedOutputLength ∧
      Go.while_ fuel (fun p : Sponge × List U8 × U64 => decide (p.2.2 < D)) (squeezeBody D) (s, out, i) =
        .ok (s', out.take j ++ (List.range' (b * (8 * n) + o) (N - j)).map (outByte (8 * n) A) ++ out.drop N, D) := by
    intro fuel s b o out i j R hi hj hN
    subst hj
    have hiD : i = D := BitVec.eq_of_toNat_eq (by omega)
    subst hiD
    refine ⟨s, b, o, by omega, R, rfl, ?_⟩
    rw [Nat.sub_self, List.range'_zero, List.map_nil, List.append_nil, List.take_append_drop]
    cases fuel with
    | zero => rw [Go.while_, if_neg (by simp)]
    | succ f => rw [Go.while_, if_neg (by simp)]
  induction fuel with
  | zero => intro s b o out i j R hi hj hN hf; exact done 0 s b o out i j R hi (by omega) hN
  | succ f ih =>
    intro s b o out i j R hi hj hN hf
    rcases Nat.lt_or_ge j N with hlt | hge
    · obtain ⟨s1, i1, b1, o1, c, h1, h2, h3, h4, h5, h6, h7⟩ := squeeze_round R hD hi hlt hN
      have hlen : (out.take j ++ (List.range' (b * (8 * n) + o) c).map (outByte (8 * n) A) ++ out.drop (j + c)).length = out.length := by
        simp only [List.length_append, List.length_take, List.length_map, List.length_range', List.length_drop]; omega
      obtain ⟨s', b', o', g1, g2, g3, g4⟩ := ih s1 b1 o1 _ i1 (j + c) h5 h3 h2 (by rw [hlen]; exact hN) (by omega)
      refine ⟨s', b', o', by omega, g2, by rw [g3, h6], ?_⟩
      rw [Go.while_, if_pos (by simp only [decide_eq_true_eq, BitVec.lt_def]; omega), h7]
      show Go.while_ f _ _ _ = _
      rw [g4]
      have hpre : (out.take j ++ (List.range' (b * (8 * n) + o) c).map (outByte (8 * n) A)).length = j + c := by
        simp only [List.length_append, List.length_take, List.length_map, List.length_range']; omega
      congr 2
      rw [List.take_left' hpre, List.drop_append, hpre, List.drop_of_length_le (by omega), List.nil_append, List.drop_drop, show j + c + (N - (j + c)) = N by omega, h4,
        show N - j = c + (N - (j + c)) by omega, ← List.range'_append_1, List.map_append]
      simp only [List.append_assoc]
    · exact done (f + 1) s b o out i j R hi (by omega) hN

/-- `Squeeze` in the squeezing phase. -/
theorem squeeze_more {s : Sponge} {n : Nat} {A : State} {b o : Nat} (R : SqRep s n A b o) (out : List U8) {D : U64} (hN : D.toNat % 8 = 0 → D.toNat / 8 ≤ out.length) :
    ∃ s' b' o', SqRep s' n A b' o' ∧ s'.fixedOutputLength = s.fixedOutputLength ∧ b' * (8 * n) + o' = b * (8 * n) + o + (if D.toNat % 8 = 0 then D.toNat / 8 else 0) ∧
      Squeeze s out D = .ok (s', if D.toNat % 8 = 0 then (List.range' (b * (8 * n) + o) (D.toNat / 8)).map (outByte (8 * n) A) ++ out.drop (D.toNat / 8) else out, if D.toNat % 8 = 0 then 0 else 1) := by
  unfold Squeeze
  rw [R.closed, if_pos rfl, Go.pure_ok, Go.bind_ok]
  dsimp only
  by_cases h : D.toNat % 8 = 0
  · have hm : D % 8#64 = 0#64 := BitVec.eq_of_toNat_eq h
    obtain ⟨s', b', o', h1, h2, h3, h4⟩ := squeeze_loop (D := D) (N := D.toNat / 8) (by omega) (D.toNat + 1) s b o out 0#64 0 R rfl (Nat.zero_le _) (hN h) (by omega)
    refine ⟨s', b', o', h2, h3, by rw [if_pos h]; omega, ?_⟩
    rw [if_pos h, if_pos h, if_neg (by rw [hm]; simp), h4, Go.bind_ok, List.take_zero, List.nil_append, Nat.sub_zero]
    rfl
  · have hm : D % 8#64 ≠ 0#64 := by
      intro c
      have := congrArg BitVec.toNat c
      exact h this
    exact ⟨s, b, o, R, rfl, by rw [if_neg h]; rfl, by rw [if_neg h, if_neg h, if_pos hm]; rfl⟩

/-- `Squeeze` in the absorbing phase. -/
theorem squeeze_first {s : Sponge} {n : Nat} {A : State} {t : List U8} {k : Nat} {v : U8} (R : RepB s n A t k v) (out : List U8) (D : U64) :
    ∃ s1, SqRep s1 n ((lastBlocks (8 * n) t (if k = 0 then 0#8 else v) k).foldl stepC A) 0 0 ∧ s1.fixedOutputLength = s.fixedOutputLength ∧ Squeeze s out D = Squeeze s1 out D := by
  obtain ⟨s1, e1, e2, e3⟩ := pad_switchB R
  refine ⟨s1, e2, e3, ?_⟩
  unfold Squeeze
  rw [R.open_, if_neg (by simp), e1, Go.bind_ok, e2.closed, if_pos rfl, Go.pure_ok, Go.bind_ok]

end Verif.Lemmas.KeccakC
