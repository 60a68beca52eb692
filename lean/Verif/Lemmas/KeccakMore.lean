import Verif.Lemmas.KeccakBij
import Verif.Lemmas.KeccakHeap

namespace Verif.Lemmas.Keccak
open Verif Verif.Model.Keccak
open Verif.Spec.Keccak (State keccakf xorInto bytes pad sponge lossy absorb squeeze)

theorem digestW_lossy (n r size : Nat) : digestW n r size = lossy n r size := rfl

theorem whole_of_dvd {b : List U8} (h : b.length % 8 = 0) : whole b = b := by
  unfold whole
  exact List.take_of_length_le (by omega)

theorem lossy_sponge {n r size : Nat} (h8 : r % 8 = 0) (hr : 0 < r) (h200 : r ≤ 200) (hs : size ≤ r) (m : List U8) : lossy n r size m = sponge n r size m := by
  have e : ∀ (l : List (List U8)) (A : State), (∀ b ∈ l, b.length = r) → l.foldl (fun A b => keccakf n (xorInto A (b.take (8 * (b.length / 8))))) A = l.foldl (fun A b => keccakf n (xorInto A b)) A := by
    intro l
    induction l with
    | nil => intro A _; rfl
    | cons b l ih =>
      intro A h
      rw [List.foldl_cons, List.foldl_cons, ih _ (fun b hb => h b (by simp [hb]))]
      have := whole_of_dvd (b := b) (by rw [h b (by simp)]; exact h8)
      unfold whole at this
      rw [this]
  unfold lossy sponge
  rw [e _ _ (fun b hb => blocks_mem_length hr hb)]
  show _ = ((bytes (absorb n r m)).take r ++ _).take size
  rw [List.take_append_of_le_length (by rw [List.length_take, bytes_length]; omega), List.take_take, Nat.min_eq_left hs]
  rfl

/-! ### Bytes without effect -/

theorem blocks_take_congr {r w : Nat} (hr : 0 < r) (hw : w ≤ r) {l l' : List U8} (hl : l.length = l'.length) (h : ∀ i, i % r < w → l[i]? = l'[i]?) :
    (blocks r l).map (List.take w) = (blocks r l').map (List.take w) := by
  unfold blocks
  rw [hl, List.map_map, List.map_map]
  apply List.map_congr_left
  intro i _
  simp only [Function.comp]
  rw [List.take_take, List.take_take, Nat.min_eq_left hw]
  apply List.ext_getElem?
  intro t
  rw [List.getElem?_take, List.getElem?_take]
  split
  · rename_i ht
    rw [List.getElem?_drop, List.getElem?_drop]
    apply h
    rw [Nat.mul_comm, Nat.mul_add_mod, Nat.mod_eq_of_lt (by omega)]
    exact ht
  · rfl

theorem pad_suffix (r : Nat) {m m' : List U8} (hl : m.length = m'.length) : ∃ q, pad r m = m ++ q ∧ pad r m' = m' ++ q := by
  unfold pad
  rw [hl]
  split
  · exact ⟨_, rfl, rfl⟩
  · exact ⟨_, rfl, rfl⟩

theorem lossy_congr {n r size : Nat} (hr : 0 < r) {m m' : List U8} (hl : m.length = m'.length) (h : ∀ i, i % r < 8 * (r / 8) → m[i]? = m'[i]?) :
    lossy n r size m = lossy n r size m' := by
  obtain ⟨q, e1, e2⟩ := pad_suffix r hl
  have hb : (blocks r (pad r m)).map (List.take (8 * (r / 8))) = (blocks r (pad r m')).map (List.take (8 * (r / 8))) := by
    apply blocks_take_congr hr (by omega)
    · rw [e1, e2, List.length_append, List.length_append, hl]
    · intro i hi
      rw [e1, e2]
      by_cases hlt : i < m.length
      · rw [List.getElem?_append_left hlt, List.getElem?_append_left (by omega), h i hi]
      · rw [List.getElem?_append_right (by omega), List.getElem?_append_right (by omega), hl]
  have e : ∀ (l : List (List U8)) (A : State), (∀ b ∈ l, b.length = r) → l.foldl (fun A b => keccakf n (xorInto A (b.take (8 * (b.length / 8))))) A =
      (l.map (List.take (8 * (r / 8)))).foldl (fun A b => keccakf n (xorInto A b)) A := by
    intro l
    induction l with
    | nil => intro A _; rfl
    | cons b l ih =>
      intro A h
      rw [List.foldl_cons, List.map_cons, List.foldl_cons, ih _ (fun b hb => h b (by simp [hb])), h b (by simp)]
  unfold lossy
  rw [e _ _ (fun b hb => blocks_mem_length hr hb), e _ _ (fun b hb => blocks_mem_length hr hb), hb]

/-! ### Every byte of a block of whole words counts -/

theorem xorInto_inj {A : State} {b b' : List U8} (h8 : b.length % 8 = 0) (hl : b.length = b'.length) (h : b.length ≤ 200) (e : xorInto A b = xorInto A b') : b = b' := by
  have hw : ∀ i, 8 * i + 8 ≤ b.length → (b.drop (8 * i)).take 8 = (b'.drop (8 * i)).take 8 := by
    intro i hi
    have hx := congrFun (congrFun e (Fin.ofNat 5 i)) (Fin.ofNat 5 (i / 5))
    unfold xorInto at hx
    have hx := xor_left_inj' _ hx
    simp only [Fin.val_ofNat] at hx
    rw [show i % 5 + 5 * (i / 5 % 5) = i by omega, word_in _ i hi, word_in _ i (by omega)] at hx
    apply le64_inj (by rw [List.length_take, List.length_drop]; omega) (by rw [List.length_take, List.length_drop]; omega)
    unfold le64 at hx ⊢
    rw [List.take_take, List.take_take, Nat.min_self]
    exact hx
  apply List.ext_getElem?
  intro j
  by_cases hj : j < b.length
  · have := congrArg (fun l => l[j % 8]?) (hw (j / 8) (by omega))
    simp only [List.getElem?_take, List.getElem?_drop] at this
    rw [if_pos (by omega), if_pos (by omega), show 8 * (j / 8) + j % 8 = j by omega] at this
    exact this
  · rw [List.getElem?_eq_none (by omega), List.getElem?_eq_none (by omega)]

/-! ### Too many rounds -/

theorem rounds_panic : ∀ (n lo : Nat) (S : List U64), S.length = 25 → lo ≤ 24 → 24 < lo + n → Go.forRange lo n (fun r S => round S r) S = .error .index := by
  intro n
  induction n with
  | zero => intro lo S _ _ _; omega
  | succ n ih =>
    intro lo S hS h1 h2
    rw [Go.forRange]
    by_cases h : lo < 24
    · obtain ⟨S', e1, _, e3⟩ := round_eq hS h
      rw [e1]
      exact ih (lo + 1) S' e3 (by omega) (by omega)
    · have h24 : lo = 24 := by omega
      subst h24
      rfl

/-- A hasher with too many rounds: no method but `f` can fail. -/
structure Bad (k : Keccak) (r : Nat) : Prop where
  bs : k.blockSize = r
  pos : 0 < r
  le : r ≤ 200
  rounds : 24 < k.rounds
  len : k.S.length = 25
  buf : k.buf.length < r

theorem f_panic {k : Keccak} {r : Nat} (h : k.blockSize = r) (hle : r ≤ 200) (hr : 24 < k.rounds) (hS : k.S.length = 25) {b : List U8} (hb : b.length = r) : k.f b = .error .index := by
  obtain ⟨S1, e1, e2, e3⟩ := absorb_lanes b k.S hS (by omega)
  unfold Keccak.f
  rw [if_neg (by rw [h, hb]; simp), h, Int.toNat_natCast]
  rw [hb] at e1
  rw [e1, Go.bind_ok, rounds_panic k.rounds 0 S1 e2 (by omega) (by omega)]
  rfl

theorem bad_loop {k : Keccak} {r : Nat} (h : Bad k r) (b : List U8) : (k.writeBlocks b = .error .index ∧ r ≤ b.length) ∨ (k.writeBlocks b = .ok { k with buf := b } ∧ b.length < r) := by
  unfold Keccak.writeBlocks
  have hp := h.pos
  by_cases hb : r ≤ b.length
  · left
    refine ⟨?_, hb⟩
    have hcnd : decide ((b.length : Int) ≥ k.blockSize) = true := by
      rw [h.bs, decide_eq_true_eq]; omega
    have hbody : writeBody (k, b) = .error .index := by
      unfold writeBody upto
      simp only [h.bs]
      rw [if_pos (by omega), Go.bind_ok, Int.toNat_natCast, f_panic h.bs h.le h.rounds h.len (by rw [List.length_take]; omega)]
      rfl
    rw [Go.while_]
    simp only [hcnd, if_true, hbody]
    rfl
  · right
    refine ⟨?_, by omega⟩
    have hcnd : decide ((b.length : Int) ≥ k.blockSize) = false := by
      rw [h.bs, decide_eq_false_iff_not]; omega
    have : Go.while_ (b.length + 1) (fun q : Keccak × List U8 => decide ((q.2.length : Int) ≥ q.1.blockSize)) writeBody (k, b) = .ok (k, b) := by
      rw [Go.while_]
      simp only [hcnd]
      rfl
    rw [this]
    rfl

theorem bad_write {k : Keccak} {r : Nat} (h : Bad k r) (b : List U8) : k.Write b = .error .index ∨ ∃ k' n, k.Write b = .ok (k', n) ∧ Bad k' r := by
  obtain ⟨S, sz, bs, rd, buf⟩ := k
  obtain rfl : bs = (r : Int) := h.bs
  have hbuf : buf.length < r := h.buf
  unfold Keccak.Write
  by_cases h0 : buf.length > 0
  · simp only [if_pos h0]
    by_cases hx : r ≤ buf.length + b.length
    · left
      rw [if_neg (show ¬ ((r : Int) - buf.length > b.length) by omega)]
      have hxn : ((r : Int) - buf.length).toNat = r - buf.length := by omega
      unfold upto after
      rw [if_pos (by omega), Go.bind_ok, if_pos (by omega), Go.bind_ok, hxn,
        if_neg (show ¬ (((buf ++ b.take (r - buf.length)).length : Int) < r) by rw [List.length_append, List.length_take]; omega),
        f_panic (k := ⟨S, sz, (r : Int), rd, buf ++ b.take (r - buf.length)⟩) (r := r) rfl h.le h.rounds h.len (by rw [List.length_append, List.length_take]; omega)]
      rfl
    · right
      rw [if_pos (show ((r : Int) - buf.length > b.length) by omega)]
      unfold upto after
      rw [if_pos (by omega), Go.bind_ok, if_pos (by omega), Go.bind_ok, Int.toNat_natCast, List.take_length, if_pos (by rw [List.length_append]; omega), Go.pure_ok]
      exact ⟨_, _, rfl, rfl, h.pos, h.le, h.rounds, h.len, by simp only [List.length_append]; omega⟩
  · simp only [if_neg h0]
    rcases bad_loop h b with ⟨e, _⟩ | ⟨e, hl⟩
    · left; rw [e]; rfl
    · right
      rw [e, Go.bind_ok, Go.pure_ok]
      exact ⟨_, _, rfl, rfl, h.pos, h.le, h.rounds, h.len, hl⟩

theorem bad_sum {k : Keccak} {r : Nat} (h : Bad k r) (b : List U8) : k.Sum b = .error .index := by
  unfold Keccak.Sum
  rw [pad_ok k r h.bs h.buf, Go.bind_ok, f_panic h.bs h.le h.rounds h.len (padTail_length h.buf)]
  rfl

theorem bad_run {r : Nat} (ops : List HOp) : ∀ k, Bad k r → (∃ b, HOp.sum b ∈ ops) → hasher.run k ops = .error .index := by
  induction ops with
  | nil => intro k _ ⟨b, hb⟩; simp at hb
  | cons op ops ih =>
    intro k hk ⟨b, hb⟩
    cases op with
    | write p =>
      have hb : HOp.sum b ∈ ops := by simpa using hb
      show (k.Write p).bind _ = _
      rcases bad_write hk p with e | ⟨k', n, e, hk'⟩
      · rw [e]; rfl
      · rw [e]
        show (hasher.run k' ops).bind _ = _
        rw [ih k' hk' ⟨b, hb⟩]; rfl
    | reset =>
      have hb : HOp.sum b ∈ ops := by simpa using hb
      show (hasher.run k.Reset ops).bind _ = _
      rw [ih k.Reset ⟨hk.bs, hk.pos, hk.le, hk.rounds, by simp [Keccak.Reset], by simp [Keccak.Reset]; exact hk.pos⟩ ⟨b, hb⟩]; rfl
    | sum c =>
      show (k.Sum c).bind _ = _
      rw [bad_sum hk c]; rfl
    | value =>
      have hb : HOp.sum b ∈ ops := by simpa using hb
      show (hasher.run k ops).bind _ = _
      rw [ih k hk ⟨b, hb⟩]; rfl

theorem new_bad (bits rounds : Nat) (h1 : bits / 8 ≤ 99) (h2 : 24 < rounds) : Bad (newKeccak bits rounds) (200 - 2 * (bits / 8)) := by
  refine ⟨?_, by omega, by omega, h2, by simp [newKeccak], by simp only [newKeccak, List.length_nil]; omega⟩
  simp only [newKeccak]; omega

end Verif.Lemmas.Keccak
