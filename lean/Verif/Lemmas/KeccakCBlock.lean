import Verif.Model.KeccakC
import Verif.Lemmas.KeccakCPerm
import Verif.Lemmas.KeccakStream

/-! One block through the C code. -/

namespace Verif.Lemmas.KeccakC
open Verif Verif.Model.KeccakC
open Verif.Spec.Keccak (State keccakf xorInto bytes)
open Verif.Lemmas.Keccak (lanes)

/-- The lanes stored complemented. -/
def flipped (i : Nat) : Prop := i = 1 ∨ i = 2 ∨ i = 8 ∨ i = 12 ∨ i = 17 ∨ i = 20

instance (i : Nat) : Decidable (flipped i) := inferInstanceAs (Decidable (_ ∨ _))

/-- The word a C state stands for at position `i`. -/
def wordC (st : List U64) (i : Nat) : U64 := if flipped i then ~~~ word st i else word st i

/-- The Keccak state a C state stands for. -/
def lanesC (st : List U64) : State := fun x y => wordC st (x.val + 5 * y.val)

theorem below25 {P : Nat → Prop} (h : ∀ i, i < 25 → P i) (x y : Fin 5) : P (x.val + 5 * y.val) := h _ (by have := x.isLt; have := y.isLt; omega)

theorem plain_word (X : Lanes) : ∀ i, i < 25 → (plain X).getD i 0#64 = wordC (copyToState X) i := by
  intro i hi
  unfold plain wordC copyToState word flipped
  match i, hi with
  | 0, _ | 1, _ | 2, _ | 3, _ | 4, _ | 5, _ | 6, _ | 7, _ | 8, _ | 9, _ | 10, _ | 11, _ | 12, _ | 13, _ | 14, _ | 15, _ | 16, _ | 17, _ | 18, _ | 19, _
  | 20, _ | 21, _ | 22, _ | 23, _ | 24, _ => rfl
  | k + 25, h => exact absurd h (by omega)

theorem lanes_plain (X : Lanes) : lanes (plain X) = lanesC (copyToState X) := by
  funext x y
  exact below25 (P := fun i => (plain X).getD i 0#64 = wordC (copyToState X) i) (plain_word X) x y

theorem rounds_lanesC (X : Lanes) : lanesC (copyToState (rounds X)) = keccakf 24 (lanesC (copyToState X)) := by
  rw [← lanes_plain, ← lanes_plain, rounds_spec]

theorem copyToState_length (X : Lanes) : (copyToState X).length = 25 := rfl

theorem copy_word (st : List U64) : ∀ i, i < 25 → word (copyToState (copyFromState st)) i = word st i := by
  intro i hi
  match i, hi with
  | 0, _ | 1, _ | 2, _ | 3, _ | 4, _ | 5, _ | 6, _ | 7, _ | 8, _ | 9, _ | 10, _ | 11, _ | 12, _ | 13, _ | 14, _ | 15, _ | 16, _ | 17, _ | 18, _ | 19, _
  | 20, _ | 21, _ | 22, _ | 23, _ | 24, _ => rfl
  | k + 25, h => exact absurd h (by omega)

theorem lanesC_congr {s t : List U64} (h : ∀ i, i < 25 → word s i = word t i) : lanesC s = lanesC t := by
  funext x y
  unfold lanesC wordC
  rw [h _ (by have := x.isLt; have := y.isLt; omega)]

theorem permutation_ok (st : List U64) : lanesC (KeccakPermutation st) = keccakf 24 (lanesC st) := by
  unfold KeccakPermutation
  rw [rounds_lanesC, lanesC_congr (copy_word st)]

theorem permutation_length (st : List U64) : (KeccakPermutation st).length = 25 := rfl

/-- Exclusive-or of the first `n` words of `input` into the C state is exclusive-or of the block into the state it stands for. -/
theorem xor_block {Y st inp : List U64} {n : Nat} {b : List U8} (hb : b.length = 8 * n)
    (hi : ∀ i, i < n → word inp i = le64 (b.drop (8 * i)))
    (h : ∀ i, i < 25 → word Y i = if i < n then word st i ^^^ word inp i else word st i) : lanesC Y = xorInto (lanesC st) b := by
  funext x y
  have hlt : x.val + 5 * y.val < 25 := by have := x.isLt; have := y.isLt; omega
  unfold xorInto lanesC wordC
  rw [h _ hlt]
  generalize x.val + 5 * y.val = i at hlt
  by_cases hin : i < n
  · rw [if_pos hin, Lemmas.Keccak.word_in _ _ (by omega), hi i hin]
    split
    · rw [not_xor_l]
    · rfl
  · rw [if_neg hin, Lemmas.Keccak.word_out _ _ (by omega), BitVec.xor_zero]

theorem input_word {data : List U8} {off n : Nat} (h : off + 8 * n ≤ data.length) :
    ∃ w, inputWords data off n = .ok w ∧ ∀ i, i < n → word w i = le64 (((data.drop off).take (8 * n)).drop (8 * i)) := by
  refine ⟨_, by unfold inputWords; rw [if_pos h], fun i hi => ?_⟩
  unfold word
  rw [List.getD_eq_getElem?_getD, List.getElem?_map, List.getElem?_range hi, Option.map_some, Option.getD_some]
  unfold le64
  rw [List.drop_take, List.drop_drop, List.take_take, Nat.min_eq_left (by omega)]

theorem special {f : List U64 → List U64 → Lanes} {n : Nat} (hf : ∀ st inp i, i < 25 → word (copyToState (f st inp)) i = if i < n then word st i ^^^ word inp i else word st i)
    (st : List U64) (data : List U8) (off : Nat) (h : off + 8 * n ≤ data.length) :
    ∃ st', (do return copyToState (rounds (f st (← inputWords data off n))) : Go (List U64)) = .ok st' ∧ st'.length = 25 ∧
      lanesC st' = keccakf 24 (xorInto (lanesC st) ((data.drop off).take (8 * n))) := by
  obtain ⟨w, hw, hi⟩ := input_word h
  refine ⟨_, by rw [hw, Go.bind_ok, Go.pure_ok], copyToState_length _, ?_⟩
  rw [rounds_lanesC, xor_block (n := n) (b := (data.drop off).take (8 * n)) (by rw [List.length_take, List.length_drop]; omega) hi (hf st w)]

theorem x576 (st inp : List U64) (i : Nat) (hi : i < 25) : word (copyToState (copyFromStateAndXor576bits st inp)) i = if i < 9 then word st i ^^^ word inp i else word st i := by
  match i, hi with
  | 0, _ | 1, _ | 2, _ | 3, _ | 4, _ | 5, _ | 6, _ | 7, _ | 8, _ | 9, _ | 10, _ | 11, _ | 12, _ | 13, _ | 14, _ | 15, _ | 16, _ | 17, _ | 18, _ | 19, _
  | 20, _ | 21, _ | 22, _ | 23, _ | 24, _ => rfl
  | k + 25, h => exact absurd h (by omega)
theorem x832 (st inp : List U64) (i : Nat) (hi : i < 25) : word (copyToState (copyFromStateAndXor832bits st inp)) i = if i < 13 then word st i ^^^ word inp i else word st i := by
  match i, hi with
  | 0, _ | 1, _ | 2, _ | 3, _ | 4, _ | 5, _ | 6, _ | 7, _ | 8, _ | 9, _ | 10, _ | 11, _ | 12, _ | 13, _ | 14, _ | 15, _ | 16, _ | 17, _ | 18, _ | 19, _
  | 20, _ | 21, _ | 22, _ | 23, _ | 24, _ => rfl
  | k + 25, h => exact absurd h (by omega)
theorem x1024 (st inp : List U64) (i : Nat) (hi : i < 25) : word (copyToState (copyFromStateAndXor1024bits st inp)) i = if i < 16 then word st i ^^^ word inp i else word st i := by
  match i, hi with
  | 0, _ | 1, _ | 2, _ | 3, _ | 4, _ | 5, _ | 6, _ | 7, _ | 8, _ | 9, _ | 10, _ | 11, _ | 12, _ | 13, _ | 14, _ | 15, _ | 16, _ | 17, _ | 18, _ | 19, _
  | 20, _ | 21, _ | 22, _ | 23, _ | 24, _ => rfl
  | k + 25, h => exact absurd h (by omega)
theorem x1088 (st inp : List U64) (i : Nat) (hi : i < 25) : word (copyToState (copyFromStateAndXor1088bits st inp)) i = if i < 17 then word st i ^^^ word inp i else word st i := by
  match i, hi with
  | 0, _ | 1, _ | 2, _ | 3, _ | 4, _ | 5, _ | 6, _ | 7, _ | 8, _ | 9, _ | 10, _ | 11, _ | 12, _ | 13, _ | 14, _ | 15, _ | 16, _ | 17, _ | 18, _ | 19, _
  | 20, _ | 21, _ | 22, _ | 23, _ | 24, _ => rfl
  | k + 25, h => exact absurd h (by omega)
theorem x1152 (st inp : List U64) (i : Nat) (hi : i < 25) : word (copyToState (copyFromStateAndXor1152bits st inp)) i = if i < 18 then word st i ^^^ word inp i else word st i := by
  match i, hi with
  | 0, _ | 1, _ | 2, _ | 3, _ | 4, _ | 5, _ | 6, _ | 7, _ | 8, _ | 9, _ | 10, _ | 11, _ | 12, _ | 13, _ | 14, _ | 15, _ | 16, _ | 17, _ | 18, _ | 19, _
  | 20, _ | 21, _ | 22, _ | 23, _ | 24, _ => rfl
  | k + 25, h => exact absurd h (by omega)
theorem x1344 (st inp : List U64) (i : Nat) (hi : i < 25) : word (copyToState (copyFromStateAndXor1344bits st inp)) i = if i < 21 then word st i ^^^ word inp i else word st i := by
  match i, hi with
  | 0, _ | 1, _ | 2, _ | 3, _ | 4, _ | 5, _ | 6, _ | 7, _ | 8, _ | 9, _ | 10, _ | 11, _ | 12, _ | 13, _ | 14, _ | 15, _ | 16, _ | 17, _ | 18, _ | 19, _
  | 20, _ | 21, _ | 22, _ | 23, _ | 24, _ => rfl
  | k + 25, h => exact absurd h (by omega)

theorem xor_fold (inp : List U64) : ∀ (n : Nat) (st : List U64), st.length = 25 → n ≤ 25 →
    ((List.range n).foldl (fun s j => s.set j (word s j ^^^ word inp j)) st).length = 25 ∧
    ∀ i, i < 25 → word ((List.range n).foldl (fun s j => s.set j (word s j ^^^ word inp j)) st) i = if i < n then word st i ^^^ word inp i else word st i := by
  intro n
  induction n with
  | zero => intro st h _; exact ⟨h, fun i _ => rfl⟩
  | succ n ih =>
    intro st h hn
    obtain ⟨h1, h2⟩ := ih st h (by omega)
    rw [List.range_succ, List.foldl_append, List.foldl_cons, List.foldl_nil]
    generalize (List.range n).foldl (fun s j => s.set j (word s j ^^^ word inp j)) st = S at *
    refine ⟨by rw [List.length_set, h1], fun i hi => ?_⟩
    have hset : word (S.set n (word S n ^^^ word inp n)) i = if n = i then word S n ^^^ word inp n else word S i := by
      unfold word
      rw [List.getD_eq_getElem?_getD, List.getElem?_set]
      by_cases e : n = i
      · rw [if_pos e, if_pos e, if_pos (by omega), Option.getD_some]
      · rw [if_neg e, if_neg e, List.getD_eq_getElem?_getD]
    rw [hset]
    by_cases e : n = i
    · subst e
      rw [if_pos rfl, h2 n hi, if_neg (by omega), if_pos (by omega)]
    · rw [if_neg e, h2 i hi]
      by_cases e2 : i < n
      · rw [if_pos e2, if_pos (by omega)]
      · rw [if_neg e2, if_neg (by omega)]

theorem generic {n : Nat} (hn : n ≤ 25) (st : List U64) (hs : st.length = 25) (data : List U8) (off : Nat) (h : off + 8 * n ≤ data.length) :
    ∃ st', KeccakAbsorb st data off n = .ok st' ∧ st'.length = 25 ∧ lanesC st' = keccakf 24 (xorInto (lanesC st) ((data.drop off).take (8 * n))) := by
  obtain ⟨w, hw, hi⟩ := input_word h
  obtain ⟨-, h2⟩ := xor_fold w n st hs hn
  refine ⟨KeccakPermutationOnWordsAfterXoring st w n, by unfold KeccakAbsorb; rw [hw, Go.bind_ok, Go.pure_ok], permutation_length _, ?_⟩
  unfold KeccakPermutationOnWordsAfterXoring
  rw [permutation_ok, xor_block (n := n) (b := (data.drop off).take (8 * n)) (by rw [List.length_take, List.length_drop]; omega) hi h2]

theorem ofNat_rate {rate : U32} {n k : Nat} (hr : rate.toNat = 64 * n) (hk : 64 * k < 2 ^ 32) : rate = BitVec.ofNat 32 (64 * k) ↔ n = k := by
  constructor
  · intro h
    rw [h, BitVec.toNat_ofNat, Nat.mod_eq_of_lt hk] at hr
    omega
  · rintro rfl
    apply BitVec.eq_of_toNat_eq
    rw [hr, BitVec.toNat_ofNat, Nat.mod_eq_of_lt hk]

/-- Whatever the rate, the block at `off` is exclusive-ored into the state and the permutation applied. -/
theorem absorbBlock_ok {rate : U32} {n : Nat} (hr : rate.toNat = 64 * n) (hn : n ≤ 25) (st : List U64) (hs : st.length = 25) (data : List U8) (off : Nat)
    (h : off + 8 * n ≤ data.length) :
    ∃ st', absorbBlock rate st data off = .ok st' ∧ st'.length = 25 ∧ lanesC st' = keccakf 24 (xorInto (lanesC st) ((data.drop off).take (8 * n))) := by
  unfold absorbBlock
  have e9 := ofNat_rate (k := 9) hr (by decide)
  have e13 := ofNat_rate (k := 13) hr (by decide)
  have e16 := ofNat_rate (k := 16) hr (by decide)
  have e17 := ofNat_rate (k := 17) hr (by decide)
  have e18 := ofNat_rate (k := 18) hr (by decide)
  have e21 := ofNat_rate (k := 21) hr (by decide)
  simp only [Nat.reduceMul] at e9 e13 e16 e17 e18 e21
  simp only [e9, e13, e16, e17, e18, e21]
  by_cases h9 : n = 9
  · subst h9; rw [if_pos rfl]; exact special x576 st data off h
  rw [if_neg h9]
  by_cases h13 : n = 13
  · subst h13; rw [if_pos rfl]; exact special x832 st data off h
  rw [if_neg h13]
  by_cases h16 : n = 16
  · subst h16; rw [if_pos rfl]; exact special x1024 st data off h
  rw [if_neg h16]
  by_cases h17 : n = 17
  · subst h17; rw [if_pos rfl]; exact special x1088 st data off h
  rw [if_neg h17]
  by_cases h18 : n = 18
  · subst h18; rw [if_pos rfl]; exact special x1152 st data off h
  rw [if_neg h18]
  by_cases h21 : n = 21
  · subst h21; rw [if_pos rfl]; exact special x1344 st data off h
  rw [if_neg h21]
  have : (rate / 64#32).toNat = n := by
    rw [BitVec.toNat_udiv, hr]
    show 64 * n / 64 = n
    omega
  rw [this]
  exact generic hn st hs data off h

theorem flatMap_take {f : Nat → List U8} (hf : ∀ i, (f i).length = 8) : ∀ (m n : Nat), n ≤ m → ((List.range m).flatMap f).take (8 * n) = (List.range n).flatMap f := by
  have hl : ∀ m, ((List.range m).flatMap f).length = 8 * m := by
    intro m
    induction m with
    | zero => rfl
    | succ m ih => rw [List.range_succ, List.flatMap_append, List.length_append, ih, List.flatMap_singleton, hf]; omega
  intro m
  induction m with
  | zero => intro n h; obtain rfl : n = 0 := by omega
            rfl
  | succ m ih =>
    intro n h
    by_cases e : n = m + 1
    · subst e; rw [List.take_of_length_le (by rw [hl])]
    · rw [List.range_succ, List.flatMap_append, List.take_append_of_le_length (by rw [hl]; omega), ih n (by omega)]

theorem bytes_take (st : List U64) {n : Nat} (hn : n ≤ 25) : (bytes (lanesC st)).take (8 * n) = (List.range n).flatMap fun i => leBytes 8 (wordC st i).toNat := by
  unfold bytes
  rw [flatMap_take (fun i => leBytes_length 8 _) 25 n hn]
  apply List.flatMap_congr
  intro i hi
  have hi := List.mem_range.1 hi
  unfold lanesC
  rw [Fin.val_ofNat, Fin.val_ofNat, show i % 5 + 5 * (i / 5 % 5) = i by omega]

theorem extract_generic (st : List U64) {n : Nat} (hn : n ≤ 25) : KeccakExtract st n = (bytes (lanesC st)).take (8 * n) := by
  rw [bytes_take st hn]
  rfl

theorem extract_1024 (st : List U64) : KeccakExtract1024bits st = (bytes (lanesC st)).take 128 := by
  rw [show 128 = 8 * 16 from rfl, bytes_take st (by decide)]
  unfold KeccakExtract1024bits
  apply List.flatMap_congr
  intro i hi
  have hi := List.mem_range.1 hi
  have : wordC st i = if i = 1 ∨ i = 2 ∨ i = 8 ∨ i = 12 ∨ i = 17 ∨ i = 20 then ~~~ word st i else word st i := rfl
  rw [this]
  by_cases h : i = 1 ∨ i = 2 ∨ i = 8 ∨ i = 12
  · rw [if_pos h, if_pos (by omega)]
  · rw [if_neg h, if_neg (by omega)]

end Verif.Lemmas.KeccakC
