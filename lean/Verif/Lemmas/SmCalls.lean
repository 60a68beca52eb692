import Verif.Spec.SmCalls
import Verif.Lemmas.RunSM3

/-!
# For C120: the calls of the sanity and the avalanche test

`hf` is a hash function that always returns: it takes the state `w` of the program to another one. The results quantify over all `step`, so
they determine the calls that are made, with the keys and in the order given by `Spec.SmCalls`: take for `w` the list of the calls so far.
-/

namespace Verif.Lemmas.SmCalls
open Verif Verif.Model.Smhasher Verif.Model.RunSM Verif.Spec.Smhasher Verif.Spec.SmCalls Verif.Lemmas.Smhasher
open Verif.Lemmas.RunSM (keyHash_eq)
open Verif.Lemmas.Ht (set_eq)

section
variable {ω : Type} (step : ω → List U8 → U64 → ω × U64)

theorem after_nil (w : ω) : after step w [] = w := rfl

theorem after_append (w : ω) (a b : List (List U8)) : after step w (a ++ b) = after step (after step w a) b := List.foldl_append

theorem after_range (w : ω) (g : Nat → List (List U8)) (n : Nat) :
    after step w ((List.range (n + 1)).flatMap g) = after step (after step w ((List.range n).flatMap g)) (g n) := by
  rw [List.range_succ, List.flatMap_append, after_append, List.flatMap_singleton]

theorem answers_append (a b : List (List U8)) : ∀ w : ω, answers step w (a ++ b) = answers step w a ++ answers step (after step w a) b := by
  induction a with
  | nil => intro w; rfl
  | cons k ks ih => intro w; rw [List.cons_append, answers, ih]; rfl

theorem answers_length (a : List (List U8)) : ∀ w : ω, (answers step w a).length = a.length := by
  induction a with
  | nil => intro w; rfl
  | cons k ks ih => intro w; rw [answers, List.length_cons, ih, List.length_cons]

/-! ### Avalanche -/

theorem bit_ok (h : U64) (i m : Nat) (k : Key) (hk : k.bits = m) (hi : i < m) (g : Nat → Nat → Nat) (w : ω) :
    ∃ g', Model.RunSM.avalancheBit (fun w k s => .ok (step w k s)) h i (w, k, gridOf m g) =
      .ok ((step w (flipped (keyBytes k) i) 0).1, k, gridOf m g') := by
  obtain ⟨k', h1, h2, h3⟩ := flipBit_eq k i (by omega)
  obtain ⟨d', h4⟩ := addBits_eq (h ^^^ (step w (keyBytes k') 0).2) (g i)
  refine ⟨fun p => if p = i then fun j => g i j + ((h ^^^ (step w (keyBytes k') 0).2).getLsbD j).toNat else g p, ?_⟩
  unfold Model.RunSM.avalancheBit
  dsimp only
  rw [h1, Go.bind_ok, keyHash_eq, Go.bind_ok]
  rw [flipBit_flipBit k i (by omega) h1, Go.bind_ok, gridOf, tab_idx _ hi, Go.bind_ok, h4, Go.bind_ok,
    set_eq (by rw [tab_length]; exact hi), Go.bind_ok, Go.pure_ok, tab_set _ hi, ← h3]
  unfold gridOf
  refine congrArg (fun x => Except.ok ((step w (keyBytes k') 0).1, k, x)) ?_
  apply tab_congr
  intro p _
  by_cases e : p = i
  · subst e
    simp only [if_true]
  · simp only [if_neg e]

theorem round_ok (r : Nat → U32) (m : Nat) (w : ω) (pos : Nat) (k : Key) (hb : (Model.RunSM.random r pos k).1.bits = m) (g : Nat → Nat → Nat) :
    ∃ g', Model.RunSM.avalancheRound (fun w k s => .ok (step w k s)) r m (w, pos, k, gridOf m g) =
      .ok (after step w (roundCalls (keyBytes (Model.RunSM.random r pos k).1)), (Model.RunSM.random r pos k).2, (Model.RunSM.random r pos k).1, gridOf m g') := by
  unfold Model.RunSM.avalancheRound
  dsimp only
  generalize Model.RunSM.random r pos k = q at hb ⊢
  obtain ⟨k1, pos1⟩ := q
  dsimp only at hb ⊢
  rw [keyHash_eq, Go.bind_ok]
  obtain ⟨q, h3, h4, ⟨g', h5⟩, h6⟩ := forRange_inv (fun j (q : ω × Key × List (List Nat)) => q.2.1 = k1 ∧ (∃ g', q.2.2 = gridOf m g') ∧
      q.1 = after step (step w (keyBytes k1) 0).1 ((List.range j).map (flipped (keyBytes k1)))) 0 m
    (body := Model.RunSM.avalancheBit (fun w k s => .ok (step w k s)) (step w (keyBytes k1) 0).2)
    (by
      rintro j ⟨w', k, grid⟩ _ hj ⟨h1, ⟨g, h2⟩, h3⟩
      dsimp only at h1 h2 h3
      subst h1 h2
      obtain ⟨g', h4⟩ := bit_ok step (step w (keyBytes k) 0).2 j m k hb (by omega) g w'
      refine ⟨_, h4, rfl, ⟨g', rfl⟩, ?_⟩
      dsimp only
      rw [List.range_succ, List.map_append, after_append, ← h3]
      rfl)
    ((step w (keyBytes k1) 0).1, k1, gridOf m g) ⟨rfl, ⟨g, rfl⟩, rfl⟩
  obtain ⟨w2, k2, grid⟩ := q
  dsimp only at h4 h5 h6
  subst h4 h5
  rw [h3, Go.bind_ok]
  refine ⟨g', ?_⟩
  rw [h6, Nat.zero_add]
  have e : m = 8 * (keyBytes k2).length := by rw [keyBytes_length]; exact hb.symm
  unfold roundCalls
  rw [e]
  rfl

/-- The rounds for one kind of key. `K z` is the key before round `z`, `P z` the numbers drawn by then. -/
theorem rounds_ok (r : Nat → U32) (k : Key) (K : Nat → Key) (P : Nat → Nat) (h0 : K 0 = k) (p0 : P 0 = 0) (hb : ∀ z, (K z).bits = k.bits)
    (hs : ∀ z, Model.RunSM.random r (P z) (K z) = (K (z + 1), P (z + 1))) (w : ω) :
    avalanche1 (fun w k s => .ok (step w k s)) r k w = .ok (after step w ((List.range 100000).flatMap fun z => roundCalls (keyBytes (K (z + 1))))) := by
  unfold avalanche1
  dsimp only
  have e0 : List.replicate k.bits (List.replicate hashSize 0) = gridOf k.bits fun _ _ => 0 := by
    rw [hashSize_eq]; simp [gridOf, tab, List.map_const']
  rw [e0]
  obtain ⟨q, h1, h2, h3⟩ := forRange_inv (fun j (q : ω × Nat × Key × List (List Nat)) =>
      q.1 = after step w ((List.range j).flatMap fun z => roundCalls (keyBytes (K (z + 1)))) ∧ ∃ g', q.2 = (P j, K j, gridOf k.bits g')) 0 100000
    (body := fun _ => Model.RunSM.avalancheRound (fun w k s => .ok (step w k s)) r k.bits)
    (by
      rintro j ⟨w', q2⟩ _ hj ⟨h1, ⟨g, h2⟩⟩
      dsimp only at h1 h2
      subst h2
      obtain ⟨g', h4⟩ := round_ok step r k.bits w' (P j) (K j) (by rw [hs]; exact hb _) g
      refine ⟨_, h4, ?_, g', by rw [hs]⟩
      dsimp only
      rw [hs, after_range, ← h1])
    (w, 0, k, gridOf k.bits fun _ _ => 0) ⟨rfl, ⟨_, by rw [h0, p0]⟩⟩
  rw [h1, Go.bind_ok, Go.pure_ok, h2, Nat.zero_add]

theorem setWidth8 (x : U32) : x.setWidth 8 = BitVec.ofNat 8 x.toNat := by
  apply BitVec.eq_of_toNat_eq
  rw [BitVec.toNat_setWidth, BitVec.toNat_ofNat]

theorem randBytes_drawn (r : Nat → U32) (pos n : Nat) : randBytes r pos n = drawn r pos n := by
  unfold randBytes drawn
  exact List.map_congr_left fun i _ => setWidth8 _

theorem bytes_ok (r : Nat → U32) (n : Nat) (w : ω) :
    avalanche1 (fun w k s => .ok (step w k s)) r (.bytes (List.replicate n 0)) w =
      .ok (after step w ((List.range 100000).flatMap fun z => roundCalls (drawn r (z * n) n))) := by
  rw [rounds_ok step r (.bytes (List.replicate n 0)) (fun z => match z with
      | 0 => .bytes (List.replicate n 0)
      | z + 1 => .bytes (drawn r (z * n) n)) (fun z => z * n) rfl (Nat.zero_mul _)]
  · rfl
  · intro z
    cases z with
    | zero => rfl
    | succ z => simp [Key.bits, drawn]
  · intro z
    cases z with
    | zero => simp [Model.RunSM.random, randBytes_drawn]
    | succ z => 
      simp only [Model.RunSM.random, randBytes_drawn]
      simp [drawn, Nat.succ_mul]

theorem int32_ok (r : Nat → U32) (w : ω) :
    avalanche1 (fun w k s => .ok (step w k s)) r (.int32 0) w =
      .ok (after step w ((List.range 100000).flatMap fun z => roundCalls (leBytes 4 (r z).toNat))) := by
  rw [rounds_ok step r (.int32 0) (fun z => match z with
      | 0 => .int32 0
      | z + 1 => .int32 (r z)) (fun z => z) rfl rfl]
  · rfl
  · intro z
    cases z <;> rfl
  · intro z
    cases z <;> rfl

theorem leBytes_halves (a b : Nat) (ha : a < 2 ^ 32) : leBytes 8 (a + b * 2 ^ 32) = leBytes 4 a ++ leBytes 4 b := by
  have h : ∀ n x, leBytes (n + 1) x = BitVec.ofNat 8 x :: leBytes n (x / 256) := fun n x => rfl
  have hz : ∀ x, leBytes 0 x = [] := fun x => rfl
  have key : ∀ n a b, a < 256 ^ n → leBytes (n + 4) (a + b * 256 ^ n) = leBytes n a ++ leBytes 4 b := by
    intro n
    induction n with
    | zero => intro a b ha; rw [hz, Nat.zero_add]; simp at ha; subst ha; simp
    | succ n ih =>
      intro a b ha
      rw [show n + 1 + 4 = (n + 4) + 1 by omega, h, h n a, List.cons_append]
      have e : (a + b * 256 ^ (n + 1)) / 256 = a / 256 + b * 256 ^ n := by
        rw [Nat.pow_succ, ← Nat.mul_assoc, Nat.add_mul_div_right _ _ (by omega)]
      rw [e, ih _ _ (by rw [Nat.pow_succ] at ha; omega)]
      congr 1
      apply BitVec.eq_of_toNat_eq
      rw [BitVec.toNat_ofNat, BitVec.toNat_ofNat, Nat.pow_succ, ← Nat.mul_assoc]
      omega
  exact key 4 a b ha

theorem int64_toNat (x y : U32) : (x.setWidth 64 + y.setWidth 64 <<< 32).toNat = x.toNat + y.toNat * 2 ^ 32 := by
  have := x.isLt
  have := y.isLt
  rw [BitVec.toNat_add, BitVec.toNat_shiftLeft, BitVec.toNat_setWidth, BitVec.toNat_setWidth, Nat.shiftLeft_eq,
    Nat.mod_eq_of_lt (a := x.toNat) (by omega), Nat.mod_eq_of_lt (a := y.toNat) (by omega), Nat.mod_eq_of_lt (a := y.toNat * 2 ^ 32) (by omega),
    Nat.mod_eq_of_lt (by omega)]

theorem int64_ok (r : Nat → U32) (w : ω) :
    avalanche1 (fun w k s => .ok (step w k s)) r (.int64 0) w =
      .ok (after step w ((List.range 100000).flatMap fun z => roundCalls (leBytes 4 (r (2 * z)).toNat ++ leBytes 4 (r (2 * z + 1)).toNat))) := by
  rw [rounds_ok step r (.int64 0) (fun z => match z with
      | 0 => .int64 0
      | z + 1 => .int64 ((r (2 * z)).setWidth 64 + (r (2 * z + 1)).setWidth 64 <<< 32)) (fun z => 2 * z) rfl rfl]
  · have e : ∀ z, keyBytes (.int64 ((r (2 * z)).setWidth 64 + (r (2 * z + 1)).setWidth 64 <<< 32)) =
        leBytes 4 (r (2 * z)).toNat ++ leBytes 4 (r (2 * z + 1)).toNat := by
      intro z
      unfold keyBytes
      dsimp only
      rw [int64_toNat, leBytes_halves _ _ (r (2 * z)).isLt]
    dsimp only
    simp only [e]
  · intro z
    cases z <;> simp only [Key.bits]
  · intro z
    cases z <;> simp only [Model.RunSM.random, Nat.mul_add, Nat.mul_one]

theorem fold_ok {κ : Type} (f : ω → κ → Go ω) (g : (Nat → List U8) → List (List U8)) : ∀ (l : List (κ × (Nat → List U8)))
    (_ : ∀ p ∈ l, ∀ w, f w p.1 = .ok (after step w (g p.2))) (w : ω),
    (l.map Prod.fst).foldlM f w = .ok (after step w ((l.map Prod.snd).flatMap g)) := by
  intro l
  induction l with
  | nil => intro _ w; rfl
  | cons p l ih =>
    intro h w
    rw [List.map_cons, List.foldlM_cons, h p (by simp), Go.bind_ok, ih (fun q hq => h q (List.mem_cons_of_mem _ hq)), List.map_cons, List.flatMap_cons, after_append]

/-- The kinds of keys with their sequences of random keys. -/
def kinds (r : Nat → U32) : List (Key × (Nat → List U8)) :=
  [(.bytes (List.replicate 2 0), fun z => drawn r (z * 2) 2), (.bytes (List.replicate 4 0), fun z => drawn r (z * 4) 4),
   (.bytes (List.replicate 8 0), fun z => drawn r (z * 8) 8), (.bytes (List.replicate 16 0), fun z => drawn r (z * 16) 16),
   (.bytes (List.replicate 32 0), fun z => drawn r (z * 32) 32), (.bytes (List.replicate 200 0), fun z => drawn r (z * 200) 200),
   (.int32 0, fun z => leBytes 4 (r z).toNat), (.int64 0, fun z => leBytes 4 (r (2 * z)).toNat ++ leBytes 4 (r (2 * z + 1)).toNat)]

theorem avalanche_ok (r : Nat → U32) (w : ω) :
    avalancheTest (fun w k s => .ok (step w k s)) r w = .ok (after step w (avalancheCalls r), ⟨false, []⟩) := by
  have h := fold_ok step (fun w k => avalanche1 (fun w k s => .ok (step w k s)) r k w)
    (fun key => (List.range 100000).flatMap fun z => roundCalls (key z)) (kinds r) (by
      intro p hp w
      unfold kinds at hp
      simp only [List.mem_cons, List.not_mem_nil, or_false] at hp
      rcases hp with rfl | rfl | rfl | rfl | rfl | rfl | rfl | rfl
      · exact bytes_ok step r 2 w
      · exact bytes_ok step r 4 w
      · exact bytes_ok step r 8 w
      · exact bytes_ok step r 16 w
      · exact bytes_ok step r 32 w
      · exact bytes_ok step r 200 w
      · exact int32_ok step r w
      · exact int64_ok step r w) w
  have e1 : (kinds r).map Prod.fst = Model.RunSM.avalancheKeys := rfl
  have e2 : (kinds r).map Prod.snd = Spec.SmCalls.avalancheKeys r := rfl
  rw [e1, e2] at h
  unfold avalancheTest
  rw [h, Go.bind_ok, Go.pure_ok]
  rfl

/-! ### Sanity -/

/-- The calls of the first `t` comparisons. -/
def firstCalls (r : Nat → U32) (t : Nat) : List (List U8) := (List.range t).flatMap fun t => [sanityKey r t, sanityKey r t]

theorem firstCalls_succ (r : Nat → U32) (t : Nat) : firstCalls r (t + 1) = firstCalls r t ++ [sanityKey r t, sanityKey r t] := by
  unfold firstCalls
  rw [List.range_succ, List.flatMap_append, List.flatMap_singleton]

theorem firstCalls_length (r : Nat → U32) (t : Nat) : (firstCalls r t).length = 2 * t := by
  induction t with
  | zero => rfl
  | succ t ih => rw [firstCalls_succ, List.length_append, ih]; rfl

/-- The number of comparisons among the first `t` with different answers. -/
def cnt (r : Nat → U32) (w : ω) (t : Nat) : Nat :=
  (List.range t).countP fun j => (answers step w (firstCalls r t))[2 * j]? ≠ (answers step w (firstCalls r t))[2 * j + 1]?

theorem cnt_succ (r : Nat → U32) (w : ω) (t : Nat) : cnt step r w (t + 1) = cnt step r w t +
    if (step (after step w (firstCalls r t)) (sanityKey r t) 0).2 ≠ (step (step (after step w (firstCalls r t)) (sanityKey r t) 0).1 (sanityKey r t) 0).2 then 1 else 0 := by
  unfold cnt
  have hl : (answers step w (firstCalls r t)).length = 2 * t := by rw [answers_length, firstCalls_length]
  rw [List.range_succ, List.countP_append, firstCalls_succ, answers_append]
  congr 1
  · apply List.countP_congr
    intro j hj
    have := List.mem_range.1 hj
    rw [List.getElem?_append_left (by omega), List.getElem?_append_left (by omega)]
  · simp [answers, hl, List.countP_cons]

/-- The state of the test after `t` comparisons. -/
def sane (r : Nat → U32) (w : ω) (t : Nat) : ω × Nat × Out :=
  (after step w (firstCalls r t), 352 * t, ⟨decide (0 < cnt step r w t), List.replicate (cnt step r w t) .depends⟩)

theorem sane_spec (r : Nat → U32) (w : ω) (t : Nat) : (sane step r w t).1 = after step w (firstCalls r t) ∧
    (sane step r w t).2.2.events = List.replicate ((List.range t).countP fun j =>
      (answers step w (firstCalls r t))[2 * j]? ≠ (answers step w (firstCalls r t))[2 * j + 1]?) .depends ∧
    ((sane step r w t).2.2.ret = true ↔ (sane step r w t).2.2.events ≠ []) := by
  refine ⟨rfl, rfl, ?_⟩
  show decide _ = true ↔ List.replicate _ _ ≠ []
  rw [decide_eq_true_iff, ne_eq, List.replicate_eq_nil_iff]
  omega

theorem sanityBody_ok (r : Nat → U32) (w : ω) (t n i : Nat) (hn : n < 128) (hi : i < 16) (h : t / 16 % 128 = n) :
    sanityBody (fun w k s => .ok (step w k s)) r n i (sane step r w t) = .ok (sane step r w (t + 1)) := by
  unfold sanityBody sane
  dsimp only
  obtain ⟨x, h1, h2, _, _⟩ := Props.C91_sanity (fun _ _ => 0) (randBytes r (352 * t) 176) (randBytes r (352 * t + 176) 176)
    (by simp [randBytes]) (by simp [randBytes]) n i hn hi
  have hx : x = sanityKey r t := by
    rw [h2, randBytes_drawn, sanityKey, h]
    unfold drawn
    apply List.ext_getElem
    · simp; omega
    · intro p h3 h4
      simp [Nat.add_assoc]
  rw [h1, Go.bind_ok]
  dsimp only
  unfold Model.RunSM.BytesHash
  rw [Go.bind_ok]
  dsimp only
  rw [Go.bind_ok]
  rw [hx, Go.pure_ok, cnt_succ, firstCalls_succ, after_append]
  by_cases e : (step (after step w (firstCalls r t)) (sanityKey r t) 0).2 ≠ (step (step (after step w (firstCalls r t)) (sanityKey r t) 0).1 (sanityKey r t) 0).2
  · rw [if_pos e, if_pos e, decide_eq_true (show 0 < cnt step r w t + 1 by omega), List.replicate_succ']
    rfl
  · rw [if_neg e, if_neg e, Nat.add_zero]
    rfl

theorem sanity_ok (r : Nat → U32) (w : ω) :
    sanity (fun w k s => .ok (step w k s)) r w = .ok ((sane step r w 20480).1, (sane step r w 20480).2.2) := by
  have h1 : ∀ t n, n < 128 → t / 16 % 128 = n → t % 16 = 0 →
      Go.forRange 0 16 (fun i => sanityBody (fun w k s => .ok (step w k s)) r n i) (sane step r w t) = .ok (sane step r w (t + 16)) := by
    intro t n hn h h'
    have := forRange_traj (fun i => sane step r w (t + i)) 0 16 (body := fun i => sanityBody (fun w k s => .ok (step w k s)) r n i)
      (fun i _ hi => sanityBody_ok step r w (t + i) n i hn (by omega) (by omega))
    exact this
  have h2 : ∀ k, Go.forRange 0 128 (fun n => Go.forRange 0 16 fun i => sanityBody (fun w k s => .ok (step w k s)) r n i) (sane step r w (2048 * k)) =
      .ok (sane step r w (2048 * (k + 1))) := by
    intro k
    have := forRange_traj (fun n => sane step r w (2048 * k + 16 * n)) 0 128
      (body := fun n => Go.forRange 0 16 fun i => sanityBody (fun w k s => .ok (step w k s)) r n i)
      (fun n _ hn => by
        have := h1 (2048 * k + 16 * n) n (by omega) (by omega) (by omega)
        rw [this]
        rfl)
    exact this
  have h3 := forRange_traj (fun k => sane step r w (2048 * k)) 0 10
    (body := fun _ => Go.forRange 0 128 fun n => Go.forRange 0 16 fun i => sanityBody (fun w k s => .ok (step w k s)) r n i)
    (fun k _ _ => h2 k)
  have h4 : sane step r w (2048 * 0) = (w, 0, ⟨false, []⟩) := rfl
  unfold sanity
  rw [h4, show 2048 * (0 + 10) = 20480 by norm_num] at h3
  rw [h3, Go.bind_ok]
  generalize sane step r w 20480 = q
  obtain ⟨a, b, c⟩ := q
  rfl

end
end Verif.Lemmas.SmCalls
