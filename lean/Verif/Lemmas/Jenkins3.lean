import Verif.Lemmas.Jenkins2

/-! lookup3: `Jenkins364` and the word hashes. The case lemmas are generated by tools/gen_j364.py. -/

namespace Verif.Lemmas.Jenkins
open Verif Verif.Model.Jenkins
open Verif.Spec.Jenkins (word T mixStep finalStep heads lastOf addBlock)

theorem heads_short {n : Nat} {m : List α} (hn : 0 < n) (h : m.length ≤ n) : heads n m = [] := by
  rw [heads, Nat.div_eq_of_lt (by omega)]; simp

theorem lastOf_short {n : Nat} {m : List α} (hn : 0 < n) (h : m.length ≤ n) : lastOf n m = m := by
  rw [lastOf, Nat.div_eq_of_lt (by omega)]; simp

theorem div_pred {n L : Nat} (hn : 0 < n) (h : n < L) : (L - 1) / n = (L - n - 1) / n + 1 := by
  have : L - 1 = (L - n - 1) + n := by omega
  rw [this, Nat.add_div_right _ hn]

theorem heads_cons {n : Nat} {m : List α} (hn : 0 < n) (h : n < m.length) :
    heads n m = m.take n :: heads n (m.drop n) := by
  have e : n ≤ (m.length - n - 1) / n * n + n := by omega
  have hle : (m.length - n - 1) / n * n ≤ m.length - n - 1 := Nat.div_mul_le_self _ _
  rw [heads, heads, div_pred hn h, Nat.add_mul, Nat.one_mul, blocks_of_le hn (by rw [List.length_take]; omega),
    List.take_take, Nat.min_eq_left e, List.drop_take, List.length_drop, Nat.add_sub_cancel]

theorem lastOf_cons {n : Nat} {m : List α} (hn : 0 < n) (h : n < m.length) :
    lastOf n m = lastOf n (m.drop n) := by
  rw [lastOf, lastOf, div_pred hn h, List.drop_drop, List.length_drop, Nat.add_mul, Nat.one_mul, Nat.add_comm]

/-- A loop that eats blocks while more than a block remains. `view` is the unread part of the data. -/
theorem while_heads {n : Nat} (hn : 0 < n) {cond : σ × ι × Int → Bool} {body : σ × ι × Int → Go (σ × ι × Int)}
    {f : σ → List α → σ} {next : ι → ι} (view : ι → List α)
    (hc : ∀ s i L, cond (s, i, L) = decide ((n : Int) < L))
    (hb : ∀ s i L, n ≤ (view i).length → body (s, i, L) = .ok (f s ((view i).take n), next i, L - n))
    (hv : ∀ i, view (next i) = (view i).drop n)
    (fuel : Nat) (s : σ) (i : ι) (L : Nat) (hl : L ≤ (view i).length) (hf : L ≤ fuel) :
    ∃ i', Go.while_ fuel cond body (s, i, (L : Int)) =
        .ok ((heads n ((view i).take L)).foldl f s, i', ((L - (L - 1) / n * n : Nat) : Int)) ∧
      view i' = (view i).drop ((L - 1) / n * n) := by
  induction fuel generalizing s i L with
  | zero =>
    obtain rfl : L = 0 := by omega
    refine ⟨i, ?_, by simp⟩
    rw [Go.while_, hc, decide_eq_false (by omega), heads_short hn (by simp)]; simp
  | succ m ih =>
    by_cases h : n < L
    · obtain ⟨i', e, v⟩ := ih (f s ((view i).take n)) (next i) (L - n) (by rw [hv, List.length_drop]; omega) (by omega)
      have e4 := div_pred hn h
      refine ⟨i', ?_, ?_⟩
      · have hcast : ((L : Int) - (n : Int)) = ((L - n : Nat) : Int) := by omega
        rw [Go.while_, hc, decide_eq_true (by omega), hb s i L (by omega), hcast]
        have e5 : heads n ((view i).take L) = (view i).take n :: heads n ((view (next i)).take (L - n)) := by
          rw [heads_cons hn (by rw [List.length_take]; omega), List.take_take, Nat.min_eq_left (by omega), List.drop_take, hv]
        show Go.while_ m cond body _ = _
        rw [e, e5, List.foldl_cons, e4, Nat.add_mul, Nat.one_mul, Nat.sub_sub, Nat.add_comm n]
      · rw [v, hv, List.drop_drop, e4, Nat.add_mul, Nat.one_mul, Nat.add_comm]
    · refine ⟨i, ?_, ?_⟩
      · rw [Go.while_, hc, decide_eq_false (by omega), heads_short hn (by rw [List.length_take]; omega), Nat.div_eq_of_lt (by omega)]; simp
      · rw [Nat.div_eq_of_lt (by omega)]; simp

/-- Adding a (possibly short) block to the state. -/
def addB (s : S3 32) (p : List U8) : S3 32 :=
  ⟨s.a + word 32 (p.take 4), s.b + word 32 ((p.drop 4).take 4), s.c + word 32 ((p.drop 8).take 4)⟩

theorem j1_eq (t : List U8) (h : 1 ≤ t.length) (s : S3 32) :
    j1 t s = .ok ⟨s.a + word 32 ((t.drop 0).take 1), s.b, s.c⟩ := by
  have e := word_one (w := 32) (t := t) (d := 0) (by omega)
  rw [e]
  unfold j1
  rw [Go.idx_eq (show 0 < t.length by omega), Go.bind_ok]
  rfl

theorem j2_eq (t : List U8) (h : 2 ≤ t.length) (s : S3 32) :
    j2 t s = .ok ⟨s.a + word 32 ((t.drop 0).take 2), s.b, s.c⟩ := by
  have e := word_succ (w := 32) (t := t) (d := 0) (k := 1) (by omega)
  rw [e, ← add_swap]
  unfold j2
  rw [Go.idx_eq (show 1 < t.length by omega), Go.bind_ok]
  rw [j1_eq t (by omega) _]

theorem j3_eq (t : List U8) (h : 3 ≤ t.length) (s : S3 32) :
    j3 t s = .ok ⟨s.a + word 32 ((t.drop 0).take 3), s.b, s.c⟩ := by
  have e := word_succ (w := 32) (t := t) (d := 0) (k := 2) (by omega)
  rw [e, ← add_swap]
  unfold j3
  rw [Go.idx_eq (show 2 < t.length by omega), Go.bind_ok]
  rw [j2_eq t (by omega) _]

theorem j4_eq (t : List U8) (h : 4 ≤ t.length) (s : S3 32) :
    j4 t s = .ok ⟨s.a + word 32 ((t.drop 0).take 4), s.b, s.c⟩ := by
  rw [j4, Go.unsafe32_eq (show 0 + 4 ≤ t.length by omega)]
  simp only [Go.bind_ok, Go.pure_ok]
  rfl

theorem j5_eq (t : List U8) (h : 5 ≤ t.length) (s : S3 32) :
    j5 t s = .ok ⟨s.a + word 32 ((t.drop 0).take 4), s.b + word 32 ((t.drop 4).take 1), s.c⟩ := by
  have e := word_one (w := 32) (t := t) (d := 4) (by omega)
  rw [e]
  unfold j5
  rw [Go.idx_eq (show 4 < t.length by omega), Go.bind_ok]
  rw [j4_eq t (by omega) _]

theorem j6_eq (t : List U8) (h : 6 ≤ t.length) (s : S3 32) :
    j6 t s = .ok ⟨s.a + word 32 ((t.drop 0).take 4), s.b + word 32 ((t.drop 4).take 2), s.c⟩ := by
  have e := word_succ (w := 32) (t := t) (d := 4) (k := 1) (by omega)
  rw [e, ← add_swap]
  unfold j6
  rw [Go.idx_eq (show 5 < t.length by omega), Go.bind_ok]
  rw [j5_eq t (by omega) _]

theorem j7_eq (t : List U8) (h : 7 ≤ t.length) (s : S3 32) :
    j7 t s = .ok ⟨s.a + word 32 ((t.drop 0).take 4), s.b + word 32 ((t.drop 4).take 3), s.c⟩ := by
  have e := word_succ (w := 32) (t := t) (d := 4) (k := 2) (by omega)
  rw [e, ← add_swap]
  unfold j7
  rw [Go.idx_eq (show 6 < t.length by omega), Go.bind_ok]
  rw [j6_eq t (by omega) _]

theorem j8_eq (t : List U8) (h : 8 ≤ t.length) (s : S3 32) :
    j8 t s = .ok ⟨s.a + word 32 ((t.drop 0).take 4), s.b + word 32 ((t.drop 4).take 4), s.c⟩ := by
  rw [j8, Go.unsafe32_eq (show 0 + 4 ≤ t.length by omega), Go.unsafe32_eq (show 4 + 4 ≤ t.length by omega)]
  simp only [Go.bind_ok, Go.pure_ok]
  rfl

theorem j9_eq (t : List U8) (h : 9 ≤ t.length) (s : S3 32) :
    j9 t s = .ok ⟨s.a + word 32 ((t.drop 0).take 4), s.b + word 32 ((t.drop 4).take 4), s.c + word 32 ((t.drop 8).take 1)⟩ := by
  have e := word_one (w := 32) (t := t) (d := 8) (by omega)
  rw [e]
  unfold j9
  rw [Go.idx_eq (show 8 < t.length by omega), Go.bind_ok]
  rw [j8_eq t (by omega) _]

theorem j10_eq (t : List U8) (h : 10 ≤ t.length) (s : S3 32) :
    j10 t s = .ok ⟨s.a + word 32 ((t.drop 0).take 4), s.b + word 32 ((t.drop 4).take 4), s.c + word 32 ((t.drop 8).take 2)⟩ := by
  have e := word_succ (w := 32) (t := t) (d := 8) (k := 1) (by omega)
  rw [e, ← add_swap]
  unfold j10
  rw [Go.idx_eq (show 9 < t.length by omega), Go.bind_ok]
  rw [j9_eq t (by omega) _]

theorem j11_eq (t : List U8) (h : 11 ≤ t.length) (s : S3 32) :
    j11 t s = .ok ⟨s.a + word 32 ((t.drop 0).take 4), s.b + word 32 ((t.drop 4).take 4), s.c + word 32 ((t.drop 8).take 3)⟩ := by
  have e := word_succ (w := 32) (t := t) (d := 8) (k := 2) (by omega)
  rw [e, ← add_swap]
  unfold j11
  rw [Go.idx_eq (show 10 < t.length by omega), Go.bind_ok]
  rw [j10_eq t (by omega) _]

theorem j12_eq (t : List U8) (h : 12 ≤ t.length) (s : S3 32) :
    j12 t s = .ok ⟨s.a + word 32 ((t.drop 0).take 4), s.b + word 32 ((t.drop 4).take 4), s.c + word 32 ((t.drop 8).take 4)⟩ := by
  rw [j12, Go.unsafe32_eq (show 0 + 4 ≤ t.length by omega), Go.unsafe32_eq (show 4 + 4 ≤ t.length by omega), Go.unsafe32_eq (show 8 + 4 ≤ t.length by omega)]
  simp only [Go.bind_ok, Go.pure_ok]
  rfl

theorem j364tail_eq (t : List U8) (l : Nat) (h0 : 0 < l) (h : l ≤ 12) (hl : l ≤ t.length) (s : S3 32) :
    j364tail t l s = .ok ((final2 (final1 (addB s (t.take l)))).c, (final2 (final1 (addB s (t.take l)))).b) := by
  rw [j364tail, if_neg (by omega)]
  rcases (by omega : l = 1 ∨ l = 2 ∨ l = 3 ∨ l = 4 ∨ l = 5 ∨ l = 6 ∨ l = 7 ∨ l = 8 ∨ l = 9 ∨ l = 10 ∨ l = 11 ∨ l = 12) with
    rfl | rfl | rfl | rfl | rfl | rfl | rfl | rfl | rfl | rfl | rfl | rfl
  · have e : addB s (t.take 1) = ⟨s.a + word 32 ((t.drop 0).take 1), s.b, s.c⟩ := by
      simp [addB, List.drop_take, List.take_take, word_nil]
    rw [e]
    show (j1 t s >>= _) = _
    rw [j1_eq t hl s, Go.bind_ok]; rfl
  · have e : addB s (t.take 2) = ⟨s.a + word 32 ((t.drop 0).take 2), s.b, s.c⟩ := by
      simp [addB, List.drop_take, List.take_take, word_nil]
    rw [e]
    show (j2 t s >>= _) = _
    rw [j2_eq t hl s, Go.bind_ok]; rfl
  · have e : addB s (t.take 3) = ⟨s.a + word 32 ((t.drop 0).take 3), s.b, s.c⟩ := by
      simp [addB, List.drop_take, List.take_take, word_nil]
    rw [e]
    show (j3 t s >>= _) = _
    rw [j3_eq t hl s, Go.bind_ok]; rfl
  · have e : addB s (t.take 4) = ⟨s.a + word 32 ((t.drop 0).take 4), s.b, s.c⟩ := by
      simp [addB, List.drop_take, List.take_take, word_nil]
    rw [e]
    show (j4 t s >>= _) = _
    rw [j4_eq t hl s, Go.bind_ok]; rfl
  · have e : addB s (t.take 5) = ⟨s.a + word 32 ((t.drop 0).take 4), s.b + word 32 ((t.drop 4).take 1), s.c⟩ := by
      simp [addB, List.drop_take, List.take_take, word_nil]
    rw [e]
    show (j5 t s >>= _) = _
    rw [j5_eq t hl s, Go.bind_ok]; rfl
  · have e : addB s (t.take 6) = ⟨s.a + word 32 ((t.drop 0).take 4), s.b + word 32 ((t.drop 4).take 2), s.c⟩ := by
      simp [addB, List.drop_take, List.take_take, word_nil]
    rw [e]
    show (j6 t s >>= _) = _
    rw [j6_eq t hl s, Go.bind_ok]; rfl
  · have e : addB s (t.take 7) = ⟨s.a + word 32 ((t.drop 0).take 4), s.b + word 32 ((t.drop 4).take 3), s.c⟩ := by
      simp [addB, List.drop_take, List.take_take, word_nil]
    rw [e]
    show (j7 t s >>= _) = _
    rw [j7_eq t hl s, Go.bind_ok]; rfl
  · have e : addB s (t.take 8) = ⟨s.a + word 32 ((t.drop 0).take 4), s.b + word 32 ((t.drop 4).take 4), s.c⟩ := by
      simp [addB, List.drop_take, List.take_take, word_nil]
    rw [e]
    show (j8 t s >>= _) = _
    rw [j8_eq t hl s, Go.bind_ok]; rfl
  · have e : addB s (t.take 9) = ⟨s.a + word 32 ((t.drop 0).take 4), s.b + word 32 ((t.drop 4).take 4), s.c + word 32 ((t.drop 8).take 1)⟩ := by
      simp [addB, List.drop_take, List.take_take, word_nil]
    rw [e]
    show (j9 t s >>= _) = _
    rw [j9_eq t hl s, Go.bind_ok]; rfl
  · have e : addB s (t.take 10) = ⟨s.a + word 32 ((t.drop 0).take 4), s.b + word 32 ((t.drop 4).take 4), s.c + word 32 ((t.drop 8).take 2)⟩ := by
      simp [addB, List.drop_take, List.take_take, word_nil]
    rw [e]
    show (j10 t s >>= _) = _
    rw [j10_eq t hl s, Go.bind_ok]; rfl
  · have e : addB s (t.take 11) = ⟨s.a + word 32 ((t.drop 0).take 4), s.b + word 32 ((t.drop 4).take 4), s.c + word 32 ((t.drop 8).take 3)⟩ := by
      simp [addB, List.drop_take, List.take_take, word_nil]
    rw [e]
    show (j11 t s >>= _) = _
    rw [j11_eq t hl s, Go.bind_ok]; rfl
  · have e : addB s (t.take 12) = ⟨s.a + word 32 ((t.drop 0).take 4), s.b + word 32 ((t.drop 4).take 4), s.c + word 32 ((t.drop 8).take 4)⟩ := by
      simp [addB, List.drop_take, List.take_take, word_nil]
    rw [e]
    show (j12 t s >>= _) = _
    rw [j12_eq t hl s, Go.bind_ok]; rfl

/-! ### `Jenkins364` -/

def fL3 (s : S3 32) (p : List U8) : S3 32 := mix2 (mix1 (addB s p))

theorem j364body_eq (s : S3 32) (k : List U8) (L : Int) (h : 12 ≤ k.length) :
    j364body (s, k, L) = .ok (fL3 s (k.take 12), k.drop 12, L - (12 : Nat)) := by
  rw [j364body, Go.unsafe32_eq (show 0 + 4 ≤ k.length by omega), Go.unsafe32_eq (show 4 + 4 ≤ k.length by omega),
    Go.unsafe32_eq (show 8 + 4 ≤ k.length by omega), Go.from_eq h]
  simp only [Go.bind_ok, Go.pure_ok, fL3, addB, List.drop_take, List.take_take]
  rfl

theorem toT_addB (s : S3 32) (p : List U8) : toT (addB s p) = addBlock (toT s) p := rfl

theorem toT_fL3 (s : S3 32) (p : List U8) : toT (fL3 s p) = Spec.Jenkins.mix (addBlock (toT s) p) := by
  rw [← toT_addB, mix_spec]; rfl

/-- The lookup3 specification in terms of the model's state. -/
theorem lookup3_S3 (len pc pb : U32) (m : List U8) : Spec.Jenkins.lookup3 len pc pb m =
    if m.isEmpty then (0xdeadbeef#32 + len + pc + pb, 0xdeadbeef#32 + len + pc)
    else ((final2 (final1 (addB ((heads 12 m).foldl fL3 ⟨0xdeadbeef#32 + len + pc, 0xdeadbeef#32 + len + pc, 0xdeadbeef#32 + len + pc + pb⟩) (lastOf 12 m)))).c,
      (final2 (final1 (addB ((heads 12 m).foldl fL3 ⟨0xdeadbeef#32 + len + pc, 0xdeadbeef#32 + len + pc, 0xdeadbeef#32 + len + pc + pb⟩) (lastOf 12 m)))).b) := by
  rw [Spec.Jenkins.lookup3]
  generalize 0xdeadbeef#32 + len + pc = a
  have hf := toT_foldl (g := fun s p => Spec.Jenkins.mix (addBlock s p)) toT_fL3 (heads 12 m) ⟨a, a, a + pb⟩
  have ht : ∀ a b c : U32, toT (⟨a, b, c⟩ : S3 32) = (a, b, c) := fun _ _ _ => rfl
  rw [ht a a (a + pb)] at hf
  simp only []
  rw [← hf]
  generalize List.foldl fL3 _ _ = s1
  rw [← toT_addB, final_spec]
  rfl

/-- `Jenkins364` on a length that fits: the lookup3 specification of the prefix, with the initial value
computed from the whole slice. -/
theorem Jenkins364_prefix (k : List U8) (L : Nat) (h0 : 0 < L) (hl : L ≤ k.length) (pc pb : U32) :
    Jenkins364 k (L : Int) pc pb = .ok (Spec.Jenkins.lookup3 (BitVec.ofNat 32 k.length) pc pb (k.take L)) := by
  rw [lookup3_S3, Jenkins364, if_neg (by omega)]
  simp only [Int.toNat_natCast]
  generalize 0xdeadbeef#32 + BitVec.ofNat 32 k.length + pc = a
  obtain ⟨k', e, v⟩ := while_heads (n := 12) (by decide) (cond := fun x : S3 32 × List U8 × Int => decide ((12 : Int) < x.2.2))
    (body := j364body) (f := fL3) (next := fun k => k.drop 12) (view := fun k => k) (fun _ _ _ => rfl) j364body_eq (fun _ => rfl)
    L ⟨a, a, a + pb⟩ k L hl (Nat.le_refl _)
  have hq : (L - 1) / 12 * 12 ≤ L - 1 := Nat.div_mul_le_self _ _
  have hr : L - (L - 1) / 12 * 12 ≤ 12 := by omega
  rw [e, Go.bind_ok]
  simp only []
  subst v
  rw [j364tail_eq _ _ (by omega) hr (by rw [List.length_drop]; omega)]
  have hne : (k.take L).isEmpty = false := by
    rw [List.isEmpty_eq_false_iff]; intro hh; have hh := congrArg List.length hh; rw [List.length_take, List.length_nil] at hh; omega
  have hlast : lastOf 12 (k.take L) = (k.drop ((L - 1) / 12 * 12)).take (L - (L - 1) / 12 * 12) := by
    rw [lastOf, List.length_take, Nat.min_eq_left hl, List.drop_take]
  rw [← hlast, hne]
  simp only [Bool.false_eq_true, if_false]

theorem Jenkins364_nil (pc pb : U32) : Jenkins364 [] 0 pc pb = .ok (Spec.Jenkins.lookup3 0#32 pc pb []) := by
  rfl

theorem Jenkins364_zero (k : List U8) (pc pb : U32) : Jenkins364 k 0 pc pb = Jenkins364 k k.length pc pb := by
  rw [Jenkins364, Jenkins364, if_pos rfl]
  congr 1
  by_cases h : (k.length : Int) = 0
  · rw [if_pos h]
  · rw [if_neg h]

theorem Jenkins364_full (k : List U8) (pc pb : U32) :
    Jenkins364 k k.length pc pb = .ok (Spec.Jenkins.hashlittle2 pc pb k) := by
  by_cases h : k.length = 0
  · rw [List.length_eq_zero_iff.1 h]; exact Jenkins364_nil pc pb
  · rw [Jenkins364_prefix k k.length (by omega) (Nat.le_refl _), List.take_of_length_le (Nat.le_refl _)]; rfl

/-! ### Word hashes -/

/-- Adding a (possibly short) block of words. -/
def addW (s : S3 32) (p : List U32) : S3 32 := ⟨s.a + p.getD 0 0#32, s.b + p.getD 1 0#32, s.c + p.getD 2 0#32⟩
def fW (s : S3 32) (p : List U32) : S3 32 := mix2 (mix1 (addW s p))

theorem getD_drop_take {k : List U32} {i j n : Nat} (h : j < n) (hk : i + j < k.length) :
    ((k.drop i).take n).getD j 0#32 = k[i + j] := by
  rw [List.getD_eq_getElem?_getD, List.getElem?_take_of_lt h, List.getElem?_drop, List.getElem?_eq_getElem hk]; rfl

theorem getD_drop_take_ge {k : List U32} {i j n : Nat} (h : n ≤ j) : ((k.drop i).take n).getD j 0#32 = 0#32 := by
  rw [List.getD_eq_getElem?_getD, List.getElem?_eq_none (by simp; omega)]; rfl

theorem wordsBody_eq (k : List U32) (s : S3 32) (i : Nat) (L : Int) (h : 3 ≤ (k.drop i).length) :
    wordsBody k (s, i, L) = .ok (fW s ((k.drop i).take 3), i + 3, L - (3 : Nat)) := by
  rw [List.length_drop] at h
  rw [fW, addW, getD_drop_take (by decide) (by omega), getD_drop_take (by decide) (by omega), getD_drop_take (by decide) (by omega),
    wordsBody, Go.idx_eq (show i + 0 < k.length by omega), Go.idx_eq (show i + 1 < k.length by omega), Go.idx_eq (show i + 2 < k.length by omega)]
  simp only [Go.bind_ok, Go.pure_ok]
  rfl

theorem wordsC1_eq (k : List U32) (i : Nat) (h : i < k.length) (s : S3 32) :
    wordsC1 k i s = .ok (final2 (final1 ⟨s.a + k[i], s.b, s.c⟩)).c := by
  rw [wordsC1, Go.idx_eq (show i + 0 < k.length by omega), Go.bind_ok, Go.pure_ok]; rfl
theorem wordsC2_eq (k : List U32) (i : Nat) (h : i + 1 < k.length) (s : S3 32) :
    wordsC2 k i s = .ok (final2 (final1 ⟨s.a + k[i], s.b + k[i + 1], s.c⟩)).c := by
  rw [wordsC2, Go.idx_eq h, Go.bind_ok, wordsC1_eq k i (by omega)]
theorem wordsC3_eq (k : List U32) (i : Nat) (h : i + 2 < k.length) (s : S3 32) :
    wordsC3 k i s = .ok (final2 (final1 ⟨s.a + k[i], s.b + k[i + 1], s.c + k[i + 2]⟩)).c := by
  rw [wordsC3, Go.idx_eq h, Go.bind_ok, wordsC2_eq k i (by omega)]

theorem wordsTail_eq (k : List U32) (i l : Nat) (h0 : 0 < l) (h3 : l ≤ 3) (h : i + l ≤ k.length) (s : S3 32) :
    wordsTail k i l s = .ok (final2 (final1 (addW s ((k.drop i).take l)))).c := by
  rcases (by omega : l = 1 ∨ l = 2 ∨ l = 3) with rfl | rfl | rfl
  · rw [wordsTail, if_neg (by decide), if_neg (by decide), if_pos (by rfl), wordsC1_eq k i (by omega), addW,
      getD_drop_take (by decide) (by omega), getD_drop_take_ge (by decide), getD_drop_take_ge (by decide), BitVec.add_zero, BitVec.add_zero]
    rfl
  · rw [wordsTail, if_neg (by decide), if_pos (by rfl), wordsC2_eq k i (by omega), addW,
      getD_drop_take (by decide) (by omega), getD_drop_take (by decide) (by omega), getD_drop_take_ge (by decide), BitVec.add_zero]
    rfl
  · rw [wordsTail, if_pos (by rfl), wordsC3_eq k i (by omega), addW,
      getD_drop_take (by decide) (by omega), getD_drop_take (by decide) (by omega), getD_drop_take (by decide) (by omega)]
    rfl

theorem wordsTail_zero (k : List U32) (i : Nat) (s : S3 32) : wordsTail k i 0 s = .ok s.c := rfl

theorem xmix_eq (s : S3 32) : xmix s = mix2 (mix1 s) := by simp only [xmix, mix1, mix2]
theorem xfinal_eq (s : S3 32) : xfinal s = final2 (final1 s) := by simp only [xfinal, final1, final2]

theorem xwordsBody_eq (k : List U32) : xwordsBody k = wordsBody k := by
  funext x; simp only [xwordsBody, wordsBody, xmix_eq]
theorem xwordsTail_eq : xwordsTail = wordsTail := by
  funext k i l s
  simp only [xwordsTail, wordsTail, xwordsC1, xwordsC2, xwordsC3, wordsC1, wordsC2, wordsC3, xfinal_eq]

/-- What the word loop and switch compute on `L` words. -/
def wordsSpec (a : U32) (m : List U32) : U32 :=
  if m.isEmpty then a
  else (final2 (final1 (addW ((heads 3 m).foldl fW ⟨a, a, a⟩) (lastOf 3 m)))).c

theorem words_run (k : List U32) (a : U32) (L fuel : Nat) (hl : L ≤ k.length) (hf : L ≤ fuel) :
    (do let (s, i, l) ← Go.while_ fuel (fun x : S3 32 × Nat × Int => decide ((3 : Int) < x.2.2)) (wordsBody k) (⟨a, a, a⟩, 0, (L : Int))
        wordsTail k i l s) = .ok (wordsSpec a (k.take L)) := by
  obtain ⟨i', e, v⟩ := while_heads (n := 3) (by decide) (cond := fun x : S3 32 × Nat × Int => decide ((3 : Int) < x.2.2))
    (body := wordsBody k) (f := fW) (next := fun i => i + 3) (view := fun i => k.drop i) (fun _ _ _ => rfl)
    (wordsBody_eq k) (fun i => by rw [List.drop_drop]) fuel ⟨a, a, a⟩ 0 L (by simpa using hl) hf
  rw [e, Go.bind_ok]
  simp only [List.drop_zero] at v ⊢
  have hq : (L - 1) / 3 * 3 ≤ L - 1 := Nat.div_mul_le_self _ _
  by_cases h : L = 0
  · subst h
    rw [heads_short (by decide) (by simp), wordsSpec]
    exact wordsTail_zero k i' _
  · have hlen := congrArg List.length v
    rw [List.length_drop, List.length_drop] at hlen
    have hr : L - (L - 1) / 3 * 3 ≤ 3 := by omega
    rw [wordsTail_eq k i' _ (by omega) hr (by omega), v, wordsSpec]
    have hne : (k.take L).isEmpty = false := by
      rw [List.isEmpty_eq_false_iff]; intro hh; have hh := congrArg List.length hh; rw [List.length_take, List.length_nil] at hh; omega
    have hlast : lastOf 3 (k.take L) = (k.drop ((L - 1) / 3 * 3)).take (L - (L - 1) / 3 * 3) := by
      rw [lastOf, List.length_take, Nat.min_eq_left hl, List.drop_take]
    rw [← hlast, hne]
    rfl

theorem HashWordsLen_eq (k : List U32) (L : Nat) (hl : L ≤ k.length) (seed : U32) :
    HashWordsLen k L seed = .ok (wordsSpec (0xdeadbeef#32 + BitVec.ofNat 32 k.length <<< 2 + seed) (k.take L)) := by
  rw [HashWordsLen, if_neg (by omega)]
  exact words_run k _ L _ hl (by simp)

theorem HashWords332_eq (k : List U32) (hk : k.length < 2 ^ 32) (seed : U32) :
    HashWords332 k seed = .ok (wordsSpec (0xdeadbeef#32 + BitVec.ofNat 32 k.length <<< 2 + seed) k) := by
  have := words_run k (0xdeadbeef#32 + BitVec.ofNat 32 k.length <<< 2 + seed) k.length k.length (Nat.le_refl _) (Nat.le_refl _)
  rw [List.take_of_length_le (Nat.le_refl _)] at this
  rw [HashWords332, BitVec.toNat_ofNat, Nat.mod_eq_of_lt hk]
  exact this

theorem XHashWords_eq (k : List U32) (n : Int) (seed : U32) :
    XHashWords k n seed = .ok (wordsSpec (0xdeadbeef#32 + BitVec.ofNat 32 k.length <<< 2 + seed) k) := by
  have := words_run k (0xdeadbeef#32 + BitVec.ofNat 32 k.length <<< 2 + seed) k.length k.length (Nat.le_refl _) (Nat.le_refl _)
  rw [List.take_of_length_le (Nat.le_refl _)] at this
  rw [XHashWords, xwordsBody_eq, xwordsTail_eq]
  exact this

/-! ### Words as bytes -/

/-- The little-endian bytes of a word slice. -/
def bytesOf (k : List U32) : List U8 := k.flatMap fun x => leBytes 4 x.toNat

theorem bytesOf_length (k : List U32) : (bytesOf k).length = 4 * k.length := by
  induction k with
  | nil => rfl
  | cons x k ih => rw [bytesOf, List.flatMap_cons, List.length_append, leBytes_length]; rw [bytesOf] at ih; rw [ih, List.length_cons]; omega

theorem bytesOf_append (a b : List U32) : bytesOf (a ++ b) = bytesOf a ++ bytesOf b := by
  rw [bytesOf, List.flatMap_append]; rfl

theorem bytesOf_take_drop (k : List U32) (n : Nat) :
    bytesOf (k.take n) = (bytesOf k).take (4 * n) ∧ bytesOf (k.drop n) = (bytesOf k).drop (4 * n) := by
  induction k generalizing n with
  | nil => simp [bytesOf]
  | cons x k ih =>
    cases n with
    | zero => simp [bytesOf]
    | succ n =>
      have e : bytesOf (x :: k) = leBytes 4 x.toNat ++ bytesOf k := List.flatMap_cons
      have h4 : (leBytes 4 x.toNat).length = 4 := leBytes_length 4 _
      have e' : bytesOf (x :: k.take n) = leBytes 4 x.toNat ++ bytesOf (k.take n) := List.flatMap_cons
      rw [List.take_succ_cons, List.drop_succ_cons, e, e', (ih n).1, (ih n).2]
      constructor
      · rw [List.take_append, List.take_of_length_le (l := leBytes 4 x.toNat) (by omega), h4]; congr 2
      · rw [List.drop_append, List.drop_of_length_le (l := leBytes 4 x.toNat) (by omega), h4, List.nil_append]; congr 1

theorem bytesOf_take (k : List U32) (n : Nat) : bytesOf (k.take n) = (bytesOf k).take (4 * n) := (bytesOf_take_drop k n).1
theorem bytesOf_drop (k : List U32) (n : Nat) : bytesOf (k.drop n) = (bytesOf k).drop (4 * n) := (bytesOf_take_drop k n).2

theorem word_leBytes (x : U32) : word 32 (leBytes 4 x.toNat) = x := by
  rw [word, leNat_leBytes]
  apply BitVec.eq_of_toNat_eq
  have := x.isLt
  rw [BitVec.toNat_ofNat]; omega

theorem addB_bytesOf (s : S3 32) (p : List U32) : addB s (bytesOf p) = addW s p := by
  have h1 : ∀ q : List U32, word 32 ((bytesOf q).take 4) = q.getD 0 0#32 := by
    intro q
    cases q with
    | nil => simp [bytesOf, word_nil]
    | cons x q =>
      rw [bytesOf, List.flatMap_cons, List.take_append_of_le_length (by rw [leBytes_length]), List.take_of_length_le (by rw [leBytes_length]), word_leBytes]
      rfl
  have h2 : ∀ j, (p.drop j).getD 0 0#32 = p.getD j 0#32 := by
    intro j; rw [List.getD_eq_getElem?_getD, List.getElem?_drop, List.getD_eq_getElem?_getD]; rfl
  have e4 := bytesOf_drop p 1
  have e8 := bytesOf_drop p 2
  rw [Nat.mul_one] at e4
  rw [addB, ← e4, show (8 : Nat) = 4 * 2 from rfl, ← e8, h1, h1, h1, h2, h2, addW]

theorem heads_bytesOf (k : List U32) : heads 12 (bytesOf k) = (heads 3 k).map bytesOf := by
  induction k using blocks_induction (n := 3) (by decide) with
  | small k h => rw [heads_short (by decide) (by rw [bytesOf_length]; omega), heads_short (by decide) (by omega)]; rfl
  | step k h ih =>
    by_cases h3 : k.length = 3
    · rw [heads_short (by decide) (by rw [bytesOf_length]; omega), heads_short (by decide) (by omega)]; rfl
    · rw [heads_cons (n := 12) (m := bytesOf k) (by decide) (by rw [bytesOf_length]; omega), heads_cons (n := 3) (m := k) (by decide) (by omega), List.map_cons, ← ih, bytesOf_take, bytesOf_drop]

theorem lastOf_bytesOf (k : List U32) : lastOf 12 (bytesOf k) = bytesOf (lastOf 3 k) := by
  induction k using blocks_induction (n := 3) (by decide) with
  | small k h => rw [lastOf_short (by decide) (by rw [bytesOf_length]; omega), lastOf_short (by decide) (by omega)]
  | step k h ih =>
    by_cases h3 : k.length = 3
    · rw [lastOf_short (by decide) (by rw [bytesOf_length]; omega), lastOf_short (by decide) (by omega)]
    · rw [lastOf_cons (n := 12) (m := bytesOf k) (by decide) (by rw [bytesOf_length]; omega), lastOf_cons (n := 3) (m := k) (by decide) (by omega), ← ih, bytesOf_drop]

theorem hashlittle2_bytesOf (k : List U32) (seed : U32) :
    (Spec.Jenkins.hashlittle2 seed 0#32 (bytesOf k)).1 =
      wordsSpec (0xdeadbeef#32 + BitVec.ofNat 32 k.length <<< 2 + seed) k := by
  have hlen : BitVec.ofNat 32 (bytesOf k).length = BitVec.ofNat 32 k.length <<< 2 := by
    rw [bytesOf_length]
    apply BitVec.eq_of_toNat_eq
    rw [BitVec.toNat_shiftLeft, BitVec.toNat_ofNat, BitVec.toNat_ofNat, Nat.shiftLeft_eq]
    omega
  have hemp : (bytesOf k).isEmpty = k.isEmpty := by
    cases k with
    | nil => rfl
    | cons x k => rfl
  have hfold : ∀ (l : List (List U32)) (s : S3 32), (l.map bytesOf).foldl fL3 s = l.foldl fW s := by
    intro l
    induction l with
    | nil => intro s; rfl
    | cons p l ih => intro s; rw [List.map_cons, List.foldl_cons, List.foldl_cons, ih, fL3, addB_bytesOf]; rfl
  rw [Spec.Jenkins.hashlittle2, hlen, lookup3_S3, hemp, heads_bytesOf, lastOf_bytesOf, hfold, addB_bytesOf, wordsSpec, BitVec.add_zero]
  split <;> rfl

/-- The same for any value of the length word. -/
theorem lookup3_bytesOf (k : List U32) (len seed : U32) :
    (Spec.Jenkins.lookup3 len seed 0#32 (bytesOf k)).1 = wordsSpec (0xdeadbeef#32 + len + seed) k := by
  have hemp : (bytesOf k).isEmpty = k.isEmpty := by
    cases k with
    | nil => rfl
    | cons x k => rfl
  have hfold : ∀ (l : List (List U32)) (s : S3 32), (l.map bytesOf).foldl fL3 s = l.foldl fW s := by
    intro l
    induction l with
    | nil => intro s; rfl
    | cons p l ih => intro s; rw [List.map_cons, List.foldl_cons, List.foldl_cons, ih, fL3, addB_bytesOf]; rfl
  rw [lookup3_S3, hemp, heads_bytesOf, lastOf_bytesOf, hfold, addB_bytesOf, wordsSpec, BitVec.add_zero]
  split <;> rfl

end Verif.Lemmas.Jenkins
