import Verif.Lemmas.Jenkins

/-! `Hash232` and `Hash264` compute their block specifications. -/

namespace Verif.Lemmas.Jenkins
open Verif Verif.Model.Jenkins
open Verif.Spec.Jenkins (word T step2 step2alt mixStep finalStep R L heads lastOf addBlock)

theorem f232_take (s : S3 32) (k : List U8) : f232 s (k.take 12) =
    mix32 ⟨s.a + le32 k, s.b + le32 (k.drop 4), s.c + le32 (k.drop 8)⟩ := by
  rw [f232, List.drop_take, List.drop_take, List.take_take, List.take_take, List.take_take]; rfl

theorem f264_take (s : S3 64) (k : List U8) : f264 s (k.take 24) =
    mix64alt ⟨s.a + le64 k, s.b + le64 (k.drop 8), s.c + le64 (k.drop 16)⟩ := by
  rw [f264, List.drop_take, List.drop_take, List.take_take, List.take_take, List.take_take]; rfl

theorem word32_eq {k0 : List U8} {i : Nat} (h : 4 * i + 4 ≤ k0.length) : word32 k0 i = .ok (le32 (k0.drop (4 * i))) := by
  rw [word32, if_pos (by omega)]

theorem word64_eq {k0 : List U8} {i : Nat} (h : 8 * i + 8 ≤ k0.length) : word64 k0 i = .ok (le64 (k0.drop (8 * i))) := by
  rw [word64, if_pos (by omega)]

theorem h232fast_eq (k0 : List U8) (s : S3 32) (k : List U8) (l cnt : Nat) (hk : k = k0.drop (4 * cnt)) (h : 12 ≤ k.length) :
    h232fast k0 (s, k, l, cnt) = .ok (f232 s (k.take 12), k.drop 12, l - 12, cnt + 3) := by
  have hl : k.length = k0.length - 4 * cnt := by rw [hk, List.length_drop]
  have e4 : k0.drop (4 * (1 + cnt)) = k.drop 4 := by rw [hk, List.drop_drop]; congr 1; omega
  have e8 : k0.drop (4 * (2 + cnt)) = k.drop 8 := by rw [hk, List.drop_drop]; congr 1; omega
  have e0 : k0.drop (4 * (0 + cnt)) = k := by rw [hk]; congr 1; omega
  rw [f232_take, h232fast, word32_eq (by omega), word32_eq (by omega), word32_eq (by omega), Go.from_eq h, e0, e4, e8]
  simp only [Go.bind_ok, Go.pure_ok]

theorem add4_eq {k : List U8} {i : Nat} (h : i + 4 ≤ k.length) : add4 k i = .ok (le32 (k.drop i)) := by
  have e0 : le32 (k.drop i) = word 32 ((k.drop i).take 4) := rfl
  have e1 := word_succ (w := 32) (t := k) (d := i) (k := 3) (by omega)
  have e2 := word_succ (w := 32) (t := k) (d := i) (k := 2) (by omega)
  have e3 := word_succ (w := 32) (t := k) (d := i) (k := 1) (by omega)
  have e4 := word_one (w := 32) (t := k) (d := i) (by omega)
  rw [e0, e1, e2, e3, e4, add4, Go.idx_eq (show i < k.length by omega), Go.idx_eq (show i + 1 < k.length by omega),
    Go.idx_eq (show i + 2 < k.length by omega), Go.idx_eq (show i + 3 < k.length by omega)]
  simp only [Go.bind_ok, Go.pure_ok]

theorem h232slow_eq (s : S3 32) (k : List U8) (l cnt : Nat) (h : 12 ≤ k.length) :
    h232slow (s, k, l, cnt) = .ok (f232 s (k.take 12), k.drop 12, l - 12, cnt) := by
  rw [f232_take, h232slow, add4_eq (by omega), add4_eq (by omega), add4_eq (by omega), Go.from_eq h]
  simp only [Go.bind_ok, Go.pure_ok, List.drop_zero]

theorem or8m_eq {k : List U8} {i : Nat} (h : i + 8 ≤ k.length) : or8 k i = .ok (le64 (k.drop i)) := by
  obtain ⟨a, b, c, d, e, f, g, j, q, hq⟩ := exists_cons8 (p := k.drop i) (by simp; omega)
  have hx : ∀ m, Go.idx k (i + m) = Go.idx (k.drop i) m := by
    intro m; rw [Go.idx, Go.idx, List.getElem?_drop]
  have h0 : Go.idx k i = Go.idx (k.drop i) 0 := hx 0
  rw [or8, h0, hx 1, hx 2, hx 3, hx 4, hx 5, hx 6, hx 7, hq, ← or8_eq a b c d e f g j q]
  rfl

theorem h264slow_eq (s : S3 64) (k : List U8) (i : Nat) (cnt length : Nat) (h : 24 ≤ k.length) :
    h264slow (s, k, i, cnt, length) = .ok (f264 s (k.take 24), k.drop 24, i - 24, cnt, length - 24) := by
  rw [f264_take, h264slow, or8m_eq (by omega), or8m_eq (by omega), or8m_eq (by omega), Go.from_eq h]
  simp only [Go.bind_ok, Go.pure_ok, List.drop_zero]

theorem mix64split (s : S3 64) : mix64f (mix64e (mix64d (mix64c (mix64b (mix64a s))))) = mix64alt s := by
  simp only [mix64a, mix64b, mix64c, mix64d, mix64e, mix64f, mix64alt]

theorem h264fast_eq (k0 : List U8) (s : S3 64) (k : List U8) (i cnt length : Nat) (hk : k = k0.drop (8 * cnt)) (h : 24 ≤ k.length) :
    h264fast k0 (s, k, i, cnt, length) = .ok (f264 s (k.take 24), k.drop 24, i - 24, cnt + 3, length - 24) := by
  have hl : k.length = k0.length - 8 * cnt := by rw [hk, List.length_drop]
  have e4 : k0.drop (8 * (1 + cnt)) = k.drop 8 := by rw [hk, List.drop_drop]; congr 1; omega
  have e8 : k0.drop (8 * (2 + cnt)) = k.drop 16 := by rw [hk, List.drop_drop]; congr 1; omega
  have e0 : k0.drop (8 * (0 + cnt)) = k := by rw [hk]; congr 1; omega
  rw [f264_take, h264fast, word64_eq (by omega), word64_eq (by omega), word64_eq (by omega), Go.from_eq h, e0, e4, e8]
  simp only [Go.bind_ok, Go.pure_ok, mix64split]

/-! The tail switch reads only the first `l` bytes. -/

theorem h232tail_take (k : List U8) (l : Nat) (hl : l ≤ k.length) (h : l < 12) (s : S3 32) :
    h232tail k l s = h232tail (k.take l) l s := by
  have hx : ∀ i, i < l → Go.idx (k.take l) i = Go.idx k i := fun i h => idx_take h
  rcases (by omega : l = 0 ∨ l = 1 ∨ l = 2 ∨ l = 3 ∨ l = 4 ∨ l = 5 ∨ l = 6 ∨ l = 7 ∨ l = 8 ∨ l = 9 ∨ l = 10 ∨ l = 11) with
    rfl | rfl | rfl | rfl | rfl | rfl | rfl | rfl | rfl | rfl | rfl | rfl <;> simp only [h232tail]
  · rfl
  · rw [h232c1_eq k hl, h232c1_eq (k.take 1) (by simp; omega)]; simp only [tdt, Nat.reduceAdd, Nat.reduceLeDiff]
  · rw [h232c2_eq k hl, h232c2_eq (k.take 2) (by simp; omega)]; simp only [tdt, Nat.reduceAdd, Nat.reduceLeDiff]
  · rw [h232c3_eq k hl, h232c3_eq (k.take 3) (by simp; omega)]; simp only [tdt, Nat.reduceAdd, Nat.reduceLeDiff]
  · rw [h232c4_eq k hl, h232c4_eq (k.take 4) (by simp; omega)]; simp only [tdt, Nat.reduceAdd, Nat.reduceLeDiff]
  · rw [h232c5_eq k hl, h232c5_eq (k.take 5) (by simp; omega)]; simp only [tdt, Nat.reduceAdd, Nat.reduceLeDiff]
  · rw [h232c6_eq k hl, h232c6_eq (k.take 6) (by simp; omega)]; simp only [tdt, Nat.reduceAdd, Nat.reduceLeDiff]
  · rw [h232c7_eq k hl, h232c7_eq (k.take 7) (by simp; omega)]; simp only [tdt, Nat.reduceAdd, Nat.reduceLeDiff]
  · rw [h232c8_eq k hl, h232c8_eq (k.take 8) (by simp; omega)]; simp only [tdt, Nat.reduceAdd, Nat.reduceLeDiff]
  · rw [h232c9_eq k hl, h232c9_eq (k.take 9) (by simp; omega)]; simp only [tdt, Nat.reduceAdd, Nat.reduceLeDiff]
  · rw [h232c10_eq k hl, h232c10_eq (k.take 10) (by simp; omega)]; simp only [tdt, Nat.reduceAdd, Nat.reduceLeDiff]
  · rw [h232c11_eq k hl, h232c11_eq (k.take 11) (by simp; omega)]; simp only [tdt, Nat.reduceAdd, Nat.reduceLeDiff]

/-! ### The two loops -/

theorem h232loop (fast : Bool) (k : List U8) (s : S3 32) :
    ∃ x, Go.while_ k.length (fun x : S3 32 × List U8 × Nat × Nat => decide (12 ≤ x.2.2.1))
      (if fast then h232fast k else h232slow) (s, k, k.length % 2 ^ 32, 0) =
      .ok ((blocks 12 (k.take (k.length % 2 ^ 32))).foldl f232 s, k.drop (k.length % 2 ^ 32 / 12 * 12), k.length % 2 ^ 32 % 12, x) := by
  have hle : k.length % 2 ^ 32 ≤ k.length := Nat.mod_le _ _
  cases fast with
  | true =>
    obtain ⟨x, e, _⟩ := while_take (n := 12) (by decide) (f := f232) (g := fun cnt => cnt + 3)
      (cond := fun x : S3 32 × List U8 × Nat × Nat => decide (12 ≤ x.2.2.1)) (body := h232fast k)
      (I := fun k' _ cnt => k' = k.drop (4 * cnt)) (fun _ _ _ _ => rfl)
      (fun s k' l cnt i h1 h2 => h232fast_eq k s k' l cnt i (by omega))
      (fun k' l cnt i h1 h2 => by rw [i, List.drop_drop]; rfl) k.length s k (k.length % 2 ^ 32) 0 (by simp) hle
      (by have := Nat.div_le_self (k.length % 2 ^ 32) 12; omega)
    exact ⟨x, e⟩
  | false =>
    obtain ⟨x, e, _⟩ := while_take (n := 12) (by decide) (f := f232) (g := fun cnt => cnt)
      (cond := fun x : S3 32 × List U8 × Nat × Nat => decide (12 ≤ x.2.2.1)) (body := h232slow)
      (I := fun _ _ _ => True) (fun _ _ _ _ => rfl)
      (fun s k' l cnt i h1 h2 => h232slow_eq s k' l cnt (by omega))
      (fun k' l cnt i h1 h2 => trivial) k.length s k (k.length % 2 ^ 32) 0 trivial hle
      (by have := Nat.div_le_self (k.length % 2 ^ 32) 12; omega)
    exact ⟨x, e⟩

theorem mix32_c (a b c : U32) : (mix32 ⟨a, b, c⟩).c = (Spec.Jenkins.mix32 (a, b, c)).2.2 :=
  (congrArg (fun t : T 32 => t.2.2) (mix32_spec ⟨a, b, c⟩)).symm

theorem mix64alt_c (a b c : U64) : (mix64alt ⟨a, b, c⟩).c = (Spec.Jenkins.mix64alt (a, b, c)).2.2 :=
  (congrArg (fun t : T 64 => t.2.2) (mix64alt_spec ⟨a, b, c⟩)).symm

theorem toT_f232 (s : S3 32) (p : List U8) : toT (f232 s p) =
    Spec.Jenkins.mix32 ((toT s).1 + word 32 (p.take 4), (toT s).2.1 + word 32 ((p.drop 4).take 4), (toT s).2.2 + word 32 ((p.drop 8).take 4)) :=
  (mix32_spec ⟨s.a + word 32 (p.take 4), s.b + word 32 ((p.drop 4).take 4), s.c + word 32 ((p.drop 8).take 4)⟩).symm

theorem toT_f264 (s : S3 64) (p : List U8) : toT (f264 s p) =
    Spec.Jenkins.mix64alt ((toT s).1 + word 64 (p.take 8), (toT s).2.1 + word 64 ((p.drop 8).take 8), (toT s).2.2 + word 64 ((p.drop 16).take 8)) :=
  (mix64alt_spec ⟨s.a + word 64 (p.take 8), s.b + word 64 ((p.drop 8).take 8), s.c + word 64 ((p.drop 16).take 8)⟩).symm

theorem Hash232'_eq (fast : Bool) (k : List U8) (seed : U32) :
    Hash232' fast k seed = .ok (Spec.Jenkins.hash232 (k.take (k.length % 2 ^ 32)) seed) := by
  have hle : k.length % 2 ^ 32 ≤ k.length := Nat.mod_le _ _
  generalize hs : (⟨0x9e3779b9#32, 0x9e3779b9#32, seed⟩ : S3 32) = s0
  obtain ⟨x, e⟩ := h232loop fast k s0
  have ht := tailOf_take (n := 12) hle
  have hdiv := Nat.div_add_mod (k.length % 2 ^ 32) 12
  have hlt : k.length % 2 ^ 32 % 12 < 12 := Nat.mod_lt _ (by decide)
  have hfold := toT_foldl (g := fun s p => Spec.Jenkins.mix32 (s.1 + word 32 (p.take 4), s.2.1 + word 32 ((p.drop 4).take 4), s.2.2 + word 32 ((p.drop 8).take 4))) toT_f232 (blocks 12 (k.take (k.length % 2 ^ 32))) s0
  have hs0 : toT s0 = (0x9e3779b9#32, 0x9e3779b9#32, seed) := by rw [← hs]; rfl
  rw [hs0] at hfold
  rw [Hash232']
  simp only [hs]
  rw [e, Go.bind_ok]
  have hlen : (k.drop (k.length % 2 ^ 32 / 12 * 12)).length ≥ k.length % 2 ^ 32 % 12 := by
    rw [List.length_drop]; omega
  have htl : (tailOf 12 (k.take (k.length % 2 ^ 32))).length = k.length % 2 ^ 32 % 12 := by
    rw [tailOf_length, List.length_take, Nat.min_eq_left hle]
  simp only []
  rw [h232tail_take _ _ hlen hlt, ← ht]
  rw [Spec.Jenkins.hash232, ← hfold]
  generalize List.foldl f232 s0 _ = s1
  rw [← htl]
  have hlt' : (tailOf 12 (k.take (k.length % 2 ^ 32))).length < 12 := by rw [htl]; exact hlt
  generalize tailOf 12 (k.take (k.length % 2 ^ 32)) = t at hlt' ⊢
  rw [h232tail_eq t hlt', Go.bind_ok, Go.pure_ok, mix32_c]
  rfl

theorem h264loop (fast : Bool) (k : List U8) (s : S3 64) :
    ∃ cnt, Go.while_ k.length (fun x : S3 64 × List U8 × Nat × Nat × Nat => decide (24 ≤ x.2.2.1))
      (if fast then h264fast k else h264slow) (s, k, k.length, 0, k.length) =
      .ok ((blocks 24 k).foldl f264 s, tailOf 24 k, k.length % 24, cnt, k.length % 24) := by
  cases fast with
  | true =>
    obtain ⟨⟨cnt, len⟩, e, i⟩ := while_take (n := 24) (by decide) (f := f264) (g := fun x : Nat × Nat => (x.1 + 3, x.2 - 24))
      (cond := fun x : S3 64 × List U8 × Nat × Nat × Nat => decide (24 ≤ x.2.2.1)) (body := h264fast k)
      (I := fun k' l x => k' = k.drop (8 * x.1) ∧ x.2 = l) (fun _ _ _ _ => rfl)
      (fun s k' l x i h1 h2 => h264fast_eq k s k' l x.1 x.2 i.1 (by omega))
      (fun k' l x i h1 h2 => by
        refine ⟨?_, by rw [i.2]⟩
        rw [i.1, List.drop_drop]; rfl) k.length s k k.length (0, k.length) (by simp) (Nat.le_refl _)
      (Nat.div_le_self _ _)
    rw [List.take_of_length_le (Nat.le_refl _)] at e
    obtain ⟨-, rfl⟩ := i
    exact ⟨cnt, e⟩
  | false =>
    obtain ⟨⟨cnt, len⟩, e, i⟩ := while_take (n := 24) (by decide) (f := f264) (g := fun x : Nat × Nat => (x.1, x.2 - 24))
      (cond := fun x : S3 64 × List U8 × Nat × Nat × Nat => decide (24 ≤ x.2.2.1)) (body := h264slow)
      (I := fun _ l x => x.2 = l) (fun _ _ _ _ => rfl)
      (fun s k' l x i h1 h2 => h264slow_eq s k' l x.1 x.2 (by omega))
      (fun k' l x i h1 h2 => by rw [i]) k.length s k k.length (0, k.length) rfl (Nat.le_refl _)
      (Nat.div_le_self _ _)
    rw [List.take_of_length_le (Nat.le_refl _)] at e
    obtain rfl := i
    exact ⟨cnt, e⟩

theorem Hash264'_eq (fast : Bool) (k : List U8) (seed : U64) :
    Hash264' fast k seed = .ok (Spec.Jenkins.hash264 k seed) := by
  generalize hs : (⟨0x9e3779b97f4a7c13#64, 0x9e3779b97f4a7c13#64, seed⟩ : S3 64) = s0
  obtain ⟨x, e⟩ := h264loop fast k s0
  have hlt := tailOf_length_lt (n := 24) (by decide) k
  have hfold := toT_foldl (g := fun s p => Spec.Jenkins.mix64alt (s.1 + word 64 (p.take 8), s.2.1 + word 64 ((p.drop 8).take 8), s.2.2 + word 64 ((p.drop 16).take 8))) toT_f264 (blocks 24 k) s0
  have hs0 : toT s0 = (0x9e3779b97f4a7c13#64, 0x9e3779b97f4a7c13#64, seed) := by rw [← hs]; rfl
  rw [hs0] at hfold
  rw [Hash264']
  simp only [hs]
  rw [e, Go.bind_ok, ← tailOf_length 24 k]
  simp only []
  rw [Spec.Jenkins.hash264, ← hfold]
  generalize List.foldl f264 s0 _ = s1
  generalize tailOf 24 k = t at hlt ⊢
  rw [if_neg (by omega), h264tail_eq t hlt, Go.bind_ok, Go.pure_ok, mix64alt_c]
  rfl

end Verif.Lemmas.Jenkins
