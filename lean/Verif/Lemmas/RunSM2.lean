import Verif.Lemmas.RunSM

namespace Verif.Lemmas.RunSM
open Verif Verif.Model.Smhasher Verif.Model.RunSM Verif.Spec.Smhasher Verif.Spec.RunSM Verif.Lemmas.Smhasher

/-- The result of a test from the verdicts on its sets. -/
def fin (t : TestFn) (o : Out) : Out := if t ∈ silent then o.silent else o

/-- Test `t` makes the sequences of calls `ss`. -/
def Runs {ω : Type} (hf : Hash ω) (A : ω → Nat → Prop) (sem : Nat → List U8 → U64 → U64) (r : Nat → U32) (t : TestFn) : Prop :=
  ∃ ss, List.Forall₂ Match (sets r t) ss ∧
    ∀ w n, A w n → ∃ w', runTest hf r t w = .ok (w', fin t (verdicts sem n ss)) ∧ A w' (n + calls r t)

theorem small_of_match {Ss : List KeySet} {ss : List (List (List U8 × U64))} (h : List.Forall₂ Match Ss ss) (hs : ∀ S ∈ Ss, S.size ≤ 2 * 10 ^ 8) :
    ∀ c ∈ ss, c.length ≤ 2 * 10 ^ 8 := by
  induction h with
  | nil => intro c hc; exact (nomatch hc)
  | cons h _ ih =>
    intro c hc
    rcases List.mem_cons.1 hc with rfl | hc
    · rw [h.2.2]; exact hs _ (by simp)
    · exact ih (fun S hS => hs S (by simp [hS])) c hc

theorem mapM_forall {α β : Type} (f : α → Go β) (R : α → β → Prop) (l : List α) (h : ∀ a ∈ l, ∃ b, f a = .ok b ∧ R a b) :
    ∃ bs, l.mapM f = .ok bs ∧ List.Forall₂ R l bs := by
  induction l with
  | nil => exact ⟨[], rfl, .nil⟩
  | cons a l ih =>
    obtain ⟨b, h1, h2⟩ := h a (by simp)
    obtain ⟨bs, h3, h4⟩ := ih fun a ha => h a (by simp [ha])
    refine ⟨b :: bs, ?_, .cons h2 h4⟩
    rw [List.mapM_cons, h1, Go.bind_ok, h3, Go.bind_ok, Go.pure_ok]

theorem forall₂_zero {α : Type} {l : List α} {kss : List (List (List U8))} {g : α → KeySet} (h : List.Forall₂ (fun a ks => Match (g a) (zero ks)) l kss) :
    List.Forall₂ Match (l.map g) (kss.map zero) := by
  rw [List.forall₂_map_left_iff, List.forall₂_map_right_iff]; exact h

theorem verdicts_one (sem : Nat → List U8 → U64 → U64) (n : Nat) (s : List (List U8 × U64)) : verdicts sem n [s] = verdict (hashes sem n s) := by
  simp only [verdicts, Out.append]
  rw [Bool.or_false, List.append_nil]

section
variable {ω : Type} {hf : Hash ω} {A : ω → Nat → Prop} {sem : Nat → List U8 → U64 → U64} (hS : Sem hf A sem)
include hS

/-- A test of one set of byte strings. -/
theorem runs_one (r : Nat → U32) (t : TestFn) (ks : List (List U8)) {S : KeySet} (hsets : sets r t = [S]) (hm : Match S (zero ks)) (hsz : S.size ≤ 2 * 10 ^ 8)
    (hash : ω → List U8 → Go (ω × U64)) (hh : ∀ w b, hash w b = hf w b 0) (ht : t ∉ silent) (hrun : ∀ w, runTest hf r t w = checkSet hash w ks)
    (hc : calls r t = ((sets r t).map KeySet.size).sum) : Runs hf A sem r t := by
  refine ⟨[zero ks], ?_, ?_⟩
  · rw [hsets]; exact .cons hm .nil
  · intro w n hA
    have hlen : ks.length = S.size := by rw [← hm.2.2, zero, List.length_map]
    obtain ⟨w', h1, h2⟩ := checkSet_ok hS hash (fun k => (k, 0#64)) hh ks (by rw [hlen]; exact hsz) w n hA
    refine ⟨w', ?_, ?_⟩
    · rw [hrun, h1, fin, if_neg ht, verdicts_one]; rfl
    · rw [hc, hsets]
      simp only [List.map_cons, List.map_nil, List.sum_cons, List.sum_nil, Nat.add_zero]
      rw [← hlen]; exact h2

/-- A test of several sets of byte strings. -/
theorem runs_many (r : Nat → U32) (t : TestFn) (kss : List (List (List U8))) (hm : List.Forall₂ Match (sets r t) (kss.map zero))
    (hsz : ∀ S ∈ sets r t, S.size ≤ 2 * 10 ^ 8)
    (hrun : ∀ w, runTest hf r t w = (checkSets (hashB hf) w kss).bind fun p => .ok (p.1, fin t p.2))
    (hc : calls r t = ((sets r t).map KeySet.size).sum) : Runs hf A sem r t := by
  refine ⟨kss.map zero, hm, ?_⟩
  intro w n hA
  obtain ⟨w', h1, h2⟩ := checkSets_ok hS (hashB hf) (fun k => (k, 0#64)) (fun _ _ => rfl) kss
    (fun ks hks => by
      have := small_of_match hm hsz (zero ks) (List.mem_map.2 ⟨ks, hks, rfl⟩)
      rwa [zero, List.length_map] at this) w n hA
  refine ⟨w', ?_, ?_⟩
  · rw [hrun, h1]; rfl
  · rw [hc, ← total_match hm]; exact h2

theorem runs_seed (r : Nat → U32) : Runs hf A sem r .Seed := by
  refine ⟨[(List.range 100000).map fun i => (ascii "hello", BitVec.ofNat 64 i)], ?_, ?_⟩
  · refine .cons ⟨?_, ?_, ?_⟩ .nil
    · refine List.Nodup.map_on ?_ List.nodup_range
      intro a ha b hb h
      have h' := congrArg BitVec.toNat (Prod.mk.inj h).2
      rw [List.mem_range] at ha hb
      rw [BitVec.toNat_ofNat, BitVec.toNat_ofNat, Nat.mod_eq_of_lt (by omega), Nat.mod_eq_of_lt (by omega)] at h'
      exact h'
    · intro k s
      rw [List.mem_map]
      constructor
      · rintro ⟨i, hi, h⟩
        obtain ⟨rfl, rfl⟩ := Prod.mk.inj h
        rw [List.mem_range] at hi
        exact ⟨rfl, by rw [BitVec.toNat_ofNat, Nat.mod_eq_of_lt (by omega)]; exact hi⟩
      · rintro ⟨rfl, h⟩
        exact ⟨s.toNat, List.mem_range.2 h, by rw [BitVec.ofNat_toNat, BitVec.setWidth_eq]⟩
    · rw [List.length_map, List.length_range]
  · intro w n hA
    have e : ascii "hello" = [104#8, 101#8, 108#8, 108#8, 111#8] := by decide
    obtain ⟨w', h1, h2⟩ := checkSet_ok hS (fun w (i : Nat) => Model.RunSM.StringHash hf w [104#8, 101#8, 108#8, 108#8, 111#8] (BitVec.ofNat 64 i))
      (fun i => (ascii "hello", BitVec.ofNat 64 i)) (fun w i => by rw [StringHash_eq, e]) (List.range 100000)
      (by rw [List.length_range]; norm_num) w n hA
    refine ⟨w', ?_, ?_⟩
    · rw [fin, if_neg (by decide), verdicts_one]; exact h1
    · rw [List.length_range] at h2; exact h2

theorem runs_text (r : Nat → U32) : Runs hf A sem r .Text := by
  obtain ⟨hlet, _⟩ := Props.C87_letters_violated
  have one : ∀ pre suf : List U8, ∃ b ks, text textS pre suf = .ok (b, ks) ∧
      Match (keys (fun k => ∃ w : List U8, w.length = 4 ∧ (∀ v ∈ w, letter v) ∧ k = pre ++ w ++ suf) (50 ^ 4)) (zero ks) := by
    intro pre suf
    obtain ⟨b, ks, h1, h2, h3, h4⟩ := Props.C87_text textS pre suf
    refine ⟨b, ks, h1, match_keys (h2 (by decide)) (fun x => ?_) h4⟩
    rw [h3]
    constructor
    · rintro ⟨w, a, c, d⟩; exact ⟨w, a, fun v hv => (hlet v).1 (c v hv), d⟩
    · rintro ⟨w, a, c, d⟩; exact ⟨w, a, fun v hv => (hlet v).2 (c v hv), d⟩
  obtain ⟨b1, k1, e1, m1⟩ := one Foo Bar
  obtain ⟨b2, k2, e2, m2⟩ := one (Foo ++ Bar) []
  obtain ⟨b3, k3, e3, m3⟩ := one [] (Foo ++ Bar)
  refine runs_many hS r .Text [k1, k2, k3] ?_ ?_ ?_ rfl
  · exact .cons m1 (.cons m2 (.cons m3 .nil))
  · intro S hS'
    simp only [sets, List.map_cons, List.map_nil, List.mem_cons, List.not_mem_nil, or_false] at hS'
    rcases hS' with rfl | rfl | rfl <;> (unfold keys; norm_num)
  · intro w
    show textTest hf w = _
    unfold textTest
    rw [e1, Go.bind_ok]
    dsimp only
    rw [e2, Go.bind_ok]
    dsimp only
    rw [e3, Go.bind_ok]
    rfl

theorem runs_permutation (r : Nat → U32) : Runs hf A sem r .Permutation := by
  obtain ⟨kss, h1, h2⟩ := mapM_forall (fun p : Nat × List U32 => do
      let (_, ks) ← permutation p.2 p.1
      return ks)
    (fun p ks => Match (keys (fun k => ∃ v : List U32, v.length ≤ p.1 ∧ (∀ u ∈ v, u ∈ p.2) ∧ k = blockBytes v) (∑ j ∈ Finset.range (p.1 + 1), p.2.length ^ j)) (zero ks))
    Permutations (by
      intro p hp
      have hn : ∀ p ∈ Permutations, p.2.Nodup := by decide
      obtain ⟨b, ks, h1, h2, h3, h4⟩ := Props.C73_permutation p.2 p.1
      exact ⟨ks, by rw [h1]; rfl, match_keys (h3 (hn p hp)) h2 h4⟩)
  have hsets : sets r .Permutation = Permutations.map fun p =>
      keys (fun k => ∃ v : List U32, v.length ≤ p.1 ∧ (∀ u ∈ v, u ∈ p.2) ∧ k = blockBytes v) (∑ j ∈ Finset.range (p.1 + 1), p.2.length ^ j) := by
    unfold sets
    congr 1
  refine runs_many hS r .Permutation kss ?_ ?_ ?_ rfl
  · rw [hsets]; exact forall₂_zero h2
  · rw [hsets]
    intro S hS'
    obtain ⟨p, hp, rfl⟩ := List.mem_map.1 hS'
    have hl : ∀ p ∈ Permutations, ∑ j ∈ Finset.range (p.1 + 1), p.2.length ^ j ≤ 2 * 10 ^ 8 := by decide +kernel
    exact hl p hp
  · intro w
    show permutationTest hf w = _
    unfold permutationTest
    rw [h1]
    rfl

theorem runs_sparse (r : Nat → U32) : Runs hf A sem r .Sparse := by
  have key : ∀ p ∈ pairs, ∑ j ∈ Finset.range (p.2 + 1), p.1.choose j ≤ 2 * 10 ^ 8 := by
    intro p hp
    simp only [Props.choose_desc]
    revert p
    decide +kernel
  have h8 : ∀ p ∈ pairs, 8 * (p.1 / 8) = p.1 := by decide
  obtain ⟨kss, h1, h2⟩ := mapM_forall (fun p : Nat × Nat => do
      let (_, ks) ← sparse p.1 p.2
      return ks)
    (fun p ks => Match (keys (fun k => 8 * k.length = p.1 ∧ weight k ≤ p.2) (∑ j ∈ Finset.range (p.2 + 1), p.1.choose j)) (zero ks))
    pairs (by
      intro p hp
      obtain ⟨ks, h1, h2, h3, h4⟩ := Props.C71_sparse p.1 p.2
      rw [h8 p hp] at h4
      refine ⟨ks, by rw [h1]; rfl, match_keys h2 (fun x => ?_) h4⟩
      have := h8 p hp
      rw [h3]
      constructor
      · rintro ⟨a, b⟩; exact ⟨by omega, b⟩
      · rintro ⟨a, b⟩; exact ⟨by omega, b⟩)
  refine runs_many hS r .Sparse kss ?_ ?_ ?_ rfl
  · exact forall₂_zero (l := pairs) h2
  · intro S hS'
    have hsets : sets r .Sparse = pairs.map fun (p : Nat × Nat) =>
      keys (fun k => 8 * k.length = p.1 ∧ weight k ≤ p.2) (∑ j ∈ Finset.range (p.2 + 1), p.1.choose j) := rfl
    rw [hsets] at hS'
    obtain ⟨p, hp, rfl⟩ := List.mem_map.1 hS'
    exact key p hp
  · intro w
    show sparseTest hf w = _
    unfold sparseTest
    rw [h1, Go.bind_ok]
    cases checkSets (hashB hf) w kss <;> rfl

end

theorem flatten_tab (f : Nat → U8) (n m : Nat) : tab (m * n) (fun p => f (p % n)) = (List.replicate m ((List.range n).map f)).flatten := by
  induction m with
  | zero => simp [tab]
  | succ m ih =>
    rw [List.replicate_succ, List.flatten_cons, ← ih, Nat.succ_mul, Nat.add_comm, tab, tab, List.range_add, List.map_append, List.map_map]
    congr 1
    · apply List.map_congr_left
      intro p hp
      rw [Nat.mod_eq_of_lt (List.mem_range.1 hp)]
    · apply List.map_congr_left
      intro p _
      simp

theorem cycKey_spec (r : Nat → U32) (n i : Nat) (hp : ((List.range n).map fun m => 1000000 * (m - 4)).sum = 1000000 * ((n - 4) * (n - 5) / 2)) :
    cycKey n (fun i p => (r (((List.range n).map fun m => 1000000 * (m - 4)).sum + i * (n - 4) + p)).setWidth 8) i = cyclicKey r n i := by
  unfold cycKey cyclicKey
  rw [← flatten_tab]
  apply tab_congr
  intro p _
  rw [hp]
  generalize p % n = q
  unfold base cyclicByte
  match q with
  | 0 => rfl
  | 1 => rfl
  | 2 => rfl
  | 3 => rfl
  | q + 4 =>
    rw [if_neg (by omega), if_neg (by omega), if_neg (by omega), if_neg (by omega)]
    apply BitVec.eq_of_toNat_eq
    simp

section
variable {ω : Type} {hf : Hash ω} {A : ω → Nat → Prop} {sem : Nat → List U8 → U64 → U64} (hS : Sem hf A sem)
include hS

theorem runs_cyclic (r : Nat → U32) : Runs hf A sem r .Cyclic := by
  obtain ⟨kss, h1, h2⟩ := mapM_forall (fun n : Nat => do
      let pos := ((List.range n).map fun m => 1000000 * (m - 4)).sum
      let (_, ks) ← cyclic 1000000 n fun i p => (r (pos + i * (n - 4) + p)).setWidth 8
      return ks)
    (fun n ks => Match (keys (fun k => ∃ i, i < 1000000 ∧ k = cyclicKey r n i) 1000000) (zero ks))
    [4, 5, 6, 7, 8, 9, 10, 11, 12] (by
      intro n hn
      have hpos : ∀ n ∈ [4, 5, 6, 7, 8, 9, 10, 11, 12], ((List.range n).map fun m => 1000000 * (m - 4)).sum = 1000000 * ((n - 4) * (n - 5) / 2) := by decide +kernel
      have h4 : ∀ n ∈ [4, 5, 6, 7, 8, 9, 10, 11, 12], 4 ≤ n := by decide
      have hp := hpos n hn
      have hn4 := h4 n hn
      have hk := fun i => cycKey_spec r n i hp
      obtain ⟨b, h1⟩ := cyclic_eq hn4 1000000 (fun i p => (r (((List.range n).map fun m => 1000000 * (m - 4)).sum + i * (n - 4) + p)).setWidth 8)
      refine ⟨(List.range 1000000).map (cyclicKey r n), ?_, ?_⟩
      · dsimp only
        rw [h1, Go.bind_ok]
        dsimp only
        rw [Go.pure_ok]
        exact congrArg Except.ok (List.map_congr_left fun i _ => hk i)
      · refine match_keys ?_ ?_ (by rw [List.length_map, List.length_range])
        · refine List.Nodup.map_on ?_ List.nodup_range
          intro i hi j hj h
          rw [List.mem_range] at hi hj
          rw [← hk, ← hk] at h
          rcases Nat.lt_trichotomy i j with hlt | heq | hlt
          · exact absurd h (cycKey_inj hn4 _ hlt (by omega))
          · exact heq
          · exact absurd h.symm (cycKey_inj hn4 _ hlt (by omega))
        · intro x
          rw [List.mem_map]
          constructor
          · rintro ⟨i, hi, rfl⟩; exact ⟨i, List.mem_range.1 hi, rfl⟩
          · rintro ⟨i, hi, rfl⟩; exact ⟨i, List.mem_range.2 hi, rfl⟩)
  refine runs_many hS r .Cyclic kss ?_ ?_ ?_ rfl
  · exact forall₂_zero h2
  · intro S hS'
    have hsets : sets r .Cyclic = [4, 5, 6, 7, 8, 9, 10, 11, 12].map fun n => keys (fun k => ∃ i, i < 1000000 ∧ k = cyclicKey r n i) 1000000 := rfl
    rw [hsets] at hS'
    obtain ⟨p, hp, rfl⟩ := List.mem_map.1 hS'
    unfold keys
    norm_num
  · intro w
    show cyclicTest hf r w = _
    unfold cyclicTest
    rw [h1, Go.bind_ok]
    cases checkSets (hashB hf) w kss <;> rfl

theorem runs_twoNonzero (r : Nat → U32) : Runs hf A sem r .TwoNonzero := by
  obtain ⟨ks, h1, h2, h3, h4, h5⟩ := Props.C72_all
  refine runs_one hS r .TwoNonzero ks rfl (match_keys h2 h3 h4) (by rw [h4] at h5; exact h5) (hashB hf) (fun _ _ => rfl) (by decide) (fun w => ?_) rfl
  show twoNonzeroTest hf w = _
  unfold twoNonzeroTest
  rw [h1, Go.bind_ok]

theorem runs_smallKeys (r : Nat → U32) : Runs hf A sem r .SmallKeys := by
  obtain ⟨b, ks, h1, h2, h3, h4⟩ := Props.C85_smallKeys
  refine runs_one hS r .SmallKeys ks rfl (match_keys h2 h3 (by rw [h4]; norm_num)) (by unfold keys; norm_num) (hashB hf) (fun _ _ => rfl) (by decide) (fun w => ?_) rfl
  show smallKeysTest hf w = _
  unfold smallKeysTest
  rw [h1, Go.bind_ok]

theorem runs_zeros (r : Nat → U32) : Runs hf A sem r .Zeros := by
  obtain ⟨_, b, ks, h1, h2, h3, h4⟩ := Props.C86_prefixes (256 * 1024)
  refine runs_one hS r .Zeros ks rfl (match_keys h2 h3 (by rw [h4])) (by unfold keys; norm_num) (hashB hf) (fun _ _ => rfl) (by decide) (fun w => ?_) rfl
  show zerosTest hf w = _
  unfold zerosTest
  rw [h1, Go.bind_ok]

theorem runs_appendedZeros (r : Nat → U32) : Runs hf A sem r .AppendedZeros := by
  obtain ⟨⟨b, ks, h1, h2, h3, h4⟩, _⟩ := Props.C86_prefixes 0
  have e : ascii "hello" = [104#8, 101#8, 108#8, 108#8, 111#8] := by decide
  rw [← e] at h3
  refine runs_one hS r .AppendedZeros ks rfl (match_keys h2 h3 h4) (by unfold keys; norm_num) (fun w s => Model.RunSM.StringHash hf w s 0) (fun w b => StringHash_eq hf w b 0)
    (by decide) (fun w => ?_) rfl
  show appendedZerosTest hf w = _
  unfold appendedZerosTest
  rw [h1, Go.bind_ok]

end

end Verif.Lemmas.RunSM
