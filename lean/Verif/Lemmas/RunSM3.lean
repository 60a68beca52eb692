import Verif.Lemmas.RunSM2

namespace Verif.Lemmas.RunSM
open Verif Verif.Model.Smhasher Verif.Model.RunSM Verif.Spec.Smhasher Verif.Spec.RunSM Verif.Lemmas.Smhasher
open Verif.Lemmas.Ht (set_eq)

/-! ### Windowed -/

/-- The specified sets of one windowed run. -/
def winSets (n : Nat) : List KeySet := (List.range n).map fun i => keys (fun k => 8 * k.length = n ∧ ∀ p, bit k p = true → inWindow n i p) (2 ^ 16)

/-- The call that hashes a key. -/
def encKey (k : Key) : List U8 × U64 := (keyBytes k, 0#64)

theorem win_match (k : Key) (hk : 16 ≤ k.bits) (hex : ∀ x : List U8, 8 * x.length = k.bits → ∃ k' : Key, k'.clear = k.clear ∧ keyBytes k' = x) :
    ∃ k' ss, windowed k = .ok (k', ss) ∧ List.Forall₂ Match (winSets k.bits) (ss.map fun ks => ks.map encKey) := by
  obtain ⟨k', ss, h1, h2, h3⟩ := Props.C89_windowed (fun _ _ => 0) k hk
  refine ⟨k', ss, h1, ?_⟩
  rw [winSets, List.forall₂_map_left_iff, List.forall₂_map_right_iff, List.forall₂_iff_get]
  refine ⟨by rw [List.length_range, h2], fun i hi1 hi2 => ?_⟩
  rw [List.length_range] at hi1
  obtain ⟨ks, h4, h5, h6, h7, _⟩ := h3 i hi1
  have e : ss.get ⟨i, hi2⟩ = ks := by
    rw [List.getElem?_eq_getElem hi2] at h4
    exact Option.some.inj h4
  rw [e, List.get_eq_getElem, List.getElem_range]
  refine ⟨?_, ?_, ?_⟩
  · refine List.Nodup.map_on ?_ h5
    intro a ha b hb h
    have hb' := ((h7 b).1 hb).1
    have ha' := ((h7 a).1 ha).1
    exact keyBytes_inj (ha'.trans hb'.symm) (Prod.mk.inj h).1
  · intro x s
    rw [List.mem_map]
    unfold encKey keys
    simp only [Prod.mk.injEq]
    constructor
    · rintro ⟨a, ha, rfl, rfl⟩
      obtain ⟨h8, h9⟩ := (h7 a).1 ha
      exact ⟨rfl, by rw [keyBytes_length, (clear_length h8).2], h9⟩
    · rintro ⟨rfl, h8, h9⟩
      obtain ⟨a, h10, rfl⟩ := hex x h8
      exact ⟨a, (h7 a).2 ⟨h10, h9⟩, rfl, rfl⟩
  · rw [List.length_map, h6]; rfl

theorem ex_int32 (x : List U8) (hx : 8 * x.length = (Key.int32 0).bits) : ∃ k' : Key, k'.clear = (Key.int32 0).clear ∧ keyBytes k' = x := by
  have hl : x.length = 4 := by have : (Key.int32 0).bits = 32 := rfl; omega
  refine ⟨.int32 (BitVec.ofNat 32 (leNat x)), rfl, ?_⟩
  have := leNat_lt x
  rw [hl] at this
  unfold keyBytes
  dsimp only
  rw [BitVec.toNat_ofNat, Nat.mod_eq_of_lt (by omega), ← hl, leBytes_leNat]

theorem ex_int64 (x : List U8) (hx : 8 * x.length = (Key.int64 0).bits) : ∃ k' : Key, k'.clear = (Key.int64 0).clear ∧ keyBytes k' = x := by
  have hl : x.length = 8 := by have : (Key.int64 0).bits = 64 := rfl; omega
  refine ⟨.int64 (BitVec.ofNat 64 (leNat x)), rfl, ?_⟩
  have := leNat_lt x
  rw [hl] at this
  unfold keyBytes
  dsimp only
  rw [BitVec.toNat_ofNat, Nat.mod_eq_of_lt (by omega), ← hl, leBytes_leNat]

theorem ex_bytes (n : Nat) (x : List U8) (hx : 8 * x.length = (Key.bytes (List.replicate n 0)).bits) :
    ∃ k' : Key, k'.clear = (Key.bytes (List.replicate n 0)).clear ∧ keyBytes k' = x := by
  have hl : x.length = n := by
    have : (Key.bytes (List.replicate n 0)).bits = n * 8 := by simp [Key.bits]
    omega
  refine ⟨.bytes x, ?_, rfl⟩
  simp only [Key.clear, List.map_const', List.length_replicate, hl]

section
variable {ω : Type} {hf : Hash ω} {A : ω → Nat → Prop} {sem : Nat → List U8 → U64 → U64} (hS : Sem hf A sem)
include hS

theorem runs_windowed (r : Nat → U32) : Runs hf A sem r .Windowed := by
  obtain ⟨a1, s1, e1, m1⟩ := win_match (.int32 0) (by decide) ex_int32
  obtain ⟨a2, s2, e2, m2⟩ := win_match (.int64 0) (by decide) ex_int64
  obtain ⟨a3, s3, e3, m3⟩ := win_match (.bytes (List.replicate 128 0)) (by simp [Key.bits]) (ex_bytes 128)
  have hb : (Key.bytes (List.replicate 128 0)).bits = 1024 := by simp [Key.bits]
  rw [hb] at m3
  have hsets : sets r .Windowed = winSets 32 ++ (winSets 64 ++ (winSets 1024 ++ [])) := rfl
  have hm : List.Forall₂ Match (sets r .Windowed) ((s1 ++ s2 ++ s3).map fun ks => ks.map encKey) := by
    rw [hsets, List.append_nil, List.map_append, List.map_append, List.append_assoc]
    exact List.rel_append m1 (List.rel_append m2 m3)
  have hsz : ∀ S ∈ sets r .Windowed, S.size ≤ 2 * 10 ^ 8 := by
    have h : ∀ n, ∀ S ∈ winSets n, S.size ≤ 2 * 10 ^ 8 := by
      intro n S hS'
      obtain ⟨i, _, rfl⟩ := List.mem_map.1 hS'
      unfold keys; norm_num
    rw [hsets, List.append_nil]
    intro S hS'
    rcases List.mem_append.1 hS' with x | x
    · exact h _ _ x
    · rcases List.mem_append.1 x with x | x <;> exact h _ _ x
  refine ⟨_, hm, fun w n hA => ?_⟩
  obtain ⟨w', h1, h2⟩ := checkSets_ok hS (keyHash hf) encKey (fun w k => keyHash_eq hf w k) (s1 ++ s2 ++ s3)
    (fun ks hks => by
      have := small_of_match hm hsz (ks.map encKey) (List.mem_map.2 ⟨ks, hks, rfl⟩)
      rwa [List.length_map] at this) w n hA
  refine ⟨w', ?_, ?_⟩
  · show windowedTest hf w = _
    unfold windowedTest
    rw [e1, Go.bind_ok]
    dsimp only
    rw [e2, Go.bind_ok]
    dsimp only
    rw [e3, Go.bind_ok]
    dsimp only
    rw [h1, Go.bind_ok]
    rfl
  · rw [total_match hm] at h2
    exact h2

/-! ### Avalanche -/

theorem avalancheBit_ok (h : U64) (i m : Nat) (k : Key) (hk : k.bits = m) (hi : i < m) (g : Nat → Nat → Nat) (w : ω) (n : Nat) (hA : A w n) :
    ∃ w' g', Model.RunSM.avalancheBit hf h i (w, k, gridOf m g) = .ok (w', k, gridOf m g') ∧ A w' (n + 1) := by
  obtain ⟨k', h1, h2, h3⟩ := flipBit_eq k i (by omega)
  obtain ⟨w', h5, h6⟩ := hS.step w n (keyBytes k') 0 hA
  obtain ⟨d', h4⟩ := addBits_eq (h ^^^ sem n (keyBytes k') 0) (g i)
  refine ⟨w', fun p => if p = i then fun j => g i j + ((h ^^^ sem n (keyBytes k') 0).getLsbD j).toNat else g p, ?_, h6⟩
  unfold Model.RunSM.avalancheBit
  dsimp only
  rw [h1, Go.bind_ok, keyHash_eq, h5, Go.bind_ok]
  dsimp only
  rw [flipBit_flipBit k i (by omega) h1, Go.bind_ok, gridOf, tab_idx _ hi, Go.bind_ok, h4, Go.bind_ok,
    set_eq (by rw [tab_length]; exact hi), Go.bind_ok, Go.pure_ok, tab_set _ hi]
  unfold gridOf
  refine congrArg (fun x => Except.ok (w', k, x)) ?_
  apply tab_congr
  intro p _
  by_cases e : p = i
  · subst e
    simp only [if_true]
  · simp only [if_neg e]

theorem random_bits (r : Nat → U32) (pos : Nat) (k : Key) : (Model.RunSM.random r pos k).1.bits = k.bits := by
  cases k <;> simp [Model.RunSM.random, Key.bits, randBytes]

theorem avalancheRound_ok (r : Nat → U32) (m : Nat) (w : ω) (pos : Nat) (k : Key) (hk : k.bits = m) (g : Nat → Nat → Nat) (n : Nat) (hA : A w n) :
    ∃ w' pos' k' g', Model.RunSM.avalancheRound hf r m (w, pos, k, gridOf m g) = .ok (w', pos', k', gridOf m g') ∧ k'.bits = m ∧ A w' (n + (m + 1)) := by
  have hb := random_bits hS r pos k
  unfold Model.RunSM.avalancheRound
  dsimp only
  generalize Model.RunSM.random r pos k = q at hb ⊢
  obtain ⟨k1, pos1⟩ := q
  dsimp only at hb ⊢
  rw [hk] at hb
  obtain ⟨w1, h1, h2⟩ := hS.step w n (keyBytes k1) 0 hA
  rw [keyHash_eq, h1, Go.bind_ok]
  dsimp only
  obtain ⟨q, h3, h4, ⟨g', h5⟩, h6⟩ := forRange_inv (fun j (q : ω × Key × List (List Nat)) => q.2.1 = k1 ∧ (∃ g', q.2.2 = gridOf m g') ∧ A q.1 (n + 1 + j)) 0 m
    (body := Model.RunSM.avalancheBit hf (sem n (keyBytes k1) 0))
    (by
      rintro j ⟨w, k, grid⟩ _ hj ⟨h1, ⟨g, h2⟩, h3⟩
      dsimp only at h1 h2 h3
      subst h1 h2
      obtain ⟨w', g', h4, h5⟩ := avalancheBit_ok hS (sem n (keyBytes k) 0) j m k hb (by omega) g w _ h3
      exact ⟨_, h4, rfl, ⟨g', rfl⟩, h5⟩)
    (w1, k1, gridOf m g) ⟨rfl, ⟨g, rfl⟩, h2⟩
  obtain ⟨w2, k2, grid⟩ := q
  dsimp only at h4 h5 h6
  subst h4 h5
  rw [h3, Go.bind_ok]
  refine ⟨w2, pos1, k2, g', rfl, hb, ?_⟩
  rw [show n + (m + 1) = n + 1 + (0 + m) by omega]; exact h6

theorem avalanche1_ok (r : Nat → U32) (k : Key) (w : ω) (n : Nat) (hA : A w n) :
    ∃ w', avalanche1 hf r k w = .ok w' ∧ A w' (n + 100000 * (k.bits + 1)) := by
  unfold avalanche1
  dsimp only
  have h0 : List.replicate k.bits (List.replicate hashSize 0) = gridOf k.bits fun _ _ => 0 := by
    rw [hashSize_eq]; simp [gridOf, tab, List.map_const']
  rw [h0]
  obtain ⟨q, h1, h2, h3, h4⟩ := forRange_inv (fun j (q : ω × Nat × Key × List (List Nat)) => q.2.2.1.bits = k.bits ∧ (∃ g', q.2.2.2 = gridOf k.bits g') ∧
      A q.1 (n + j * (k.bits + 1))) 0 100000
    (body := fun _ => Model.RunSM.avalancheRound hf r k.bits)
    (by
      rintro j ⟨w, pos, k', grid⟩ _ hj ⟨h1, ⟨g, h2⟩, h3⟩
      dsimp only at h1 h2 h3
      subst h2
      obtain ⟨w', pos', k'', g', h4, h5, h6⟩ := avalancheRound_ok hS r k.bits w pos k' h1 g _ h3
      refine ⟨_, h4, h5, ⟨g', rfl⟩, ?_⟩
      dsimp only
      rw [Nat.succ_mul, ← Nat.add_assoc]; exact h6)
    (w, 0, k, gridOf k.bits fun _ _ => 0) ⟨rfl, ⟨_, rfl⟩, by simpa using hA⟩
  rw [h1, Go.bind_ok]
  refine ⟨q.1, rfl, ?_⟩
  rw [Nat.zero_add] at h4; exact h4

theorem runs_avalanche (r : Nat → U32) : Runs hf A sem r .Avalanche := by
  refine ⟨[], .nil, fun w n hA => ?_⟩
  have key : ∀ (ks : List Key) (w : ω) (n : Nat), A w n → ∃ w', ks.foldlM (fun w k => avalanche1 hf r k w) w = .ok w' ∧
      A w' (n + 100000 * (ks.map fun k => k.bits + 1).sum) := by
    intro ks
    induction ks with
    | nil => intro w n hA; exact ⟨w, rfl, by simpa using hA⟩
    | cons k ks ih =>
      intro w n hA
      obtain ⟨w1, h1, h2⟩ := avalanche1_ok hS r k w n hA
      obtain ⟨w2, h3, h4⟩ := ih w1 _ h2
      refine ⟨w2, ?_, ?_⟩
      · rw [List.foldlM_cons, h1, Go.bind_ok]; exact h3
      · rw [List.map_cons, List.sum_cons, Nat.mul_add, ← Nat.add_assoc]; exact h4
  obtain ⟨w', h1, h2⟩ := key avalancheKeys w n hA
  refine ⟨w', ?_, ?_⟩
  · show avalancheTest hf r w = _
    unfold avalancheTest
    rw [h1, Go.bind_ok]
    rfl
  · have : (avalancheKeys.map fun k => k.bits + 1).sum = ([16, 32, 64, 128, 256, 1600, 32, 64].map (· + 1)).sum := by
      simp only [avalancheKeys, Key.bits, List.length_replicate, List.map_cons, List.map_nil]
    rw [this] at h2
    exact h2

/-! ### Sanity -/

/-- What the sanity test has reported after `j` comparisons, `d` telling whether equal keys get different hashes. -/
def depOut (d : Bool) (j : Nat) : Out := if d then ⟨decide (0 < j), List.replicate j .depends⟩ else ⟨false, []⟩

omit hS in
theorem depOut_zero (d : Bool) : (⟨false, []⟩ : Out) = depOut d 0 := by cases d <;> rfl

theorem sanityBody_ok (d : Bool) (hd : ∀ n k, sem n k 0 ≠ sem (n + 1) k 0 ↔ d = true) (r : Nat → U32) (n i : Nat) (hn : n < 128) (hi : i < 16)
    (w : ω) (pos j m : Nat) (hA : A w (m + 2 * j)) :
    ∃ w' pos', sanityBody hf r n i (w, pos, depOut d j) = .ok (w', pos', depOut d (j + 1)) ∧ A w' (m + 2 * (j + 1)) := by
  unfold sanityBody
  dsimp only
  obtain ⟨x, h1, _⟩ := Props.C91_sanity (fun _ _ => 0) (randBytes r pos 176) (randBytes r (pos + 176) 176) (by simp [randBytes]) (by simp [randBytes]) n i hn hi
  rw [h1, Go.bind_ok]
  dsimp only
  obtain ⟨w1, h2, h3⟩ := hS.step w (m + 2 * j) x 0 hA
  obtain ⟨w2, h4, h5⟩ := hS.step w1 (m + 2 * j + 1) x 0 h3
  unfold Model.RunSM.BytesHash
  rw [h2, Go.bind_ok]
  dsimp only
  rw [h4, Go.bind_ok]
  dsimp only
  refine ⟨w2, pos + 352, ?_, h5⟩
  rw [Go.pure_ok]
  refine congrArg (fun o => Except.ok (w2, pos + 352, o)) ?_
  cases d with
  | true =>
    rw [if_pos ((hd _ _).2 rfl)]
    simp only [depOut, if_true]
    rw [← List.replicate_succ']
    simp
  | false =>
    rw [if_neg (fun h => by have := (hd _ _).1 h; cases this)]
    rfl

attribute [local irreducible] depOut in
theorem sanity_ok (d : Bool) (hd : ∀ n k, sem n k 0 ≠ sem (n + 1) k 0 ↔ d = true) (r : Nat → U32) (w : ω) (m : Nat) (hA : A w m) :
    ∃ w', sanity hf r w = .ok (w', depOut d 20480) ∧ A w' (m + calls r .Sanity) := by
  unfold sanity
  have e0 := depOut_zero d
  rw [e0]
  obtain ⟨q, h1, h2, h3⟩ := forRange_inv (fun k (q : ω × Nat × Out) => q.2.2 = depOut d (k * 2048) ∧ A q.1 (m + 2 * (k * 2048))) 0 10
    (body := fun _ => Go.forRange 0 128 fun n => Go.forRange 0 16 fun i => sanityBody hf r n i)
    (by
      intro k q _ _ hq
      obtain ⟨q2, h1, h2, h3⟩ := forRange_inv (fun n (q : ω × Nat × Out) => q.2.2 = depOut d (k * 2048 + n * 16) ∧ A q.1 (m + 2 * (k * 2048 + n * 16))) 0 128
        (body := fun n => Go.forRange 0 16 fun i => sanityBody hf r n i)
        (by
          intro n q _ hn hq
          obtain ⟨q2, h1, h2, h3⟩ := forRange_inv (fun i (q : ω × Nat × Out) => q.2.2 = depOut d (k * 2048 + n * 16 + i) ∧ A q.1 (m + 2 * (k * 2048 + n * 16 + i))) 0 16
            (body := fun i => sanityBody hf r n i)
            (by
              rintro i ⟨w, pos, o⟩ _ hi ⟨h1, h2⟩
              dsimp only at h1 h2
              subst h1
              obtain ⟨w', pos', h3, h4⟩ := sanityBody_ok hS d hd r n i (by omega) (by omega) w pos _ m h2
              rw [show k * 2048 + n * 16 + i + 1 = k * 2048 + n * 16 + (i + 1) by omega] at h3 h4
              exact ⟨(w', pos', depOut d (k * 2048 + n * 16 + (i + 1))), h3, rfl, h4⟩) q (by simpa using hq)
          refine ⟨q2, h1, ?_, ?_⟩
          · exact h2.trans (congrArg (depOut d) (by omega))
          · rw [show m + 2 * (k * 2048 + (n + 1) * 16) = m + 2 * (k * 2048 + n * 16 + (0 + 16)) by omega]; exact h3)
        q (by simpa using hq)
      refine ⟨q2, h1, ?_, ?_⟩
      · exact h2.trans (congrArg (depOut d) (by omega))
      · rw [show m + 2 * ((k + 1) * 2048) = m + 2 * (k * 2048 + (0 + 128) * 16) by omega]; exact h3)
    (w, 0, depOut d 0) ⟨by simp, by simpa using hA⟩
  obtain ⟨w', pos, o⟩ := q
  dsimp only at h2 h3
  have e1 : (0 + 10) * 2048 = 20480 := by norm_num
  rw [e1] at h2 h3
  subst h2
  rw [h1, Go.bind_ok]
  refine ⟨w', rfl, ?_⟩
  have e2 : calls r .Sanity = 2 * 20480 := by simp only [calls]
  rw [e2]; exact h3

/-! ### The whole run -/

theorem runs_all (r : Nat → U32) (t : TestFn) (ht : t ≠ .Sanity) : Runs hf A sem r t := by
  cases t with
  | Sanity => exact absurd rfl ht
  | Seed => exact runs_seed hS r
  | Text => exact runs_text hS r
  | Windowed => exact runs_windowed hS r
  | Avalanche => exact runs_avalanche hS r
  | Permutation => exact runs_permutation hS r
  | Sparse => exact runs_sparse hS r
  | Cyclic => exact runs_cyclic hS r
  | TwoNonzero => exact runs_twoNonzero hS r
  | SmallKeys => exact runs_smallKeys hS r
  | Zeros => exact runs_zeros hS r
  | AppendedZeros => exact runs_appendedZeros hS r

omit hS in
/-- Facts about single tests give facts about a run. -/
theorem runTests_ok (r : Nat → U32) (P : TestFn → Out → Prop)
    (h : ∀ t w n, A w n → ∃ w' o, runTest hf r t w = .ok (w', o) ∧ P t o ∧ A w' (n + calls r t)) (ts : List (TestFn × TestFn)) (w : ω) (n : Nat) (hA : A w n) :
    ∃ w' os, runTests hf r ts w = .ok (w', os) ∧ os.map (·.1) = ts.map (·.1) ∧ (∀ x ∈ os, P x.1 x.2) ∧ A w' (n + (ts.map fun t => calls r t.1).sum) := by
  induction ts generalizing w n with
  | nil => exact ⟨w, [], rfl, rfl, by simp, by simpa using hA⟩
  | cons t ts ih =>
    obtain ⟨w1, o, h1, h2, h3⟩ := h t.1 w n hA
    obtain ⟨w2, os, h4, h5, h6, h7⟩ := ih w1 _ h3
    refine ⟨w2, (t.1, o) :: os, ?_, by simp [h5], ?_, ?_⟩
    · rw [runTests, h1, Go.bind_ok]
      dsimp only
      rw [h4, Go.bind_ok]
      rfl
    · intro x hx
      rcases List.mem_cons.1 hx with rfl | hx
      · exact h2
      · exact h6 x hx
    · rw [List.map_cons, List.sum_cons, ← Nat.add_assoc]; exact h7

end

/-- A hash that panics on the first key ends the run. -/
theorem run_first {ω : Type} (hf : Hash ω) (r : Nat → U32) (name : String) (v : Bool) (w : ω) (f : Fault) (h : hf w [] 0 = .error f) :
    RunSMhasher hf r name v w = .error f := by
  have hb : sanityBody hf r 0 0 (w, 0, ⟨false, []⟩) = .error f := by
    unfold sanityBody
    dsimp only
    obtain ⟨x, h1, _, h3, _⟩ := Props.C91_sanity (fun _ _ => 0) (randBytes r 0 176) (randBytes r (0 + 176) 176) (by simp [randBytes]) (by simp [randBytes]) 0 0 (by omega) (by omega)
    rw [h1, Go.bind_ok]
    dsimp only
    rw [List.length_eq_zero_iff.1 h3]
    unfold Model.RunSM.BytesHash
    rw [h, Go.bind_error]
  have hs : sanity hf r w = .error f := by
    unfold sanity
    rw [Go.forRange, Go.forRange, Go.forRange, hb]
    rfl
  unfold RunSMhasher tests
  rw [runTests, runTest, hs, Go.bind_error]

end Verif.Lemmas.RunSM
