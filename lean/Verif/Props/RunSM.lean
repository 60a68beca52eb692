import Verif.Lemmas.RunSM3
import Verif.Props.Hashf

/-! # C109: a whole run of the SMHasher tests -/

namespace Verif.Lemmas.RunSM
open Verif Verif.Model.Smhasher Verif.Model.RunSM Verif.Spec.Smhasher Verif.Spec.RunSM Verif.Lemmas.Smhasher

theorem hashes_const (H : List U8 → U64 → U64) (n : Nat) (cs : List (List U8 × U64)) : hashes (fun _ => H) n cs = cs.map fun c => H c.1 c.2 := by
  induction cs generalizing n with
  | nil => rfl
  | cons c cs ih => rw [hashes, ih, List.map_cons]

theorem hashes_count (c : U64) (n : Nat) (cs : List (List U8 × U64)) :
    hashes (fun n _ _ => c + BitVec.ofNat 64 (n + 1)) n cs = (List.range' (n + 1) cs.length).map fun i => c + BitVec.ofNat 64 i := by
  induction cs generalizing n with
  | nil => rfl
  | cons d cs ih => rw [hashes, ih, List.length_cons, List.range'_succ, List.map_cons]

theorem verdict_count (c : U64) (n : Nat) (cs : List (List U8 × U64)) (hl : cs.length ≤ 2 * 10 ^ 8) :
    verdict (hashes (fun n _ _ => c + BitVec.ofNat 64 (n + 1)) n cs) = ⟨false, []⟩ := by
  unfold verdict
  rw [if_pos]
  rw [hashes_count]
  refine List.Nodup.map_on ?_ List.nodup_range'
  intro a ha b hb h
  have h2 := congrArg BitVec.toNat (BitVec.add_right_inj c |>.1 h)
  rw [List.mem_range'_1] at ha hb
  rw [BitVec.toNat_ofNat, BitVec.toNat_ofNat] at h2
  have e : ∀ x y, x ≤ y → y < x + 2 * 10 ^ 8 → x % 2 ^ 64 = y % 2 ^ 64 → x = y := by
    intro x y h1 h3 h4
    have h5 := (Nat.modEq_iff_dvd' h1).1 h4
    by_contra h6
    have := Nat.le_of_dvd (by omega) h5
    omega
  rcases Nat.le_total a b with hab | hab
  · exact e a b hab (by omega) h2
  · exact (e b a hab (by omega) h2.symm).symm

theorem verdicts_count (c : U64) (n : Nat) (ss : List (List (List U8 × U64))) (hl : ∀ cs ∈ ss, cs.length ≤ 2 * 10 ^ 8) :
    verdicts (fun n _ _ => c + BitVec.ofNat 64 (n + 1)) n ss = ⟨false, []⟩ := by
  induction ss generalizing n with
  | nil => rfl
  | cons s ss ih =>
    rw [verdicts, verdict_count c n s (hl s (by simp)), ih _ fun cs h => hl cs (by simp [h])]
    rfl

/-- What a set with the calls `cs` gets reported as. -/
def foundOf (H : List U8 → U64 → U64) (cs : List (List U8 × U64)) : Option Nat :=
  if (cs.map fun c => H c.1 c.2).Nodup then none else some ((cs.map fun c => H c.1 c.2).length - (cs.map fun c => H c.1 c.2).toFinset.card)

theorem found_match (H : List U8 → U64 → U64) {S : KeySet} {cs : List (List U8 × U64)} (h : Match S cs) :
    (foundOf H cs ≠ none ↔ Collide H S) ∧ ∀ g, foundOf H cs = some g → 0 < g ∧ g + distinct H S = S.size := by
  obtain ⟨h1, h2, h3⟩ := h
  have hc : ¬ (cs.map fun c => H c.1 c.2).Nodup ↔ Collide H S := by
    rw [not_nodup_map h1]
    constructor
    · rintro ⟨⟨k, s⟩, hx, ⟨k', s'⟩, hy, h4, h5⟩
      exact ⟨k, s, k', s', (h2 _ _).1 hx, (h2 _ _).1 hy, h4, h5⟩
    · rintro ⟨k, s, k', s', hx, hy, h4, h5⟩
      exact ⟨(k, s), (h2 _ _).2 hx, (k', s'), (h2 _ _).2 hy, h4, h5⟩
  have hd : distinct H S = (cs.map fun c => H c.1 c.2).toFinset.card := by
    unfold distinct
    rw [← Set.ncard_coe_finset]
    congr 1
    ext h
    simp only [Set.mem_ofPred_eq, List.coe_toFinset, List.mem_map, Prod.exists]
    constructor
    · rintro ⟨k, s, a, b⟩; exact ⟨k, s, (h2 _ _).2 a, b⟩
    · rintro ⟨k, s, a, b⟩; exact ⟨k, s, (h2 _ _).1 a, b⟩
  unfold foundOf
  by_cases hn : (cs.map fun c => H c.1 c.2).Nodup
  · rw [if_pos hn]
    exact ⟨⟨fun h => absurd rfl h, fun h => absurd hn (hc.2 h)⟩, fun g hg => (nomatch hg)⟩
  · rw [if_neg hn]
    refine ⟨⟨fun _ => hc.1 hn, fun _ h => (nomatch h)⟩, fun g hg => ?_⟩
    have hg' := Option.some.inj hg
    have hle := List.toFinset_card_le (cs.map fun c => H c.1 c.2)
    have hne : (cs.map fun c => H c.1 c.2).toFinset.card ≠ (cs.map fun c => H c.1 c.2).length := fun h => hn ((card_eq_iff _).1 h)
    rw [hd, ← h3]
    rw [List.length_map] at *
    omega

theorem verdict_found (H : List U8 → U64 → U64) (n : Nat) (cs : List (List U8 × U64)) :
    (verdict (hashes (fun _ => H) n cs)).events = ([foundOf H cs].filterMap (Option.map Event.collisions)) ∧
    ((verdict (hashes (fun _ => H) n cs)).ret = true ↔ foundOf H cs ≠ none) := by
  rw [hashes_const]
  unfold verdict foundOf
  by_cases hn : (cs.map fun c => H c.1 c.2).Nodup
  · rw [if_pos hn, if_pos hn]; exact ⟨rfl, by simp⟩
  · rw [if_neg hn, if_neg hn]; exact ⟨rfl, by simp⟩

theorem verdicts_found (H : List U8 → U64 → U64) (n : Nat) (ss : List (List (List U8 × U64))) :
    (verdicts (fun _ => H) n ss).events = ((ss.map (foundOf H)).filterMap (Option.map Event.collisions)) ∧
    ((verdicts (fun _ => H) n ss).ret = true ↔ ∃ x ∈ ss.map (foundOf H), x ≠ none) := by
  induction ss generalizing n with
  | nil => exact ⟨rfl, by simp [verdicts]⟩
  | cons s ss ih =>
    obtain ⟨a, b⟩ := verdict_found H n s
    obtain ⟨c, d⟩ := ih (n + s.length)
    constructor
    · rw [verdicts, Out.append, a, c, List.map_cons, ← List.filterMap_append]; rfl
    · rw [verdicts, Out.append, Bool.or_eq_true, b, d, List.map_cons]
      simp only [List.mem_cons, exists_eq_or_imp]

theorem judged (H : List U8 → U64 → U64) (r : Nat → U32) (t : TestFn) (n : Nat) (ss : List (List (List U8 × U64))) (hm : List.Forall₂ Match (sets r t) ss) :
    Judged H r t (fin t (verdicts (fun _ => H) n ss)) := by
  obtain ⟨h1, h2⟩ := verdicts_found H n ss
  refine ⟨ss.map (foundOf H), ?_, ?_, ?_⟩
  · rw [List.forall₂_map_right_iff]
    exact hm.imp fun S cs h => found_match H h
  · rw [← h1]; unfold fin; split <;> rfl
  · rw [← h2]
    unfold fin
    split
    · rename_i h; exact ⟨fun h => (nomatch h), fun x => absurd h x.1⟩
    · rename_i h; exact ⟨fun x => ⟨h, x⟩, fun x => x.2⟩

/-! ### `Hashf` does not change the selected name -/

/-- Every state returned has the same `Hf2` as `s`. -/
def Keep (s : Model.Hashf.State) (x : Go (Model.Hashf.State × U64)) : Prop := ∀ p, x = .ok p → p.1.Hf2 = s.Hf2

theorem keep_bind {α : Type} {s : Model.Hashf.State} {x : Go α} {f : α → Go (Model.Hashf.State × U64)} (h : ∀ a, x = .ok a → Keep s (f a)) : Keep s (x >>= f) := by
  intro p hp
  cases x with
  | error e => rw [Go.bind_error] at hp; exact (nomatch hp)
  | ok a => rw [Go.bind_ok] at hp; exact h a rfl p hp

theorem keep_ok {s s' : Model.Hashf.State} {h : U64} (hs : s'.Hf2 = s.Hf2) : Keep s (.ok (s', h)) := fun p hp => by rw [← Except.ok.inj hp]; exact hs

theorem keep_pure {s s' : Model.Hashf.State} {h : U64} (hs : s'.Hf2 = s.Hf2) : Keep s (pure (s', h)) := keep_ok hs

theorem keep_sip {s : Model.Hashf.State} (seed : U64) (s' : Model.Hashf.State) (h : Model.Hashf.sipSeedSet s seed = .ok s') : s'.Hf2 = s.Hf2 := by
  unfold Model.Hashf.sipSeedSet at h
  have key : ∀ {α : Type} {x : Go α} {f : α → Go Model.Hashf.State}, (∀ a, ∀ q, f a = .ok q → q.Hf2 = s.Hf2) → ∀ q, (x >>= f) = .ok q → q.Hf2 = s.Hf2 := by
    intro α x f h q hq
    cases x with
    | error e => rw [Go.bind_error] at hq; exact (nomatch hq)
    | ok a => rw [Go.bind_ok] at hq; exact h a q hq
  revert h s'
  iterate 24 refine key fun _ => ?_
  intro q hq
  rw [← Except.ok.inj hq]

open Verif.Model.Hashf in
theorem keep_all (e : Model.Hashf.Ext) (s : Model.Hashf.State) (k : List U8) (seed : U64) : ∀ c ∈ Model.Hashf.cases, Keep s (c.2 e s k seed) := by
  intro c hc
  simp only [Model.Hashf.cases, List.mem_cons, List.not_mem_nil, or_false] at hc
  iterate 49 (rcases hc with rfl | hc; focus (first
      | exact keep_ok rfl
      | (simp only [perfecthash, gomap64, gomap32, aeshash32I, aeshash64I, Model.Hashf.sbox, crapWow, maHash8v64, j364, j332c, j332b, j232, j264, j264l, j264h, j264xor,
          spooky32, spooky64, spooky128h, spooky128l, spooky128xor, murmur332, murmur364, siphash64, siphash64pg, farmHash32, farmHash64, farmHash128high,
          farmHash128low, farmHash128xor, metroHash64_1, metroHash64_2, metroHash128_1h, metroHash128_1l, metroHash128_1xor, metroHash128_2h, metroHash128_2l,
          metroHash128_2xor, Model.Hashf.keccak224, keccakpg643, keccakpg644, keccakpg648, keccakpg160, Model.Hashf.whirlpool, Model.Hashf.blake2b]
         repeat (first | exact keep_ok rfl | exact keep_pure rfl | (refine keep_bind fun a ha => ?_))
         all_goals exact keep_pure (keep_sip seed _ (by assumption)))))
  subst hc
  unfold Model.Hashf.sha1
  repeat (first | exact keep_ok rfl | exact keep_pure rfl | (refine keep_bind fun a ha => ?_))

theorem keep_Hashf {e : Model.Hashf.Ext} {s s' : Model.Hashf.State} {k : List U8} {seed h : U64} (hh : Model.Hashf.Hashf e s k seed = .ok (s', h)) : s'.Hf2 = s.Hf2 := by
  unfold Model.Hashf.Hashf at hh
  cases hl : Model.Hashf.cases.lookup s.Hf2 with
  | none => rw [hl] at hh; exact (nomatch hh)
  | some f =>
    rw [hl] at hh
    have key : ∀ (l : List (String × Model.Hashf.Case)) (x : String), l.lookup x = some f → ∃ y, (y, f) ∈ l := by
      intro l x
      induction l with
      | nil => intro h; exact (nomatch h)
      | cons a l ih =>
        rw [List.lookup_cons]
        intro h
        split at h
        · exact ⟨a.1, by rw [← Option.some.inj h]; simp⟩
        · obtain ⟨y, hy⟩ := ih h
          exact ⟨y, List.mem_cons_of_mem _ hy⟩
    obtain ⟨y, hy⟩ := key _ _ hl
    exact keep_all e s k seed _ hy _ hh

/-- Reachable globals are globals after some history of calls. -/
theorem reach_at {e : Model.Hashf.Ext} (he : Spec.Hashf.Ok e) {s : Model.Hashf.State} (h : Reach e s) : ∃ hist, Lemmas.Hashf.At s hist := by
  induction h with
  | start => exact ⟨[], Lemmas.Hashf.init_at⟩
  | select s name _ ih =>
    obtain ⟨hist, i, a, b⟩ := ih
    exact ⟨hist, ⟨i.1, i.2, i.3, i.4, i.5, i.6, i.7⟩, a, b⟩
  | call s s' k seed h _ hh ih =>
    obtain ⟨hist, ha⟩ := ih
    obtain ⟨h1, h2⟩ := Lemmas.Hashf.step_ok e he s hist s.Hf2 k seed ha
    have e1 : ({ s with Hf2 := s.Hf2 } : Model.Hashf.State) = s := rfl
    rw [e1] at h1 h2
    cases ho : Spec.Hashf.outcome e hist s.Hf2 k seed with
    | error f => rw [(h2 f ho).1] at hh; exact (nomatch hh)
    | ok v =>
      obtain ⟨s1, h3, h4⟩ := h1 v ho
      rw [h3] at hh
      have := (Prod.mk.inj (Except.ok.inj hh)).1
      subst this
      exact ⟨_, h4⟩

/-- No set has more members than `check` can judge exactly. -/
theorem sets_small (r : Nat → U32) (t : TestFn) : ∀ S ∈ sets r t, S.size ≤ 2 * 10 ^ 8 := by
  cases t with
  | Sanity => intro S h; exact (nomatch h)
  | Avalanche => intro S h; exact (nomatch h)
  | Seed => intro S h; rw [List.mem_singleton.1 h]; norm_num
  | Zeros => intro S h; rw [List.mem_singleton.1 h]; unfold keys; norm_num
  | SmallKeys => intro S h; rw [List.mem_singleton.1 h]; unfold keys; norm_num
  | AppendedZeros => intro S h; rw [List.mem_singleton.1 h]; unfold keys; norm_num
  | TwoNonzero =>
    intro S h
    rw [List.mem_singleton.1 h]
    unfold keys
    simp only [Props.choose_desc]
    decide +kernel
  | Text =>
    intro S h
    unfold sets at h
    obtain ⟨p, _, rfl⟩ := List.mem_map.1 h
    unfold keys; norm_num
  | Cyclic =>
    intro S h
    unfold sets at h
    obtain ⟨p, _, rfl⟩ := List.mem_map.1 h
    unfold keys; norm_num
  | Windowed =>
    intro S h
    unfold sets at h
    obtain ⟨n, _, h⟩ := List.mem_flatMap.1 h
    obtain ⟨i, _, rfl⟩ := List.mem_map.1 h
    unfold keys; norm_num
  | Permutation =>
    intro S h
    unfold sets at h
    obtain ⟨p, hp, rfl⟩ := List.mem_map.1 h
    have hl : ∀ p ∈ Permutations, ∑ j ∈ Finset.range (p.1 + 1), p.2.length ^ j ≤ 2 * 10 ^ 8 := by decide +kernel
    exact hl p hp
  | Sparse =>
    intro S h
    unfold sets at h
    obtain ⟨p, hp, rfl⟩ := List.mem_map.1 h
    have hl : ∀ p ∈ pairs, ∑ j ∈ Finset.range (p.2 + 1), p.1.choose j ≤ 2 * 10 ^ 8 := by
      intro p hp
      simp only [Props.choose_desc]
      revert p
      decide +kernel
    exact hl p hp

end Verif.Lemmas.RunSM

namespace Verif.Props
open Verif Verif.Model.Smhasher Verif.Model.RunSM Verif.Spec.Smhasher Verif.Spec.RunSM Verif.Lemmas.RunSM

/-- C109. If the hash function under test never panics and is a function `H` of key and seed (whatever state it keeps; `Inv` holds of the states it goes through),
then a run completes: the eleven tests run in order, each reports exactly the sets in which two members have the same hash, with the right number of collisions, and
returns whether it reported, except for the four silent ones. The name and the verbosity given to `RunSMhasher` play no role. -/
theorem C109_function {ω : Type} (hf : Hash ω) (H : List U8 → U64 → U64) (Inv : ω → Prop)
    (hstep : ∀ w k s, Inv w → ∃ w', hf w k s = .ok (w', H k s) ∧ Inv w') (r : Nat → U32) (name : String) (v : Bool) (w : ω) (hw : Inv w) :
    ∃ w' os, RunSMhasher hf r name v w = .ok (w', os) ∧ Inv w' ∧ os.map (·.1) = order ∧ ∀ x ∈ os, Judged H r x.1 x.2 := by
  have hS : Sem hf (fun w _ => Inv w) (fun _ => H) := ⟨fun w _ k s hA => hstep w k s hA⟩
  obtain ⟨w', os, h1, h2, h3, h4⟩ := runTests_ok (hf := hf) (A := fun w _ => Inv w) r (Judged H r) (by
    intro t w n hA
    by_cases ht : t = .Sanity
    · subst ht
      obtain ⟨w', h1, h2⟩ := sanity_ok hS false (fun _ _ => ⟨fun h => absurd rfl h, fun h => (nomatch h)⟩) r w n hA
      refine ⟨w', _, h1, ⟨[], .nil, rfl, ?_⟩, h2⟩
      exact ⟨fun h => (nomatch h), fun h => by obtain ⟨_, x, hx, _⟩ := h; exact (nomatch hx)⟩
    · obtain ⟨ss, h1, h2⟩ := runs_all hS r t ht
      obtain ⟨w', h3, h4⟩ := h2 w n hA
      exact ⟨w', _, h3, judged H r t n ss h1, h4⟩) tests w 0 hw
  exact ⟨w', os, h1, h4, h2, h3⟩

/-- The results of a run with a hash function that counts its calls. -/
def counted : List (TestFn × Out) := order.map fun t => (t, if t = .Sanity then ⟨true, List.replicate 20480 .depends⟩ else ⟨false, []⟩)

/-- The number of calls of the hash function in a run. -/
theorem C109_calls (r : Nat → U32) : (order.map (calls r)).sum = 465689455 := by
  have h1 : calls r .Sanity = 40960 := rfl
  have h2 : calls r .Seed = 100000 := rfl
  have h3 : calls r .Text = 18750000 := rfl
  have h4 : calls r .Windowed = 73400320 := by
    have e : calls r .Windowed = ((winSets 32 ++ (winSets 64 ++ (winSets 1024 ++ []))).map KeySet.size).sum := rfl
    have f : ∀ n, ((winSets n).map KeySet.size).sum = n * 65536 := by
      intro n
      unfold winSets
      rw [List.map_map]
      have : (KeySet.size ∘ fun i => keys (fun k => 8 * k.length = n ∧ ∀ p, bit k p = true → inWindow n i p) (2 ^ 16)) = fun _ => 65536 := by
        funext i; rfl
      rw [this, List.map_const', List.sum_replicate, List.length_range, smul_eq_mul]
    rw [e, List.append_nil, List.map_append, List.map_append, List.sum_append, List.sum_append, f, f, f]
  have h5 : calls r .Avalanche = 220000000 := rfl
  have h6 : calls r .Permutation = 54746465 := by
    simp only [calls, sets, keys]
    decide +kernel
  have h7 : calls r .Sparse = 28557000 := by
    simp only [calls, sets, keys, choose_desc]
    decide +kernel
  have h8 : calls r .Cyclic = 9000000 := by
    simp only [calls, sets, keys, List.map_cons, List.map_nil, List.sum_cons, List.sum_nil]
    norm_num
  have h9 : calls r .TwoNonzero = 44251440 := by
    simp only [calls, sets, keys, choose_desc]
    decide +kernel
  have h10 : calls r .SmallKeys = 16843008 := rfl
  have h11 : calls r .AppendedZeros = 262 := rfl
  simp only [order, List.map_cons, List.map_nil, List.sum_cons, List.sum_nil, h1, h2, h3, h4, h5, h6, h7, h8, h9, h10, h11]
  norm_num

/-- C109. If the hash function under test returns the number of its calls so far (from `c` on), the sanity test reports each of its 20480 comparisons, and no other
test reports anything: a hash function without any collision fails only there. The run makes 465689455 calls. -/
theorem C109_counter {ω : Type} (hf : Hash ω) (c : U64) (A : ω → Nat → Prop)
    (hstep : ∀ w n k s, A w n → ∃ w', hf w k s = .ok (w', c + BitVec.ofNat 64 (n + 1)) ∧ A w' (n + 1)) (r : Nat → U32) (name : String) (v : Bool) (w : ω) (hw : A w 0) :
    ∃ w', RunSMhasher hf r name v w = .ok (w', counted) ∧ A w' 465689455 := by
  have hS : Sem hf A (fun n _ _ => c + BitVec.ofNat 64 (n + 1)) := ⟨hstep⟩
  obtain ⟨w', os, h1, h2, h3, h4⟩ := runTests_ok (hf := hf) (A := A) r
    (fun t o => o = if t = .Sanity then ⟨true, List.replicate 20480 .depends⟩ else ⟨false, []⟩) (by
    intro t w n hA
    by_cases ht : t = .Sanity
    · subst ht
      obtain ⟨w', h1, h2⟩ := sanity_ok hS true (fun n k => ⟨fun _ => rfl, fun _ h => by
        have h' := BitVec.add_right_inj c |>.1 h
        have := congrArg BitVec.toNat h'
        rw [BitVec.toNat_ofNat, BitVec.toNat_ofNat] at this
        omega⟩) r w n hA
      refine ⟨w', _, h1, ?_, h2⟩
      rw [if_pos rfl]
      simp only [depOut, if_true]
      congr 1
    · rw [if_neg ht]
      obtain ⟨ss, h1, h2⟩ := runs_all hS r t ht
      obtain ⟨w', h3, h4⟩ := h2 w n hA
      refine ⟨w', _, h3, ?_, h4⟩
      rw [verdicts_count c n ss (small_of_match h1 (sets_small r t))]
      unfold fin
      split <;> rfl) tests w 0 hw
  refine ⟨w', ?_, ?_⟩
  · have : os = counted := by
      unfold counted
      rw [show order = tests.map (·.1) from rfl, ← h2, List.map_map]
      refine (List.map_id os).symm.trans (List.map_congr_left fun x hx => ?_)
      exact Prod.ext rfl (h3 x hx)
    rw [← this]; exact h1
  · rw [← C109_calls r]
    rw [Nat.zero_add] at h4
    exact h4

open Verif.Model.Hashf (Ext State Hashf TestHashFunctions)
open Verif.Spec.Hashf (Ok table names counters)

/-- The names whose functions index into the key without looking at its length. -/
def indexing : List String := ["perfecthash", "gomap32", "gomap64", "aeshash32I", "aeshash64I"]

/-- The names in `names` other than `counters` and `indexing` denote functions that are defined everywhere. -/
theorem table_total (e : Ext) (name : String) (hn : name ∈ names) (hc : name ∉ counters) (hi : name ∉ indexing) :
    ∃ H : List U8 → U64 → U64, (table e).lookup name = some fun k s => some (H k s) := by
  have hn' : names = counters ++ names.drop 2 := rfl
  rw [hn', List.mem_append] at hn
  rcases hn with h | h
  · exact absurd h hc
  rw [← table_names e] at h
  obtain ⟨x, hx, rfl⟩ := List.mem_map.1 h
  obtain ⟨i, hi'⟩ := List.mem_iff_getElem?.1 hx
  rw [lookup_of_get (table e) (by rw [table_names]; decide) i x hi']
  have key : ∀ H : List U8 → U64 → U64, x.2 = (fun k s => some (H k s)) → ∃ H : List U8 → U64 → U64, some x.2 = some fun k s => some (H k s) :=
    fun H h => ⟨H, congrArg some h⟩
  clear h hn' hi' hc
  simp only [table, List.mem_cons, List.not_mem_nil, or_false] at hx
  iterate 47 (rcases hx with rfl | hx; focus (first
    | exact key _ rfl
    | (refine absurd ?_ hi; dsimp only; decide)))
  subst hx
  exact key _ rfl

/-- One call of `Hashf` from reachable globals. -/
theorem reach_step (e : Ext) (he : Ok e) (s : State) (hs : Reach e s) (k : List U8) (seed : U64) (hc : s.Hf2 ∉ counters) :
    (∀ f v, (table e).lookup s.Hf2 = some f → f k seed = some v → ∃ s', Hashf e s k seed = .ok (s', v)) ∧
    (∀ f, (table e).lookup s.Hf2 = some f → f k seed = none → Hashf e s k seed = .error .index) ∧
    ((table e).lookup s.Hf2 = none → Hashf e s k seed = .error (.explicit "hashf")) := by
  obtain ⟨hist, ha⟩ := reach_at he hs
  obtain ⟨h1, h2⟩ := Lemmas.Hashf.step_ok e he s hist s.Hf2 k seed ha
  have e1 : ({ s with Hf2 := s.Hf2 } : State) = s := rfl
  rw [e1] at h1 h2
  refine ⟨fun f v hl hf => ?_, fun f hl hf => ?_, fun hl => ?_⟩
  · obtain ⟨s', h3, _⟩ := h1 v (by unfold Spec.Hashf.outcome; rw [if_neg hc, hl]; simp only [hf])
    exact ⟨s', h3⟩
  · exact (h2 _ (by unfold Spec.Hashf.outcome; rw [if_neg hc, hl]; simp only [hf])).1
  · exact (h2 _ (by unfold Spec.Hashf.outcome; rw [if_neg hc, hl])).1

/-- C109, for the hash functions of package hashf, from any globals a program can get to, with any random numbers. The hash function tested is the one `Hf2` names, whatever
name `RunSMhasher` is given. An unknown name panics; five names panic with an index out of range, because the first test starts with empty keys; with the two
counters the sanity test reports everything and the other tests nothing; with every other name the run completes and judges the function the name denotes. -/
theorem C109_hashf (e : Ext) (he : Ok e) (s : State) (hs : Reach e s) (name arg : String) (v : Bool) (r : Nat → U32) :
    (name ∉ names → RunSMhasher (Hashf e) r arg v { s with Hf2 := name } = .error (.explicit "hashf")) ∧
    (name ∈ indexing → RunSMhasher (Hashf e) r arg v { s with Hf2 := name } = .error .index) ∧
    (name ∈ counters → ∃ s', RunSMhasher (Hashf e) r arg v { s with Hf2 := name } = .ok (s', counted) ∧ Reach e s') ∧
    (name ∈ names → name ∉ counters → name ∉ indexing → ∃ H : List U8 → U64 → U64, (table e).lookup name = some (fun k sd => some (H k sd)) ∧
      ∃ s' os, RunSMhasher (Hashf e) r arg v { s with Hf2 := name } = .ok (s', os) ∧ Reach e s' ∧ os.map (·.1) = order ∧ ∀ x ∈ os, Judged H r x.1 x.2) := by
  have hs' : Reach e { s with Hf2 := name } := .select s name hs
  refine ⟨fun hn => ?_, fun hn => ?_, fun hn => ?_, fun hn hc hi => ?_⟩
  · have hc : name ∉ counters := fun h => hn (List.mem_append_left _ h)
    refine run_first _ _ _ _ _ _ ((reach_step e he _ hs' [] 0 hc).2.2 ?_)
    have ht : name ∉ (table e).map (·.1) := fun h => hn (by
      rw [table_names] at h
      exact List.mem_of_mem_drop h)
    rw [lookup_isSome] at ht
    exact Option.not_isSome_iff_eq_none.1 ht
  · have hc : name ∉ counters := fun h => by
      have : ∀ x ∈ indexing, x ∉ counters := by decide
      exact this name hn h
    refine run_first _ _ _ _ _ _ ?_
    have := (reach_step e he _ hs' [] 0 hc).2.1
    simp only [indexing, List.mem_cons, List.not_mem_nil, or_false] at hn
    rcases hn with rfl | rfl | rfl | rfl | rfl
    · exact this _ rfl rfl
    · exact this _ rfl rfl
    · exact this _ rfl rfl
    · exact this _ rfl rfl
    · exact this _ rfl rfl
  · simp only [counters, List.mem_cons, List.not_mem_nil, or_false] at hn
    rcases hn with rfl | rfl
    · obtain ⟨s', h1, h2, _⟩ := C109_counter (Hashf e) s.nh.ctr (fun w n => Reach e w ∧ w.Hf2 = "nullhash" ∧ w.nh.ctr = s.nh.ctr + BitVec.ofNat 64 n) (by
        rintro w n k sd ⟨a, b, c⟩
        have hh : Hashf e w k sd = .ok ({ w with nh := ⟨w.nh.ctr + 1#64⟩ }, w.nh.ctr + 1#64) := by
          have hl : Model.Hashf.cases.lookup w.Hf2 = some Model.Hashf.nullhash := by rw [b]; rfl
          unfold Hashf; rw [hl]; rfl
        have hv : w.nh.ctr + 1#64 = s.nh.ctr + BitVec.ofNat 64 (n + 1) := by rw [c, BitVec.ofNat_add, BitVec.add_assoc]
        refine ⟨_, by rw [← hv]; exact hh, .call _ _ _ _ _ a hh, b, hv⟩) r arg v { s with Hf2 := "nullhash" } ⟨hs', rfl, by simp⟩
      exact ⟨s', h1, h2⟩
    · obtain ⟨s', h1, h2, _⟩ := C109_counter (Hashf e) s.nhf64.ctr (fun w n => Reach e w ∧ w.Hf2 = "nullhashF64ns" ∧ w.nhf64.ctr = s.nhf64.ctr + BitVec.ofNat 64 n) (by
        rintro w n k sd ⟨a, b, c⟩
        have hh : Hashf e w k sd = .ok ({ w with nhf64 := ⟨w.nhf64.ctr + 1#64⟩ }, w.nhf64.ctr + 1#64) := by
          have hl : Model.Hashf.cases.lookup w.Hf2 = some Model.Hashf.nullhashF64ns := by rw [b]; rfl
          unfold Hashf; rw [hl]; rfl
        have hv : w.nhf64.ctr + 1#64 = s.nhf64.ctr + BitVec.ofNat 64 (n + 1) := by rw [c, BitVec.ofNat_add, BitVec.add_assoc]
        refine ⟨_, by rw [← hv]; exact hh, .call _ _ _ _ _ a hh, b, hv⟩) r arg v { s with Hf2 := "nullhashF64ns" } ⟨hs', rfl, by simp⟩
      exact ⟨s', h1, h2⟩
  · obtain ⟨H, hH⟩ := table_total e name hn hc hi
    refine ⟨H, hH, ?_⟩
    obtain ⟨s', os, h1, h2, h3⟩ := C109_function (Hashf e) H (fun w => Reach e w ∧ w.Hf2 = name) (by
      rintro w k sd ⟨a, rfl⟩
      obtain ⟨w', h1⟩ := (reach_step e he w a k sd hc).1 _ _ hH rfl
      exact ⟨w', h1, .call _ _ _ _ _ a h1, keep_Hashf h1⟩) r arg v { s with Hf2 := name } ⟨hs', rfl⟩
    exact ⟨s', os, h1, h2.1, h3⟩

/-- C109. A function that ignores its seed is reported by the seed test with 99999 collisions. -/
theorem C109_seedless (H : List U8 → U64 → U64) (h : ∀ k s s', H k s = H k s') (r : Nat → U32) (o : Out) (ho : Judged H r .Seed o) :
    o = ⟨true, [.collisions 99999]⟩ := by
  obtain ⟨found, h1, h2, h3⟩ := ho
  cases h1 with
  | cons ha hb =>
    cases hb
    rename_i x
    have hc : Collide H ⟨fun k s => k = ascii "hello" ∧ s.toNat < 100000, 100000⟩ :=
      ⟨ascii "hello", 0, ascii "hello", 1, ⟨rfl, by decide⟩, ⟨rfl, by decide⟩, by decide, h _ _ _⟩
    have hx := ha.1.2 hc
    cases x with
    | none => exact absurd rfl hx
    | some g =>
      have hg := (ha.2 g rfl).2
      have hd : distinct H ⟨fun k s => k = ascii "hello" ∧ s.toNat < 100000, 100000⟩ = 1 := by
        unfold distinct
        rw [Set.ncard_eq_one]
        refine ⟨H (ascii "hello") 0, ?_⟩
        ext y
        simp only [Set.mem_ofPred_eq, Set.mem_singleton_iff]
        constructor
        · rintro ⟨k, s, ⟨rfl, _⟩, rfl⟩; exact h _ _ _
        · rintro rfl; exact ⟨ascii "hello", 0, ⟨rfl, by decide⟩, rfl⟩
      rw [hd] at hg
      have hg' : g = 99999 := by
        have : g + 1 = 100000 := hg
        omega
      subst hg'
      obtain ⟨ret, ev⟩ := o
      dsimp only at h2 h3
      rw [h2, h3.2 ⟨by decide, _, by simp, hx⟩]
      rfl

/-- C109. `ht -sm` over all hash functions runs the tests for nullhash and aeshash64 and then ends with an index panic, at gomap64: none of the other names is tested.
The expected run over all of `TestHashFunctions` is refuted. -/
theorem C109_all_violated (e : Ext) (he : Ok e) (r : Nat → U32) (v : Bool) :
    Model.Hashf.selected false false false TestHashFunctions = TestHashFunctions ∧
    ∃ os, os.map (·.1) = order ∧ (∀ x ∈ os, Judged e.aesHash r x.1 x.2) ∧
      smMain e r v TestHashFunctions Model.Hashf.init = ([("nullhash", counted), ("aeshash64", os)], .error .index) := by
  refine ⟨by decide, ?_⟩
  obtain ⟨s1, h1, r1⟩ := (C109_hashf e he _ .start "nullhash" "nullhash" v r).2.2.1 (by decide)
  obtain ⟨H, hH, s2, os, h2, r2, h3, h4⟩ := (C109_hashf e he s1 r1 "aeshash64" "aeshash64" v r).2.2.2 (by decide) (by decide) (by decide)
  have hH' : H = e.aesHash := by
    have : some (fun k sd => some (e.aesHash k sd)) = some (fun k sd => some (H k sd)) := hH
    funext k sd
    exact (Option.some.inj (congrFun (congrFun (Option.some.inj this) k) sd)).symm
  subst hH'
  have h5 := (C109_hashf e he s2 r2 "gomap64" "gomap64" v r).2.1 (by decide)
  refine ⟨os, h3, h4, ?_⟩
  unfold TestHashFunctions
  rw [smMain, h1]
  dsimp only
  rw [smMain, h2]
  dsimp only
  rw [smMain, h5]

/-- Non-vacuity: the external functions of the example satisfy the hypothesis, and the names fall in the four classes. -/
example : Ok exampleExt ∧ Reach exampleExt Model.Hashf.init ∧ "skein256" ∉ names ∧ "gomap64" ∈ indexing ∧ "nullhash" ∈ counters ∧
    ("j364" ∈ names ∧ "j364" ∉ counters ∧ "j364" ∉ indexing) := ⟨exampleExt_ok, .start, by decide, by decide, by decide, by decide, by decide, by decide⟩

/-- A hash that returns 0 collides everywhere; one that returns the length separates the prefixes of the last test. -/
example (r : Nat → U32) : (∀ S ∈ sets r .SmallKeys, Collide (fun _ _ => 0) S) ∧ ∀ S ∈ sets r .AppendedZeros, ¬ Collide (fun k _ => BitVec.ofNat 64 k.length) S := by
  constructor
  · intro S hS
    rw [List.mem_singleton.1 hS]
    exact ⟨[1], 0, [2], 0, ⟨rfl, by decide⟩, ⟨rfl, by decide⟩, by decide, rfl⟩
  · intro S hS
    rw [List.mem_singleton.1 hS]
    rintro ⟨k, s, k', s', ⟨rfl, h1⟩, ⟨rfl, h2⟩, h3, h4⟩
    have l1 := h1.length_le
    have l2 := h2.length_le
    have hl : (ascii "hello" ++ List.replicate 256 0#8).length = 261 := by rw [List.length_append, List.length_replicate]; rfl
    have h5 := congrArg BitVec.toNat h4
    rw [BitVec.toNat_ofNat, BitVec.toNat_ofNat, Nat.mod_eq_of_lt (by omega), Nat.mod_eq_of_lt (by omega)] at h5
    exact h3 (by rw [List.prefix_iff_eq_take.1 h1, List.prefix_iff_eq_take.1 h2, h5])

end Verif.Props
