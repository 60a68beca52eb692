import Verif.Lemmas.Hashf

namespace Verif.Lemmas.Hashf
open Verif Verif.Model.Hashf
open Verif.Spec.Hashf (table outcome counters low wide pack firstEight)

/-- Two tables with the same names in the same order whose entries correspond. -/
inductive Rel (e : Ext) : List (String × Case) → List (String × (List U8 → U64 → Option U64)) → Prop
  | nil : Rel e [] []
  | cons {n f g l l'} : Good e f g → Rel e l l' → Rel e ((n, f) :: l) ((n, g) :: l')

theorem Rel.lookup {e : Ext} {l l'} (h : Rel e l l') (name : String) :
    (l'.lookup name = none → l.lookup name = none) ∧ ∀ g, l'.lookup name = some g → ∃ f, l.lookup name = some f ∧ Good e f g := by
  induction h with
  | nil => exact ⟨fun _ => rfl, fun g hg => nomatch hg⟩
  | @cons n f g l l' hg _ ih =>
    rw [List.lookup_cons, List.lookup_cons]
    cases name == n with
    | true => exact ⟨fun h => (nomatch h), fun g' e => ⟨f, rfl, by cases e; exact hg⟩⟩
    | false => exact ih

theorem rel_rest (e : Ext) (he : Spec.Hashf.Ok e) : Rel e (cases.drop 3) ((table e).drop 1) := by
  refine .cons (good_gomap64 e) <| .cons (good_gomap32 e) <| .cons (good_aeshash64 e) <| .cons (good_aeshash32I e) <| .cons (good_aeshash64I e) <|
    .cons (good_adler32 e) <| .cons (good_sbox e) <| .cons (good_crapWow e) <| .cons (good_maHash e) <| .cons (good_j364 e) <| .cons (good_j332c e) <|
    .cons (good_j332b e) <| .cons (good_j232 e) <| .cons (good_j264 e) <| .cons (good_j264l e) <| .cons (good_j264h e) <| .cons (good_j264xor e) <|
    .cons (good_spooky32 e) <| .cons (good_spooky64 e) <| .cons (good_spooky128h e) <| .cons (good_spooky128l e) <| .cons (good_spooky128xor e) <|
    .cons (good_murmur332 e) <| .cons (good_murmur364 e) <| .cons (good_siphash64 e) <| .cons (good_siphash64pg e) <| .cons (good_farm32 e) <|
    .cons (good_farm64 e) <| .cons (good_farm128high e) <| .cons (good_farm128low e) <| .cons (good_farm128xor e) <| .cons (good_metro64_1 e) <|
    .cons (good_metro64_2 e) <| .cons (good_metro128_1h e) <| .cons (good_metro128_1l e) <| .cons (good_metro128_1xor e) <| .cons (good_metro128_2h e) <|
    .cons (good_metro128_2l e) <| .cons (good_metro128_2xor e) <| .cons (good_keccak224 e he) <| .cons (good_keccakpg643 e) <| .cons (good_keccakpg644 e) <|
    .cons (good_keccakpg648 e) <| .cons (good_keccakpg160 e) <| .cons (good_whirlpool e he) <| .cons (good_blake2b e he) <| .cons (good_sha1 e he) .nil

theorem cases_lookup (e : Ext) (he : Spec.Hashf.Ok e) (name : String) (hn : name ∉ counters) :
    ((table e).lookup name = none → cases.lookup name = none) ∧ ∀ g, (table e).lookup name = some g → ∃ f, cases.lookup name = some f ∧ Good e f g := by
  have h1 : (name == "nullhash") = false := by
    rw [beq_eq_false_iff_ne]; rintro rfl; exact hn (List.mem_cons_self ..)
  have h2 : (name == "nullhashF64ns") = false := by
    rw [beq_eq_false_iff_ne]; rintro rfl; exact hn (List.mem_cons_of_mem _ (List.mem_cons_self ..))
  have ec : cases = ("perfecthash", perfecthash) :: ("nullhash", nullhash) :: ("nullhashF64ns", nullhashF64ns) :: cases.drop 3 := rfl
  have et : table e = ("perfecthash", fun k _ => if k.length < 4 then none else some (BitVec.ofNat 64 (leNat (k.take 4)))) :: (table e).drop 1 := rfl
  have el : cases.lookup name = (("perfecthash", perfecthash) :: cases.drop 3).lookup name := by
    rw [ec, List.lookup_cons, List.lookup_cons, List.lookup_cons, List.lookup_cons]
    simp only [h1, h2]
    rfl
  rw [el, et]
  exact (Rel.cons (good_perfecthash e) (rel_rest e he)).lookup name

/-- The globals after the calls `hist`. -/
structure At (s : State) (hist : List (String × List U8 × U64)) : Prop where
  inv : Inv s
  nh : s.nh.ctr = BitVec.ofNat 64 (hist.filter fun c => c.1 = "nullhash").length
  nhf64 : s.nhf64.ctr = BitVec.ofNat 64 (hist.filter fun c => c.1 = "nullhashF64ns").length

theorem count_same (hist : List (String × List U8 × U64)) (x name : String) (k : List U8) (seed : U64) (h : name ≠ x) :
    ((hist ++ [(name, k, seed)]).filter fun c => c.1 = x).length = (hist.filter fun c => c.1 = x).length := by
  simp [List.filter_append, h]

theorem count_next (hist : List (String × List U8 × U64)) (x : String) (k : List U8) (seed : U64) :
    ((hist ++ [(x, k, seed)]).filter fun c => c.1 = x).length = (hist.filter fun c => c.1 = x).length + 1 := by
  simp [List.filter_append]

theorem step_ok (e : Ext) (he : Spec.Hashf.Ok e) (s : State) (hist : List (String × List U8 × U64)) (name : String) (k : List U8) (seed : U64) (ha : At s hist) :
    (∀ h, outcome e hist name k seed = .ok h → ∃ s', Hashf e { s with Hf2 := name } k seed = .ok (s', h) ∧ At s' (hist ++ [(name, k, seed)])) ∧
    (∀ f, outcome e hist name k seed = .error f → Hashf e { s with Hf2 := name } k seed = .error f ∧ At s (hist ++ [(name, k, seed)])) := by
  have hi : Inv { s with Hf2 := name } := ⟨ha.inv.1, ha.inv.2, ha.inv.3, ha.inv.4, ha.inv.5, ha.inv.6, ha.inv.7⟩
  by_cases h1 : name = "nullhash"
  · subst h1
    have ho : outcome e hist "nullhash" k seed = .ok (BitVec.ofNat 64 ((hist.filter fun c => c.1 = "nullhash").length + 1)) := by
      unfold outcome; rw [if_pos (by decide)]
    rw [ho]
    refine ⟨fun h e1 => ?_, fun f e1 => nomatch e1⟩
    cases e1
    refine ⟨{ s with Hf2 := "nullhash", nh := ⟨s.nh.ctr + 1#64⟩ }, ?_, ?_, ?_, ?_⟩
    · show Except.ok _ = Except.ok _
      simp only [Model.NullHash.call, retValue, ha.nh, BitVec.ofNat_add]
    · exact ⟨hi.1, hi.2, hi.3, hi.4, hi.5, hi.6, hi.7⟩
    · rw [count_next, BitVec.ofNat_add, ← ha.nh]
    · rw [count_same _ _ _ _ _ (by decide)]; exact ha.nhf64
  by_cases h2 : name = "nullhashF64ns"
  · subst h2
    have ho : outcome e hist "nullhashF64ns" k seed = .ok (BitVec.ofNat 64 ((hist.filter fun c => c.1 = "nullhashF64ns").length + 1)) := by
      unfold outcome; rw [if_pos (by decide)]
    rw [ho]
    refine ⟨fun h e1 => ?_, fun f e1 => nomatch e1⟩
    cases e1
    refine ⟨{ s with Hf2 := "nullhashF64ns", nhf64 := ⟨s.nhf64.ctr + 1#64⟩ }, ?_, ?_, ?_, ?_⟩
    · show Except.ok _ = Except.ok _
      simp only [Model.NullHash.call, retValue, ha.nhf64, BitVec.ofNat_add]
    · exact ⟨hi.1, hi.2, hi.3, hi.4, hi.5, hi.6, hi.7⟩
    · rw [count_same _ _ _ _ _ (by decide)]; exact ha.nh
    · rw [count_next, BitVec.ofNat_add, ← ha.nhf64]
  have hn : name ∉ counters := by
    unfold counters
    rw [List.mem_cons, List.mem_cons]
    rintro (rfl | rfl | h)
    · exact h1 rfl
    · exact h2 rfl
    · exact nomatch h
  obtain ⟨g1, g2⟩ := cases_lookup e he name hn
  have hat : ∀ s' : State, Inv s' → s'.nh = s.nh → s'.nhf64 = s.nhf64 → At s' (hist ++ [(name, k, seed)]) := by
    intro s' i a b
    refine ⟨i, ?_, ?_⟩
    · rw [count_same _ _ _ _ _ h1, a]; exact ha.nh
    · rw [count_same _ _ _ _ _ h2, b]; exact ha.nhf64
  cases ht : (table e).lookup name with
  | none =>
    have ho : outcome e hist name k seed = .error (.explicit "hashf") := by
      unfold outcome; rw [if_neg hn, ht]
    have hh : Hashf e { s with Hf2 := name } k seed = .error (.explicit "hashf") := by
      unfold Hashf; rw [g1 ht]; rfl
    rw [ho, hh]
    refine ⟨fun h e1 => (nomatch e1), fun f e1 => ?_⟩
    cases e1
    exact ⟨rfl, hat s ha.inv rfl rfl⟩
  | some g =>
    obtain ⟨f, ef, gf⟩ := g2 g ht
    have hh : Hashf e { s with Hf2 := name } k seed = f e { s with Hf2 := name } k seed := by
      unfold Hashf; rw [ef]
    rw [hh]
    obtain ⟨q1, q2⟩ := gf { s with Hf2 := name } k seed hi
    cases hg : g k seed with
    | some v =>
      have ho : outcome e hist name k seed = .ok v := by
        unfold outcome; rw [if_neg hn, ht]; simp only [hg]
      rw [ho]
      refine ⟨fun h e1 => ?_, fun f e1 => (nomatch e1)⟩
      cases e1
      obtain ⟨s', e2, i2, n2, m2⟩ := q1 v hg
      exact ⟨s', e2, hat s' i2 n2 m2⟩
    | none =>
      have ho : outcome e hist name k seed = .error .index := by
        unfold outcome; rw [if_neg hn, ht]; simp only [hg]
      rw [ho]
      refine ⟨fun h e1 => (nomatch e1), fun f e1 => ?_⟩
      cases e1
      exact ⟨q2 hg, hat s ha.inv rfl rfl⟩

theorem init_at : At init [] := ⟨init_inv, rfl, rfl⟩

theorem session_get (e : Ext) (he : Spec.Hashf.Ok e) (calls : List (String × List U8 × U64)) :
    ∀ (s : State) (hist : List (String × List U8 × U64)) (i : Nat) (c : String × List U8 × U64), At s hist → calls[i]? = some c →
      (session e s calls)[i]? = some (outcome e (hist ++ calls.take i) c.1 c.2.1 c.2.2) := by
  induction calls with
  | nil => intro s hist i c _ h; simp at h
  | cons c0 rest ih =>
    intro s hist i c ha hc
    obtain ⟨name, k, seed⟩ := c0
    obtain ⟨q1, q2⟩ := step_ok e he s hist name k seed ha
    cases ho : outcome e hist name k seed with
    | ok h =>
      obtain ⟨s', e1, a1⟩ := q1 h ho
      unfold session
      rw [e1]
      cases i with
      | zero =>
        simp only [List.getElem?_cons_zero, Option.some.injEq] at hc
        subst hc
        simp only [List.getElem?_cons_zero, List.take_zero, List.append_nil, ho]
      | succ i =>
        simp only [List.getElem?_cons_succ] at hc ⊢
        rw [ih s' _ i c a1 hc, List.take_succ_cons]
        simp
    | error f =>
      obtain ⟨e1, a1⟩ := q2 f ho
      unfold session
      rw [e1]
      cases i with
      | zero =>
        simp only [List.getElem?_cons_zero, Option.some.injEq] at hc
        subst hc
        simp only [List.getElem?_cons_zero, List.take_zero, List.append_nil, ho]
      | succ i =>
        simp only [List.getElem?_cons_succ] at hc ⊢
        rw [ih s _ i c a1 hc, List.take_succ_cons]
        simp

end Verif.Lemmas.Hashf
