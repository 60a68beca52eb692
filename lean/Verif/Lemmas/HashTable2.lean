import Verif.Lemmas.HashTable

namespace Verif.HashTable
open Verif Verif.Spec.HashTable

variable {ω κ : Type}

/-- Induction over insert histories of at most `B` keys. -/
theorem insertAll_ind {e : Env ω κ} (B : Nat) (P : List κ → ω → HT κ → Prop)
    (step : ∀ done w ht k, P done w ht → done.length < B → e.traceOK k = true →
      ∃ w' ht', insert e w ht k = .ok (w', ht') ∧ P (done ++ [k]) w' ht') :
    ∀ (ks done : List κ) (w : ω) (ht : HT κ), P done w ht → (done ++ ks).length ≤ B →
      (∀ k ∈ ks, e.traceOK k = true) →
      ∃ w' ht', insertAll e w ht ks = .ok (w', ht') ∧ P (done ++ ks) w' ht' := by
  intro ks
  induction ks with
  | nil => intro done w ht h _ _; exact ⟨w, ht, rfl, by simpa using h⟩
  | cons k ks ih =>
    intro done w ht h hB hk
    obtain ⟨w1, ht1, he, h1⟩ := step done w ht k h (by simp at hB; omega) (hk k (by simp))
    obtain ⟨w2, ht2, he2, h2⟩ := ih (done ++ [k]) w1 ht1 h1 (by simp at hB ⊢; omega)
      (fun k' hk' => hk k' (by simp [hk']))
    refine ⟨w2, ht2, ?_, by simpa using h2⟩
    rw [insertAll, he]
    exact he2

/-! ### list facts -/

theorem longest_set {bs : List (List κ)} {i : Nat} {b : List κ} (hi : i < bs.length)
    (hb : bs[i].length ≤ b.length) : longest (bs.set i b) = max (longest bs) b.length := by
  induction bs generalizing i with
  | nil => simp at hi
  | cons c cs ih =>
    cases i with
    | zero =>
      simp only [List.set_cons_zero, longest, List.foldr_cons, List.getElem_cons_zero] at hb ⊢
      omega
    | succ i =>
      simp only [List.set_cons_succ, longest, List.foldr_cons, List.getElem_cons_succ] at hb ⊢
      have := ih (i := i) (by simpa using hi) hb
      simp only [longest] at this
      omega

theorem le_longest {bs : List (List κ)} {i : Nat} (hlt : i < bs.length) :
    bs[i].length ≤ longest bs := by
  induction bs generalizing i with
  | nil => simp at hlt
  | cons c cs ih =>
    cases i with
    | zero => simp [longest]; omega
    | succ i =>
      have := ih (i := i) (by simpa using hlt)
      simp only [longest, List.foldr_cons, List.getElem_cons_succ] at this ⊢
      omega

theorem longest_replicate (n : Nat) : longest (List.replicate n ([] : List κ)) = 0 := by
  induction n with
  | zero => rfl
  | succ n ih => simpa [List.replicate_succ, longest] using ih

theorem occupied_set {bs : List (List κ)} {i : Nat} {b : List κ} (hi : i < bs.length) (hb : b ≠ []) :
    occupied (bs.set i b) = occupied bs + (if bs[i] = [] then 1 else 0) := by
  induction bs generalizing i with
  | nil => simp at hi
  | cons c cs ih =>
    cases i with
    | zero =>
      simp only [List.set_cons_zero, occupied, List.countP_cons, List.getElem_cons_zero]
      cases b with
      | nil => exact absurd rfl hb
      | cons x xs => cases c <;> simp
    | succ i =>
      simp only [List.set_cons_succ, occupied, List.countP_cons, List.getElem_cons_succ]
      have := ih (i := i) (by simpa using hi)
      simp only [occupied] at this
      omega

theorem occupied_replicate (n : Nat) : occupied (List.replicate n ([] : List κ)) = 0 := by
  simp [occupied, List.countP_replicate]

theorem eqPairs_snoc [DecidableEq α] (l : List α) (x : α) :
    eqPairs (l ++ [x]) = eqPairs l + l.countP (fun y => y = x) := by
  induction l with
  | nil => simp [eqPairs]
  | cons a as ih =>
    simp only [List.cons_append, eqPairs, ih, List.countP_append, List.countP_cons, List.countP_nil]
    by_cases h : a = x
    · simp [h]; omega
    · have : ¬ x = a := fun e => h e.symm
      simp [h, this]; omega

theorem scanDups_pure (H : κ → U64 → U64) (tr : κ → Bool) (seed h : U64) (ks : List κ) (n : Nat) :
    scanDups (pureEnv H tr) seed h ks () n = (n + ks.countP (fun k => H k seed = h), ()) := by
  induction ks generalizing n with
  | nil => simp [scanDups]
  | cons k ks ih =>
    simp only [scanDups, pureEnv, List.countP_cons]
    simp only [pureEnv] at ih
    rw [ih]
    by_cases h' : H k seed = h <;> simp [h'] <;> omega

/-! ### Chaining invariants -/

/-- Statistics, for any (even stateful) hash function. -/
structure ChainStats (done : List κ) (ht : HT κ) : Prop where
  wf : WF ht
  oa : ht.oa = false
  inserts : ht.inserts = done.length
  probes : ht.probes = done.length
  cols : ht.cols = 0
  heads : ht.heads = occupied ht.buckets
  nb : ht.nbuckets + ht.heads = done.length
  long : ht.longestChain = if longest ht.buckets ≤ 1 then 0 else longest ht.buckets

theorem chainStats_step {e : Env ω κ} {w : ω} {ht : HT κ} {k : κ} {done : List κ}
    (h : ChainStats done ht) : ChainStats (done ++ [k]) (chainNext e w ht k).2 := by
  have hlt := h.wf.home_lt (e.hash w k ht.seed).1
  have hc := chainNext_const (e := e) (w := w) (ht := ht) (k := k)
  have h1 := h.inserts
  have h2 := h.probes
  have h3 := h.cols
  have h4 := h.heads
  have h5 := h.nb
  have hl := h.long
  have hwf := chainNext_wf (e := e) (w := w) (k := k) h.wf
  have hoa : (chainNext e w ht k).2.oa = false := by rw [hc.1, h.oa]
  clear hc
  generalize hx : ht.home (e.hash w k ht.seed).1 = i at hlt
  by_cases hb : ht.buckets[i] = []
  · have e1 : (chainNext e w ht k).2 =
        { ht with inserts := ht.inserts + 1, buckets := ht.buckets.set i [k],
                  probes := ht.probes + 1, heads := ht.heads + 1 } := by
      unfold chainNext; dsimp only
      rw [hx, List.getElem?_eq_getElem hlt, Option.getD_some]
      simp [hb]
    rw [e1] at hwf hoa ⊢
    refine ⟨hwf, hoa, ?_, ?_, ?_, ?_, ?_, ?_⟩ <;> dsimp only <;>
      try first | omega | (simp only [List.length_append, List.length_singleton]; omega)
    · rw [occupied_set hlt (by simp)]; simp [hb]; omega
    · rw [longest_set hlt (by simp [hb]), hl]; simp only [List.length_singleton]
      split <;> split <;> omega
  · have hb' : (ht.buckets[i]).isEmpty = false := by
      cases hx : ht.buckets[i] with
      | nil => exact absurd hx hb
      | cons a b => rfl
    obtain ⟨d, e1⟩ : ∃ d, (chainNext e w ht k).2 =
      { ht with inserts := ht.inserts + 1,
                buckets := ht.buckets.set i (ht.buckets[i] ++ [k]), dups := d,
                longestChain := max ht.longestChain (ht.buckets[i].length + 1),
                nbuckets := ht.nbuckets + 1, probes := ht.probes + 1 } := by
      unfold chainNext; dsimp only
      rw [hx, List.getElem?_eq_getElem hlt, Option.getD_some]
      simp [hb']
    rw [e1] at hwf hoa ⊢
    refine ⟨hwf, hoa, ?_, ?_, ?_, ?_, ?_, ?_⟩ <;> dsimp only <;>
      try first | omega | (simp only [List.length_append, List.length_singleton]; omega)
    · rw [occupied_set hlt (by simp)]; simp [hb]; omega
    · rw [longest_set hlt (by simp), hl]
      have hpos : 0 < (ht.buckets[i]).length := List.length_pos_iff.2 hb
      have : (ht.buckets[i]).length ≤ longest ht.buckets := le_longest hlt
      simp only [List.length_append, List.length_singleton]
      split <;> split <;> omega

/-- Contents, for a deterministic hash function. -/
structure ChainData (H : κ → U64 → U64) (prime : Bool) (size seed : U64) (done : List κ) (ht : HT κ) :
    Prop where
  wf : WF ht
  oa : ht.oa = false
  hprime : ht.prime = prime
  hsize : ht.size = size
  hseed : ht.seed = seed
  data : ∀ i, i < size.toNat →
    ht.buckets[i]? = some (done.filter (fun k => homeOf prime size.toNat (H k seed) = i))
  dups : ht.dups = eqPairs (done.map (fun k => H k seed))

theorem chainData_step {H : κ → U64 → U64} {tr : κ → Bool} {prime : Bool} {size seed : U64}
    {done : List κ} {ht : HT κ} {k : κ} (h : ChainData H prime size seed done ht) :
    ChainData H prime size seed (done ++ [k]) (chainNext (pureEnv H tr) () ht k).2 := by
  have hc := chainNext_const (e := pureEnv H tr) (w := ()) (ht := ht) (k := k)
  have hlt := h.wf.home_lt ((pureEnv H tr).hash () k ht.seed).1
  have hhome : ht.home ((pureEnv H tr).hash () k ht.seed).1 = homeOf prime size.toNat (H k seed) := by
    simp [HT.home, pureEnv, h.hprime, h.hsize, h.hseed]
  have hlt' : homeOf prime size.toNat (H k seed) < size.toNat :=
    homeOf_lt _ (by rw [← h.hsize]; exact h.wf.pos) _
  have hbk := h.data _ hlt'
  refine ⟨chainNext_wf h.wf, by rw [hc.1, h.oa], by rw [hc.2.1, h.hprime], by rw [hc.2.2.1, h.hsize],
    by rw [hc.2.2.2, h.hseed], ?_, ?_⟩
  · intro i hi
    have hset : (chainNext (pureEnv H tr) () ht k).2.buckets =
        ht.buckets.set (homeOf prime size.toNat (H k seed))
          ((done.filter (fun k' => homeOf prime size.toNat (H k' seed) =
              homeOf prime size.toNat (H k seed))) ++ [k]) := by
      unfold chainNext
      dsimp only
      rw [hhome, hbk, Option.getD_some]
      split
      · rename_i he
        rw [List.isEmpty_iff.1 he]; rfl
      · rfl
    rw [hset]
    by_cases hii : homeOf prime size.toNat (H k seed) = i
    · subst hii
      rw [List.getElem?_set_self (by rw [h.wf.len, h.hsize]; exact hi)]
      simp [List.filter_append]
    · rw [List.getElem?_set_ne hii, h.data i hi]
      simp [List.filter_append, hii]
  · have hd : (chainNext (pureEnv H tr) () ht k).2.dups =
        ht.dups + (done.filter (fun k' => homeOf prime size.toNat (H k' seed) =
          homeOf prime size.toNat (H k seed))).countP (fun k' => H k' seed = H k seed) := by
      unfold chainNext
      dsimp only
      rw [hhome, hbk, Option.getD_some]
      split
      · rename_i he
        rw [List.isEmpty_iff.1 he]; rfl
      · show (scanDups (pureEnv H tr) ht.seed (H k ht.seed) _ () ht.dups).1 = _
        rw [scanDups_pure, h.hseed]
    rw [hd, List.map_append, List.map_singleton, eqPairs_snoc, h.dups, List.countP_map,
      List.countP_filter]
    congr 1
    apply List.countP_congr
    intro a _
    simp only [Bool.and_eq_true, decide_eq_true_eq, Function.comp_apply]
    constructor
    · exact fun h => h.1
    · intro h; exact ⟨h, by rw [h]⟩

end Verif.HashTable
