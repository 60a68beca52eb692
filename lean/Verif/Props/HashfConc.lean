import Verif.Lemmas.HashfConc
import Verif.Props.Hashf

/-!
# C107: `Hashf` called by several goroutines

`run e sched (s, threads)` lets the goroutines named in `sched` execute one statement each. `start name (k, seed)` is a goroutine about to call
`Hashf(k, seed)` with `Hf2 = name`; a goroutine with no statements left has returned its `h`.
-/

namespace Verif.Props
open Verif Verif.Model.Hashf Verif.Model.HashfConc Verif.Lemmas.HashfConc Verif.Spec.HashfConc
open Verif.Spec.Hashf (Ok resultAfter outcome counters names)

/-- C107. The statements executed without interruption are a call of `Hashf`. -/
theorem C107_alone (e : Ext) (name : String) (s : Shared) (k : List U8) (seed : U64) (hn : s.g.Hf2 = name) :
    match Hashf e s.g k seed with
    | .ok (g, h) => ∃ s', run e (List.replicate (body name).length 0) (s, [start name (k, seed)]) = .ok (s', [⟨k, seed, [], h⟩]) ∧ s'.g = g
    | .error f => run e (List.replicate (body name).length 0) (s, [start name (k, seed)]) = .error f := by
  have hb := seq_body e name s k seed hn
  have hr := run_seq e 0 (body name) s [start name (k, seed)] (start name (k, seed)) [] rfl (by simp [start])
  rw [hr]
  have hr' : (start name (k, seed)).k = k ∧ (start name (k, seed)).seed = seed ∧ (start name (k, seed)).h = 0#64 := ⟨rfl, rfl, rfl⟩
  rw [hr'.1, hr'.2.1, hr'.2.2, ← hb]
  cases seq e k seed (body name) s 0#64 with
  | error f => rfl
  | ok x => exact ⟨x.1, rfl, rfl⟩

namespace HashfConc

/-- The case leaves the package variables alone. -/
def PureCase (f : Case) : Prop := ∀ e s k seed, f e s k seed = (f e init k seed).map fun x => (s, x.2)

theorem pure_of {f : Case} {r : Ext → List U8 → U64 → Go U64} (h : ∀ e s k seed, f e s k seed = (r e k seed).map fun h => (s, h)) : PureCase f := by
  intro e s k seed
  rw [h e s, h e init]
  cases r e k seed <;> rfl

theorem pure1 {α : Type} (x : Go α) (g : α → U64) (s : State) : (do return (s, g (← x)) : Go (State × U64)) = (x.map g).map fun h => (s, h) := by
  cases x <;> rfl

theorem safe_pure : ∀ name ∈ safe, ∃ f, cases.lookup name = some f ∧ body name = [whole f] ∧ PureCase f := by
  have idx4 : PureCase perfecthash := by
    intro e s k seed
    unfold perfecthash
    cases Go.idx k 3 with
    | error _ => rfl
    | ok _ => cases Go.idx k 2 with
      | error _ => rfl
      | ok _ => cases Go.idx k 1 with
        | error _ => rfl
        | ok _ => cases Go.idx k 0 <;> rfl
  have idx4' : PureCase aeshash32I := by
    intro e s k seed
    unfold aeshash32I
    cases Go.idx k 0 with
    | error _ => rfl
    | ok _ => cases Go.idx k 1 with
      | error _ => rfl
      | ok _ => cases Go.idx k 2 with
        | error _ => rfl
        | ok _ => cases Go.idx k 3 <;> rfl
  simp only [safe, List.forall_mem_cons]
  refine ⟨⟨_, rfl, rfl, idx4⟩, ⟨_, rfl, rfl, pure_of fun e s k seed => pure1 _ id s⟩, ⟨_, rfl, rfl, pure_of fun e s k seed => pure1 _ u64 s⟩,
    ⟨_, rfl, rfl, fun _ _ _ _ => rfl⟩, ⟨_, rfl, rfl, idx4'⟩, ⟨_, rfl, rfl, pure_of fun e s k seed => pure1 _ (fun x => e.aesHash64 x seed) s⟩,
    ⟨_, rfl, rfl, pure_of fun e s k seed => pure1 _ u64 s⟩, ⟨_, rfl, rfl, pure_of fun e s k seed => pure1 _ u64 s⟩,
    ⟨_, rfl, rfl, pure_of fun e s k seed => pure1 _ id s⟩, ⟨_, rfl, rfl, pure_of fun e s k seed => pure1 _ u64 s⟩,
    ⟨_, rfl, rfl, pure_of fun e s k seed => pure1 _ id s⟩, ⟨_, rfl, rfl, pure_of fun e s k seed => pure1 _ (· &&& 0xFFFFFFFF#64) s⟩,
    ⟨_, rfl, rfl, fun e s k seed => ?_⟩, ⟨_, rfl, rfl, fun e s k seed => ?_⟩,
    ⟨_, rfl, rfl, pure_of fun e s k seed => pure1 _ u64 s⟩, ⟨_, rfl, rfl, pure_of fun e s k seed => pure1 _ id s⟩,
    ⟨_, rfl, rfl, fun e s k seed => ?_⟩, ⟨_, rfl, rfl, fun e s k seed => ?_⟩,
    ⟨_, rfl, rfl, pure_of fun e s k seed => pure1 _ id s⟩, ⟨_, rfl, rfl, pure_of fun e s k seed => pure1 _ (fun x => u64 (x &&& 0xFFFFFFFF#32)) s⟩,
    ⟨_, rfl, rfl, pure_of fun e s k seed => pure1 _ id s⟩,
    ⟨_, rfl, rfl, fun e s k seed => ?_⟩, ⟨_, rfl, rfl, fun e s k seed => ?_⟩,
    ⟨_, rfl, rfl, pure_of fun e s k seed => pure1 _ id s⟩, ⟨_, rfl, rfl, pure_of fun e s k seed => pure1 _ id s⟩,
    ⟨_, rfl, rfl, fun e s k seed => ?_⟩, ⟨_, rfl, rfl, fun e s k seed => ?_⟩, ⟨_, rfl, rfl, fun e s k seed => ?_⟩, ⟨_, rfl, rfl, fun e s k seed => ?_⟩, fun _ h => nomatch h⟩
  · unfold j264h; cases Model.Jenkins.Hash264 k seed <;> rfl
  · unfold j264xor; cases Model.Jenkins.Hash264 k seed <;> rfl
  · unfold spooky128h; cases Model.Spooky.Hash128 k seed <;> rfl
  · unfold spooky128l; cases Model.Spooky.Hash128 k seed <;> rfl
  · unfold farmHash128high; cases Model.Farm.Fingerprint128 k <;> rfl
  · unfold farmHash128low; cases Model.Farm.Fingerprint128 k <;> rfl
  · unfold metroHash128_1h; cases Model.Metro.Hash128_1 k (u32 seed) <;> rfl
  · unfold metroHash128_1l; cases Model.Metro.Hash128_1 k (u32 seed) <;> rfl
  · unfold metroHash128_2h; cases Model.Metro.Hash128_2 k (u32 seed) <;> rfl
  · unfold metroHash128_2l; cases Model.Metro.Hash128_2 k (u32 seed) <;> rfl

theorem outcome_hist (e : Ext) {name : String} (hn : name ∉ counters) (h1 h2 : List (String × List U8 × U64)) (k : List U8) (seed : U64) :
    outcome e h1 name k seed = outcome e h2 name k seed := by
  unfold outcome; rw [if_neg hn, if_neg hn]

/-- The one statement of a safe call. -/
theorem safe_stmt (e : Ext) (he : Ok e) {name : String} (hn : name ∈ safe) : ∃ f : Stmt, body name = [f] ∧
    ∀ s k seed h, f e s k seed h = (outcome e [] name k seed).map fun v => (s, v) := by
  obtain ⟨f, h1, h2, h3⟩ := safe_pure name hn
  refine ⟨whole f, h2, ?_⟩
  intro s k seed h
  unfold whole
  rw [h3 e s.g]
  have hh : Hashf e { init with Hf2 := name } k seed = f e { init with Hf2 := name } k seed := by unfold Hashf; rw [h1]
  obtain ⟨q1, q2⟩ := Lemmas.Hashf.step_ok e he init [] name k seed Lemmas.Hashf.init_at
  rw [hh, h3 e] at q1 q2
  cases ho : outcome e [] name k seed with
  | ok v =>
    obtain ⟨s', e1, _⟩ := q1 v ho
    cases hi : f e init k seed with
    | error err => rw [hi] at e1; exact nomatch e1
    | ok x =>
      rw [hi] at e1
      have : x.2 = v := congrArg Prod.snd (Except.ok.inj e1)
      show Except.ok (s, x.2) = Except.ok (s, v)
      rw [this]
  | error err =>
    obtain ⟨e1, _⟩ := q2 err ho
    cases hi : f e init k seed with
    | error err' =>
      rw [hi] at e1
      have : err' = err := Except.error.inj e1
      rw [this]; rfl
    | ok x => rw [hi] at e1; exact nomatch e1

/-- Goroutine `t` is making the call `c`: not begun, or done with the right result. -/
def Fine (e : Ext) (name : String) (c : List U8 × U64) (t : Thread) : Prop :=
  t = start name c ∨ t.left = [] ∧ outcome e [] name c.1 c.2 = .ok t.h

theorem run_safe (e : Ext) (he : Ok e) {name : String} (hn : name ∈ safe) (calls : List (List U8 × U64)) (s : Shared) (sched : List Nat)
    (hs : ∀ i ∈ sched, ∀ c, calls[i]? = some c → ∃ v, outcome e [] name c.1 c.2 = .ok v) : ∀ ts : List Thread, ts.length = calls.length →
    (∀ (i : Nat) c t, calls[i]? = some c → ts[i]? = some t → Fine e name c t) →
    ∃ ts' : List Thread, run e sched (s, ts) = .ok (s, ts') ∧ ts'.length = calls.length ∧ (∀ (i : Nat) c t, calls[i]? = some c → ts'[i]? = some t → Fine e name c t) ∧
      ∀ (i : Nat) t', ts'[i]? = some t' → (i ∈ sched ∨ ∃ t, ts[i]? = some t ∧ t.left = []) → t'.left = [] := by
  obtain ⟨f, hb, hf⟩ := safe_stmt e he hn
  induction sched with
  | nil =>
    intro ts hl hg
    refine ⟨ts, rfl, hl, hg, ?_⟩
    rintro i t' ht (h | ⟨t, h1, h2⟩)
    · exact nomatch h
    · rw [h1] at ht; rw [← Option.some.inj ht]; exact h2
  | cons j sched ih =>
    intro ts hl hg
    have hs' : ∀ i ∈ sched, ∀ c, calls[i]? = some c → ∃ v, outcome e [] name c.1 c.2 = .ok v := fun i hi => hs i (List.mem_cons_of_mem _ hi)
    rw [run]
    cases hj : ts[j]? with
    | none =>
      have e1 : step e j (s, ts) = .ok (s, ts) := by unfold step; simp only [hj]
      rw [e1, Go.bind_ok]
      obtain ⟨ts', h1, h2, h3, h4⟩ := ih hs' ts hl hg
      refine ⟨ts', h1, h2, h3, fun i t' ht hi => h4 i t' ht ?_⟩
      rcases hi with hi | hi
      · rcases List.mem_cons.1 hi with rfl | hi
        · exfalso
          have := (List.getElem?_eq_some_iff.1 ht).1
          rw [List.getElem?_eq_none_iff] at hj
          omega
        · exact Or.inl hi
      · exact Or.inr hi
    | some t =>
      have hjl : j < ts.length := (List.getElem?_eq_some_iff.1 hj).1
      have hc : calls[j]? = some calls[j] := List.getElem?_eq_getElem (by omega)
      rcases hg j _ t hc hj with rfl | ⟨d1, d2⟩
      · obtain ⟨v, hv⟩ := hs j (List.mem_cons_self ..) _ hc
        have e1 : step e j (s, ts) = .ok (s, ts.set j ⟨calls[j].1, calls[j].2, [], v⟩) := by
          unfold step
          simp only [hj, start, hb, hf, hv]
          rfl
        rw [e1, Go.bind_ok]
        obtain ⟨ts', h1, h2, h3, h4⟩ := ih hs' (ts.set j ⟨calls[j].1, calls[j].2, [], v⟩) (by rw [List.length_set]; exact hl) (by
          intro i c t hc' ht'
          by_cases hij : j = i
          · subst hij
            rw [List.getElem?_set_self hjl] at ht'
            rw [hc] at hc'
            cases hc'; cases ht'
            exact Or.inr ⟨rfl, hv⟩
          · rw [List.getElem?_set_ne hij] at ht'
            exact hg i c t hc' ht')
        refine ⟨ts', h1, h2, h3, fun i t' ht hi => h4 i t' ht ?_⟩
        by_cases hij : j = i
        · subst hij
          exact Or.inr ⟨_, List.getElem?_set_self hjl, rfl⟩
        · rcases hi with hi | ⟨t, q1, q2⟩
          · rcases List.mem_cons.1 hi with rfl | hi
            · exact absurd rfl hij
            · exact Or.inl hi
          · exact Or.inr ⟨t, by rw [List.getElem?_set_ne hij]; exact q1, q2⟩
      · have e1 : step e j (s, ts) = .ok (s, ts) := by unfold step; simp only [hj, d1]
        rw [e1, Go.bind_ok]
        obtain ⟨ts', h1, h2, h3, h4⟩ := ih hs' ts hl hg
        refine ⟨ts', h1, h2, h3, fun i t' ht hi => h4 i t' ht ?_⟩
        rcases hi with hi | hi
        · rcases List.mem_cons.1 hi with rfl | hi
          · exact Or.inr ⟨t, hj, d1⟩
          · exact Or.inl hi
        · exact Or.inr hi

end HashfConc
open HashfConc

/-- C107. Every name is in exactly one class. -/
theorem C107_classes : (safe ++ stolen ++ ["siphash64pg"]).Perm names ∧ ∀ name ∈ buffered, name ∈ stolen := by
  decide +kernel

/-- C107. Under the safe names any number of goroutines may call `Hashf` at once: under every schedule, from any state of the package variables, no goroutine
panics whose key is not too short, every goroutine that has run has returned the value its call has alone, and the variables are unchanged. -/
theorem C107_safe (e : Ext) (he : Ok e) (name : String) (hn : name ∈ safe) (s : Shared) (calls : List (List U8 × U64)) (sched : List Nat)
    (hk : ∀ i ∈ sched, ∀ c, calls[i]? = some c → ¬ tooShort name c.1) :
    ∃ ts, run e sched (s, calls.map (start name)) = .ok (s, ts) ∧ ts.length = calls.length ∧
      ∀ i ∈ sched, ∀ c, calls[i]? = some c → ∃ t, ts[i]? = some t ∧ t.left = [] ∧ ∀ hist, resultAfter e hist name c.1 c.2 = .ok t.h := by
  have hnn : name ∈ names := C107_classes.1.subset (List.mem_append_left _ (List.mem_append_left _ hn))
  have hnc : name ∉ counters := by
    have : ∀ x ∈ safe, x ∉ counters := by decide +kernel
    exact this name hn
  obtain ⟨ts, h1, h2, h3, h4⟩ := run_safe e he hn calls s sched (fun i hi c hc => by
    obtain ⟨v, hv⟩ := (C78_short_key e he [] name c.1 c.2 hnn).2 (hk i hi c hc)
    exact ⟨v, by rw [← C81_history e he]; exact hv⟩) (calls.map (start name)) (List.length_map ..) (by
    intro i c t hc ht
    rw [List.getElem?_map, hc] at ht
    exact Or.inl (Option.some.inj ht).symm)
  refine ⟨ts, h1, h2, fun i hi c hc => ?_⟩
  have hil : i < calls.length := (List.getElem?_eq_some_iff.1 hc).1
  refine ⟨ts[i], List.getElem?_eq_getElem (by omega), h4 i _ (List.getElem?_eq_getElem (by omega)) (Or.inl hi), fun hist => ?_⟩
  have hd := h4 i _ (List.getElem?_eq_getElem (by omega : i < ts.length)) (Or.inl hi)
  rcases h3 i c _ hc (List.getElem?_eq_getElem (by omega : i < ts.length)) with h | h
  · obtain ⟨f, hb, _⟩ := safe_stmt e he hn
    rw [h] at hd
    unfold start at hd
    rw [hb] at hd
    exact nomatch hd
  · rw [C81_history e he, outcome_hist e hnc hist []]; exact h.2

namespace HashfConc

theorem stolen_ret : ∀ name ∈ stolen, ∃ p F, body name = p ++ [ret F] := by
  simp only [stolen, List.forall_mem_cons]
  refine ⟨⟨[_, _, _], _, rfl⟩, ⟨[_], _, rfl⟩, ⟨[_, _], _, rfl⟩, ⟨[_], _, rfl⟩, ⟨[_], _, rfl⟩, ⟨[_], _, rfl⟩, ⟨[_], _, rfl⟩, ⟨[_, _], _, rfl⟩,
    ⟨[_, _], _, rfl⟩, ⟨[_], _, rfl⟩, ⟨[_], _, rfl⟩, ⟨[_], _, rfl⟩, ⟨[_, _, _, _], _, rfl⟩, ⟨[_, _, _, _], _, rfl⟩, ⟨[_, _, _, _], _, rfl⟩, ⟨[_, _, _, _], _, rfl⟩,
    ⟨[_, _, _, _], _, rfl⟩, ⟨[_, _, _, _], _, rfl⟩, ⟨[_, _, _, _], _, rfl⟩, ⟨[_, _, _, _], _, rfl⟩, fun _ h => nomatch h⟩

theorem stolen_long (name : String) (h : name ∈ stolen) (k : List U8) : ¬ tooShort name k := by
  have h' : ∀ x ∈ stolen, x ≠ "perfecthash" ∧ x ≠ "aeshash32I" ∧ x ≠ "aeshash64I" ∧ x ≠ "gomap32" ∧ x ≠ "gomap64" := by decide +kernel
  obtain ⟨a, b, c, d, f⟩ := h' name h
  unfold tooShort
  rintro (⟨h, _⟩ | ⟨h, _⟩ | ⟨h, _⟩ | ⟨h, _⟩ | ⟨h, _⟩) <;> contradiction

/-- A case called with any value of `Hf2`. -/
theorem case_ok (e : Ext) (he : Ok e) (s : State) (hist : List (String × List U8 × U64)) (name : String) (k : List U8) (seed : U64) (v : U64)
    (ha : Lemmas.Hashf.At s hist) (hv : outcome e hist name k seed = .ok v) :
    ∃ f s', cases.lookup name = some f ∧ f e s k seed = .ok (s', v) ∧ Lemmas.Hashf.At s' (hist ++ [(name, k, seed)]) := by
  obtain ⟨g', e1, a1⟩ := (Lemmas.Hashf.step_ok e he s hist name k seed ha).1 v hv
  by_cases h1 : name = "nullhash"
  · subst h1
    refine ⟨Model.Hashf.nullhash, { s with nh := ⟨s.nh.ctr + 1#64⟩ }, rfl, ?_, ?_, ?_, ?_⟩
    · have e2 : outcome e hist "nullhash" k seed = .ok (BitVec.ofNat 64 ((hist.filter fun c => c.1 = "nullhash").length + 1)) := by
        unfold outcome; rw [if_pos (by decide)]
      rw [e2] at hv
      rw [← Except.ok.inj hv]
      show Except.ok _ = Except.ok _
      simp only [Model.NullHash.call, retValue, ha.nh, BitVec.ofNat_add]
    · exact ⟨ha.inv.1, ha.inv.2, ha.inv.3, ha.inv.4, ha.inv.5, ha.inv.6, ha.inv.7⟩
    · rw [Lemmas.Hashf.count_next, BitVec.ofNat_add, ← ha.nh]
    · rw [Lemmas.Hashf.count_same _ _ _ _ _ (by decide)]; exact ha.nhf64
  by_cases h2 : name = "nullhashF64ns"
  · subst h2
    refine ⟨Model.Hashf.nullhashF64ns, { s with nhf64 := ⟨s.nhf64.ctr + 1#64⟩ }, rfl, ?_, ?_, ?_, ?_⟩
    · have e2 : outcome e hist "nullhashF64ns" k seed = .ok (BitVec.ofNat 64 ((hist.filter fun c => c.1 = "nullhashF64ns").length + 1)) := by
        unfold outcome; rw [if_pos (by decide)]
      rw [e2] at hv
      rw [← Except.ok.inj hv]
      show Except.ok _ = Except.ok _
      simp only [Model.NullHash.call, retValue, ha.nhf64, BitVec.ofNat_add]
    · exact ⟨ha.inv.1, ha.inv.2, ha.inv.3, ha.inv.4, ha.inv.5, ha.inv.6, ha.inv.7⟩
    · rw [Lemmas.Hashf.count_same _ _ _ _ _ (by decide)]; exact ha.nh
    · rw [Lemmas.Hashf.count_next, BitVec.ofNat_add, ← ha.nhf64]
  have hn : name ∉ counters := by simp [counters, h1, h2]
  obtain ⟨g1, g2⟩ := Lemmas.Hashf.cases_lookup e he name hn
  unfold outcome at hv
  rw [if_neg hn] at hv
  cases ht : (Spec.Hashf.table e).lookup name with
  | none => rw [ht] at hv; exact nomatch hv
  | some g =>
    rw [ht] at hv
    obtain ⟨f, ef, gf⟩ := g2 g ht
    cases hg : g k seed with
    | none => simp only [hg] at hv; exact nomatch hv
    | some w =>
      simp only [hg] at hv
      obtain ⟨s', e2, i2, n2, m2⟩ := (gf s k seed ha.inv).1 w hg
      refine ⟨f, s', ef, ?_, i2, ?_, ?_⟩
      · rw [e2, Except.ok.inj hv]
      · rw [Lemmas.Hashf.count_same _ _ _ _ _ h1, n2]; exact ha.nh
      · rw [Lemmas.Hashf.count_same _ _ _ _ _ h2, m2]; exact ha.nhf64

theorem body_of {e : Ext} {name : String} {f : Case} (h : cases.lookup name = some f) (s : Shared) (k : List U8) (seed : U64) :
    (seq e k seed (body name) s 0#64).map (fun x => (x.1.g, x.2)) = f e s.g k seed := by
  rcases (rel2 e).lookup name with ⟨h1, h2⟩ | ⟨ss, f', h1, h2, h3⟩
  · rw [h1] at h; exact nomatch h
  · rw [h2] at h
    cases h
    unfold body
    rw [h1]
    exact h3 s k seed

/-- One call, run on its own up to the last statement, and then to its end. -/
theorem split_run (e : Ext) (he : Ok e) {name : String} {p : List Stmt} {F : Ext → Shared → Go U64} (hb : body name = p ++ [ret F])
    (s : Shared) (hist : List (String × List U8 × U64)) (ha : Lemmas.Hashf.At s.g hist) (k : List U8) (seed : U64) (v : U64)
    (hv : outcome e hist name k seed = .ok v) :
    ∃ s' h, seq e k seed p s 0#64 = .ok (s', h) ∧ F e s' = .ok v ∧ Lemmas.Hashf.At s'.g (hist ++ [(name, k, seed)]) := by
  obtain ⟨f, g', e0, e1, a1⟩ := case_ok e he s.g hist name k seed v ha hv
  rw [← body_of e0, hb, seq_append] at e1
  cases hq : seq e k seed p s 0#64 with
  | error err => rw [hq] at e1; exact nomatch e1
  | ok x =>
    obtain ⟨s', h⟩ := x
    rw [hq] at e1
    simp only [Go.bind_ok, seq, ret] at e1
    cases hF : F e s' with
    | error err => rw [hF] at e1; exact nomatch e1
    | ok w =>
      rw [hF] at e1
      have e2 := Except.ok.inj e1
      have h2 : s'.g = g' := congrArg Prod.fst e2
      have h3 : w = v := congrArg Prod.snd e2
      exact ⟨s', h, rfl, by rw [hF, h3], by rw [h2]; exact a1⟩

/-- Goroutine `i` runs `p` without interruption and with success. -/
theorem run_seq_ok {e : Ext} {i : Nat} {p q : List Stmt} {s s' : Shared} {ts : List Thread} {t : Thread} {h' : U64} (ht : ts[i]? = some t) (hq : t.left = p ++ q)
    (hs : seq e t.k t.seed p s t.h = .ok (s', h')) : run e (List.replicate p.length i) (s, ts) = .ok (s', ts.set i ⟨t.k, t.seed, q, h'⟩) := by
  rw [run_seq e i p s ts t q ht hq, hs]; rfl

theorem run_trans {e : Ext} {a b : List Nat} {x y z : Shared × List Thread} (h1 : run e a x = .ok y) (h2 : run e b y = .ok z) : run e (a ++ b) x = .ok z := by
  rw [run_append, h1]; exact h2

theorem run_fail {e : Ext} {a b : List Nat} {x y : Shared × List Thread} {f : Fault} (h1 : run e a x = .ok y) (h2 : run e b y = .error f) : run e (a ++ b) x = .error f := by
  rw [run_append, h1]; exact h2

theorem seq_ret {e : Ext} {F : Ext → Shared → Go U64} {s : Shared} {v : U64} (h : F e s = .ok v) (k : List U8) (seed h0 : U64) :
    seq e k seed [ret F] s h0 = .ok (s, v) := by
  simp only [seq, ret, h]; rfl

end HashfConc

/-- C107. Under the other names (but one) a second goroutine can make the first return the second one's result: after any history of calls, for any two calls
there is a schedule under which both return what the second would return after the first. -/
theorem C107_stolen (e : Ext) (he : Ok e) (name : String) (hn : name ∈ stolen) (hist : List (String × List U8 × U64)) (s : Shared) (hs : s.g = after e init hist)
    (k1 k2 : List U8) (seed1 seed2 : U64) : ∃ sched s' v, run e sched (s, [start name (k1, seed1), start name (k2, seed2)]) = .ok (s', [⟨k1, seed1, [], v⟩, ⟨k2, seed2, [], v⟩]) ∧
      resultAfter e (hist ++ [(name, k1, seed1)]) name k2 seed2 = .ok v := by
  have hnn : name ∈ names := C107_classes.1.subset (List.mem_append_left _ (List.mem_append_right _ hn))
  obtain ⟨p, F, hb⟩ := stolen_ret name hn
  have ha : Lemmas.Hashf.At s.g hist := by
    rw [hs]; exact after_at e he hist init [] Lemmas.Hashf.init_at
  obtain ⟨v1, hv1⟩ := (C78_short_key e he hist name k1 seed1 hnn).2 (stolen_long name hn k1)
  obtain ⟨v2, hv2⟩ := (C78_short_key e he (hist ++ [(name, k1, seed1)]) name k2 seed2 hnn).2 (stolen_long name hn k2)
  rw [C81_history e he] at hv1
  obtain ⟨s1, h1, r1, f1, a1⟩ := split_run e he hb s hist ha k1 seed1 v1 hv1
  obtain ⟨s2, h2, r2, f2, a2⟩ := split_run e he hb s1 _ a1 k2 seed2 v2 (by rw [← C81_history e he]; exact hv2)
  refine ⟨((List.replicate p.length 0 ++ List.replicate p.length 1) ++ List.replicate [ret F].length 1) ++ List.replicate [ret F].length 0, s2, v2, ?_, hv2⟩
  refine run_trans (run_trans (run_trans
    (run_seq_ok (t := start name (k1, seed1)) (q := [ret F]) rfl hb r1)
    (run_seq_ok (t := start name (k2, seed2)) (q := [ret F]) rfl hb r2))
    (run_seq_ok (t := ⟨k2, seed2, [ret F], h2⟩) (q := []) rfl rfl (seq_ret f2 _ _ _)))
    (run_seq_ok (t := ⟨k1, seed1, [ret F], h1⟩) (q := []) rfl rfl (seq_ret f2 _ _ _))

/-- C107. Under `siphash64pg` the first goroutine can be made to hash its key with the other one's seed. -/
theorem C107_siphash64pg (e : Ext) (he : Ok e) (hist : List (String × List U8 × U64)) (s : Shared) (hs : s.g = after e init hist)
    (k1 k2 : List U8) (seed1 seed2 : U64) : ∃ sched s' v1 v2, run e sched (s, [start "siphash64pg" (k1, seed1), start "siphash64pg" (k2, seed2)]) =
        .ok (s', [⟨k1, seed1, [], v1⟩, ⟨k2, seed2, [], v2⟩]) ∧
      resultAfter e hist "siphash64pg" k1 seed2 = .ok v1 ∧ resultAfter e hist "siphash64pg" k2 seed2 = .ok v2 := by
  have ha : Lemmas.Hashf.At s.g hist := by
    rw [hs]; exact after_at e he hist init [] Lemmas.Hashf.init_at
  have hsip : ∀ (g : State) (k : List U8) (seed : U64), Model.SipHash.Siphash k { g with seeds := leBytes 8 seed.toNat ++ leBytes 8 seed.toNat }.seeds 2 4 false =
      .ok (Spec.SipHash.hash64 2 4 seed seed k, 0#64) := by
    intro g k seed
    have hl : (leBytes 8 seed.toNat).length = 8 := leBytes_length _ _
    have e1 : le64 (leBytes 8 seed.toNat ++ leBytes 8 seed.toNat) = seed := by
      unfold le64
      rw [List.take_left' hl, leNat_leBytes]
      apply BitVec.eq_of_toNat_eq
      have := seed.isLt
      rw [BitVec.toNat_ofNat]; omega
    have e2 : le64 ((leBytes 8 seed.toNat ++ leBytes 8 seed.toNat).drop 8) = seed := by
      rw [List.drop_left' hl]
      unfold le64
      rw [List.take_of_length_le (by omega), leNat_leBytes]
      apply BitVec.eq_of_toNat_eq
      have := seed.isLt
      rw [BitVec.toNat_ofNat]; omega
    rw [Props.C17_general_rounds k _ 2 4 false (by rw [List.length_append, hl]) (by decide) (by decide), e1, e2]
    rfl
  have hval : ∀ k : List U8, resultAfter e hist "siphash64pg" k seed2 = .ok (Spec.SipHash.hash64 2 4 seed2 seed2 k) := fun k => value e he hist k seed2 26 rfl rfl
  have f1 := Lemmas.Hashf.sipSeedSet_ok s.g ha.inv.seeds seed1
  have f2 := Lemmas.Hashf.sipSeedSet_ok { s.g with seeds := leBytes 8 seed1.toNat ++ leBytes 8 seed1.toNat } (by simp [leBytes_length]) seed2
  refine ⟨[0, 1, 1, 0], { s with g := { s.g with seeds := leBytes 8 seed2.toNat ++ leBytes 8 seed2.toNat } }, _, _, ?_, hval k1, hval k2⟩
  have g0 : body "siphash64pg" = Model.HashfConc.siphash64pg := rfl
  simp only [run, step, start, g0, Model.HashfConc.siphash64pg, upd, List.getElem?_cons_zero, List.getElem?_cons_succ, f1, f2, Go.bind_ok, Go.pure_ok,
    List.set_cons_zero, List.set_cons_succ, hsip s.g k1 seed2, hsip s.g k2 seed2]

namespace HashfConc

theorem buffered_cut : ∀ name ∈ buffered, ∃ (fp : Shared → List U8) (p q r : List Stmt), body name = p ++ [ret fun _ s => be8 (fp s)] ∧ body name = q ++ r ∧
    ∀ e k seed s h, ∃ s', seq e k seed q s h = .ok (s', h) ∧ fp s' = [] := by
  have cut : ∀ (set : State → List U8 → State) (fp : State → List U8), (∀ s x, fp (set s x) = x) → ∀ e k seed s h,
      ∃ s', seq e k seed [upd (fun _ s _ _ => do return { s with g := set s.g (← Go.slice (fp s.g) 0 0) })] s h = .ok (s', h) ∧ fp s'.g = [] := by
    intro set fp hf e k seed s h
    exact ⟨{ s with g := set s.g [] }, by simp only [seq, upd, Lemmas.Hashf.slice00, Go.bind_ok, Go.pure_ok], hf _ _⟩
  simp only [buffered, List.forall_mem_cons]
  refine ⟨⟨(·.g.fp28), [_, _, _, _], [_], [_, _, _, _], rfl, rfl, cut (fun s x => { s with fp28 := x }) _ fun _ _ => rfl⟩,
    ⟨(·.g.fp8), [_, _, _, _], [_], [_, _, _, _], rfl, rfl, cut (fun s x => { s with fp8 := x }) _ fun _ _ => rfl⟩,
    ⟨(·.g.fp8), [_, _, _, _], [_], [_, _, _, _], rfl, rfl, cut (fun s x => { s with fp8 := x }) _ fun _ _ => rfl⟩,
    ⟨(·.g.fp8), [_, _, _, _], [_], [_, _, _, _], rfl, rfl, cut (fun s x => { s with fp8 := x }) _ fun _ _ => rfl⟩,
    ⟨(·.g.fp32), [_, _, _, _], [_], [_, _, _, _], rfl, rfl, cut (fun s x => { s with fp32 := x }) _ fun _ _ => rfl⟩,
    ⟨(·.g.fp64), [_, _, _, _], [_], [_, _, _, _], rfl, rfl, cut (fun s x => { s with fp64 := x }) _ fun _ _ => rfl⟩,
    ⟨(·.g.fp32), [_, _, _, _], [_], [_, _, _, _], rfl, rfl, cut (fun s x => { s with fp32 := x }) _ fun _ _ => rfl⟩,
    ⟨(·.g.fp20), [_, _, _, _], [_, _, _], [_, _], rfl, rfl, ?_⟩, fun _ h => nomatch h⟩
  intro e k seed s h
  exact ⟨{ s with sha1160 := [] ++ k, g := { s.g with fp20 := [] } }, by simp only [seq, upd, Lemmas.Hashf.slice00, Go.bind_ok, Go.pure_ok], rfl⟩

end HashfConc

/-- C107. Under the names with a shared digest buffer the program can crash: after any history of calls, for any two calls there is a schedule under which
the first one reads a buffer that the second has just emptied. -/
theorem C107_panic (e : Ext) (he : Ok e) (name : String) (hn : name ∈ buffered) (hist : List (String × List U8 × U64)) (s : Shared) (hs : s.g = after e init hist)
    (k1 k2 : List U8) (seed1 seed2 : U64) : ∃ sched, run e sched (s, [start name (k1, seed1), start name (k2, seed2)]) = .error .index := by
  have hst := C107_classes.2 name hn
  have hnn : name ∈ names := C107_classes.1.subset (List.mem_append_left _ (List.mem_append_right _ hst))
  obtain ⟨fp, p, q, r, hb, hb', hcut⟩ := buffered_cut name hn
  have ha : Lemmas.Hashf.At s.g hist := by
    rw [hs]; exact after_at e he hist init [] Lemmas.Hashf.init_at
  obtain ⟨v1, hv1⟩ := (C78_short_key e he hist name k1 seed1 hnn).2 (stolen_long name hst k1)
  rw [C81_history e he] at hv1
  obtain ⟨s1, h1, r1, f1, a1⟩ := split_run e he hb s hist ha k1 seed1 v1 hv1
  obtain ⟨s2, r2, f2⟩ := hcut e k2 seed2 s1 0#64
  refine ⟨(List.replicate p.length 0 ++ List.replicate q.length 1) ++ [0], run_fail (run_trans
    (run_seq_ok (t := start name (k1, seed1)) (q := [ret fun _ s => be8 (fp s)]) rfl hb r1)
    (run_seq_ok (t := start name (k2, seed2)) (q := r) rfl hb' r2)) ?_⟩
  have hz : be8 (fp s2) = .error .index := by rw [f2, Lemmas.Hashf.be8_eq]; rfl
  simp only [run, step, ret, List.getElem?_cons_zero, List.set_cons_zero, List.set_cons_succ, start, hz]
  rfl

namespace HashfConc

theorem serial_run (e : Ext) (he : Ok e) (name : String) (calls : List (List U8 × U64)) (order : List Nat) : ∀ (hist : List (String × List U8 × U64)) (s : Shared)
    (ts : List Thread), Lemmas.Hashf.At s.g hist → order.Nodup → ts.length = calls.length →
    (∀ i ∈ order, ∃ c, calls[i]? = some c ∧ ts[i]? = some (start name c) ∧ name ∈ names ∧ ¬ tooShort name c.1) →
    ∃ (s' : Shared) (ts' : List Thread), run e (order.flatMap fun i => List.replicate (body name).length i) (s, ts) = .ok (s', ts') ∧ ts'.length = calls.length ∧
      (∀ (j : Nat), j ∉ order → ts'[j]? = ts[j]?) ∧
      ∀ (m : Nat) i c, order[m]? = some i → calls[i]? = some c → ∃ v, ts'[i]? = some ⟨c.1, c.2, [], v⟩ ∧
        resultAfter e (hist ++ (order.take m).map fun j => (name, (calls.getD j ([], 0#64)))) name c.1 c.2 = .ok v := by
  induction order with
  | nil =>
    intro hist s ts ha hd hl ht
    exact ⟨s, ts, rfl, hl, fun _ _ => rfl, fun m i c h _ => by simp at h⟩
  | cons i order ih =>
    intro hist s ts ha hd hl ht
    obtain ⟨c, hc, hti, hnn, hk⟩ := ht i (List.mem_cons_self ..)
    rw [List.nodup_cons] at hd
    obtain ⟨v, hv⟩ := (C78_short_key e he hist name c.1 c.2 hnn).2 hk
    have hv' := hv
    rw [C81_history e he] at hv'
    obtain ⟨f, g', e0, e1, a1⟩ := case_ok e he s.g hist name c.1 c.2 v ha hv'
    rw [← body_of e0] at e1
    have hil : i < ts.length := (List.getElem?_eq_some_iff.1 hti).1
    cases hq : seq e c.1 c.2 (body name) s 0#64 with
    | error err => rw [hq] at e1; exact nomatch e1
    | ok x =>
      obtain ⟨s1, h1⟩ := x
      rw [hq] at e1
      have e2 := Except.ok.inj e1
      have h2 : s1.g = g' := congrArg Prod.fst e2
      have h3 : h1 = v := congrArg Prod.snd e2
      subst h3
      have hr := run_seq_ok (t := start name c) (p := body name) (q := []) hti (by simp [start]) hq
      obtain ⟨s', ts', q1, q2, q3, q4⟩ := ih (hist ++ [(name, c.1, c.2)]) s1 (ts.set i ⟨c.1, c.2, [], h1⟩) (by rw [h2]; exact a1) hd.2 (by rw [List.length_set]; exact hl) (by
        intro j hj
        obtain ⟨cj, w1, w2, w3⟩ := ht j (List.mem_cons_of_mem _ hj)
        have hne : i ≠ j := fun h => hd.1 (h ▸ hj)
        exact ⟨cj, w1, by rw [List.getElem?_set_ne hne]; exact w2, w3⟩)
      refine ⟨s', ts', ?_, q2, ?_, ?_⟩
      · rw [List.flatMap_cons]
        exact run_trans hr q1
      · intro j hj
        rw [List.mem_cons, not_or] at hj
        rw [q3 j hj.2, List.getElem?_set_ne (fun h => hj.1 h.symm)]
      · intro m i' c' hm hc'
        cases m with
        | zero =>
          rw [List.getElem?_cons_zero] at hm
          cases hm
          rw [hc] at hc'
          cases hc'
          refine ⟨h1, ?_, ?_⟩
          · rw [q3 i hd.1, List.getElem?_set_self hil]
          · rw [List.take_zero, List.map_nil, List.append_nil]; exact hv
        | succ m =>
          rw [List.getElem?_cons_succ] at hm
          obtain ⟨w, w1, w2⟩ := q4 m i' c' hm hc'
          refine ⟨w, w1, ?_⟩
          have e3 : calls.getD i ([], 0#64) = c := by rw [List.getD_eq_getElem?_getD, hc]; rfl
          rw [List.take_succ_cons, List.map_cons, e3]
          rw [List.append_assoc] at w2
          exact w2

end HashfConc

/-- C107. If the calls exclude each other (every schedule a mutex around `Hashf` allows), they behave under every name as the same calls made one after the
other in the order `order`: the `m`-th returns what `Hashf` returns after the calls before it. -/
theorem C107_serial (e : Ext) (he : Ok e) (name : String) (hn : name ∈ names) (hist : List (String × List U8 × U64)) (s : Shared) (hs : s.g = after e init hist)
    (calls : List (List U8 × U64)) (hk : ∀ c ∈ calls, ¬ tooShort name c.1) (order : List Nat) (hd : order.Nodup) (ho : ∀ i ∈ order, i < calls.length) :
    ∃ (s' : Shared) (ts' : List Thread), run e (order.flatMap fun i => List.replicate (body name).length i) (s, calls.map (start name)) = .ok (s', ts') ∧
      ∀ (m : Nat) i c, order[m]? = some i → calls[i]? = some c → ∃ v, ts'[i]? = some ⟨c.1, c.2, [], v⟩ ∧
        resultAfter e (hist ++ (order.take m).map fun j => (name, (calls.getD j ([], 0#64)))) name c.1 c.2 = .ok v := by
  have ha : Lemmas.Hashf.At s.g hist := by
    rw [hs]; exact after_at e he hist init [] Lemmas.Hashf.init_at
  obtain ⟨s', ts', h1, _, _, h4⟩ := serial_run e he name calls order hist s (calls.map (start name)) ha hd (List.length_map ..) (by
    intro i hi
    have hil := ho i hi
    refine ⟨calls[i], List.getElem?_eq_getElem hil, ?_, hn, hk _ (List.getElem_mem hil)⟩
    rw [List.getElem?_map, List.getElem?_eq_getElem hil]; rfl)
  exact ⟨s', ts', h1, h4⟩

/-- The hypotheses are met: `nullhash`, three goroutines in the order 2, 0, 1; the first goroutine gets the second number. -/
example : ∃ (s' : Shared) (ts' : List Thread), run exampleExt ([2, 0, 1].flatMap fun i => List.replicate (body "nullhash").length i)
      (⟨init, [], [], [], [], []⟩, [([], 0#64), ([1#8], 0#64), ([2#8], 0#64)].map (start "nullhash")) = .ok (s', ts') ∧ ts'[0]? = some ⟨[], 0#64, [], 2#64⟩ := by
  obtain ⟨s', ts', h1, h2⟩ := C107_serial exampleExt exampleExt_ok "nullhash" (by decide +kernel) [] ⟨init, [], [], [], [], []⟩ rfl [([], 0#64), ([1#8], 0#64), ([2#8], 0#64)]
    (by intro c _; unfold tooShort; simp) [2, 0, 1] (by decide) (by decide)
  obtain ⟨v, h3, h4⟩ := h2 1 0 _ rfl rfl
  refine ⟨s', ts', h1, ?_⟩
  rw [C81_history exampleExt exampleExt_ok] at h4
  have : outcome exampleExt ([] ++ [("nullhash", [2#8], 0#64)]) "nullhash" [] 0#64 = .ok 2#64 := by decide +kernel
  rw [h3, ← Except.ok.inj (this.symm.trans h4)]

/-- C107. What a user would expect, that a call returns the same under every schedule, is false: two calls with different keys under `j332c`. -/
theorem C107_violated : ¬ ∀ (e : Ext), Ok e → ∀ name ∈ names, ∀ (s : Shared) (calls : List (List U8 × U64)) (sched : List Nat) (s' : Shared) (ts : List Thread), s.g = init →
    run e sched (s, calls.map (start name)) = .ok (s', ts) → ∀ (i : Nat) c t, calls[i]? = some c → ts[i]? = some t → t.left = [] → name ∉ counters →
      resultAfter e [] name c.1 c.2 = .ok t.h := by
  intro h
  obtain ⟨sched, s', v, hr, hv⟩ := C107_stolen exampleExt exampleExt_ok "j332c" (by decide) [] ⟨init, [], [], [], [], []⟩ rfl [] [1#8] 0#64 0#64
  have h1 := h exampleExt exampleExt_ok "j332c" (by decide +kernel) ⟨init, [], [], [], [], []⟩ [([], 0#64), ([1#8], 0#64)] sched s' _ rfl hr 0 _ _ rfl rfl rfl (by decide)
  have h2 := value exampleExt exampleExt_ok [] [] 0#64 11 rfl rfl
  have h3 := value exampleExt exampleExt_ok ([] ++ [("j332c", [], 0#64)]) [1#8] 0#64 11 rfl rfl
  have h4 := Except.ok.inj (h2.symm.trans h1)
  have h5 := Except.ok.inj (h3.symm.trans hv)
  rw [← h5] at h4
  revert h4
  decide +kernel

/-- The hypotheses are met: three goroutines under a safe name, of which the scheduler lets the third and the first run. -/
example : ∃ ts, run exampleExt [2, 0] (⟨init, [], [], [], [], []⟩, [([1#8], 5#64), ([2#8], 6#64), ([3#8, 4#8], 7#64)].map (start "sbox")) =
      .ok (⟨init, [], [], [], [], []⟩, ts) ∧ ts.length = 3 ∧ (∃ t, ts[2]? = some t ∧ resultAfter exampleExt [] "sbox" [3#8, 4#8] 7#64 = .ok t.h) := by
  obtain ⟨ts, h1, h2, h3⟩ := C107_safe exampleExt exampleExt_ok "sbox" (by decide) ⟨init, [], [], [], [], []⟩ [([1#8], 5#64), ([2#8], 6#64), ([3#8, 4#8], 7#64)] [2, 0]
    (fun i _ c _ => by unfold tooShort; simp)
  obtain ⟨t, h4, h5, h6⟩ := h3 2 (by decide) _ rfl
  exact ⟨ts, h1, h2, t, h4, h6 []⟩

/-- And a state after some calls. -/
example : ∃ sched, run exampleExt sched (⟨after exampleExt init [("sha1", [1#8], 0#64), ("nullhash", [], 0#64)], [], [], [], [], []⟩,
    [start "sha1" ([1#8], 0#64), start "sha1" ([2#8], 0#64)]) = .error .index :=
  C107_panic exampleExt exampleExt_ok "sha1" (by decide) [("sha1", [1#8], 0#64), ("nullhash", [], 0#64)] _ rfl _ _ _ _

end Verif.Props
