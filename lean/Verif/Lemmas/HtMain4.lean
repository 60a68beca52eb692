import Verif.Lemmas.HtMain3

/-! Lemmas for C99, C100: the loops over tests, hash functions and files. -/

namespace Verif.Lemmas.HtMain
open Verif Verif.Spec.HtMain Verif.Spec.HashTable Verif.Spec.Ht Verif.Model.HtMain Verif.Model.Ht Verif.Lemmas.Ht
open Verif.HashTable (HT)

/-! ## Order -/

section order
variable {σ : Type}

/-- The events are a prefix of these steps, and all of them if there is no panic. -/
def Along (steps : List Step) (t : Tr σ) : Prop := t.events.map stepOf <+: steps ∧ ∀ s, t.out = .ok s → t.events.map stepOf = steps

theorem along_nil {s : σ} : Along [] (⟨[], .ok s⟩ : Tr σ) := ⟨List.nil_prefix, fun _ _ => rfl⟩

theorem along_error {steps : List Step} {e : Fault} : Along steps (⟨[], .error e⟩ : Tr σ) := ⟨List.nil_prefix, fun _ h => (nomatch h)⟩

theorem along_bind {τ : Type} {a b : List Step} {x : Tr τ} {f : τ → Tr σ} (hx : Along a x) (hf : ∀ v, x.out = .ok v → Along b (f v)) : Along (a ++ b) (x.bind f) := by
  unfold Tr.bind
  cases h : x.out with
  | error e => exact ⟨hx.1.trans (List.prefix_append a b), fun _ h => (nomatch h)⟩
  | ok v =>
    have hv := hf v h
    have he := hx.2 v h
    refine ⟨?_, fun s hs => ?_⟩
    · rw [List.map_append, he]; exact (List.prefix_append_right_inj a).2 hv.1
    · rw [List.map_append, he, hv.2 s hs]

theorem along_forEach {α : Type} (steps : α → List Step) (body : α → σ → Tr σ) (hb : ∀ a s, Along (steps a) (body a s)) (l : List α) :
    ∀ s, Along (l.flatMap steps) (forEach body l s) := by
  induction l with
  | nil => intro s; exact along_nil
  | cons a l ih =>
    intro s
    rw [List.flatMap_cons]
    exact along_bind (hb a s) fun v _ => ih v

end order

section
variable {ω : Type} {sys : Sys ω} {fl : Flags}

theorem order_eq : order = Tests.map (·.2.1) := rfl

theorem selected_nil (name : String) : Model.Hashf.selected fl.c fl.h32 fl.h64 [name] = [] ↔ passes fl name = false := by
  unfold Model.Hashf.selected passes
  rw [List.filter_eq_nil_iff]
  simp only [List.mem_singleton, forall_eq]
  generalize Model.Hashf.entry name = en
  obtain ⟨a, size, cr⟩ := en
  cases fl.c <;> cases fl.h32 <;> cases fl.h64 <;> cases cr <;> by_cases h1 : size = 32 <;> by_cases h2 : size = 64 <;> simp [h1, h2]

theorem flatMap_ite_filter {α β : Type} (p : α → Bool) (f : α → List β) (l : List α) : (l.flatMap fun a => if p a then f a else []) = (l.filter p).flatMap f := by
  induction l with
  | nil => rfl
  | cons a l ih =>
    rw [List.flatMap_cons, ih]
    by_cases h : p a = true
    · rw [if_pos h, List.filter_cons_of_pos h, List.flatMap_cons]
    · rw [if_neg h, List.filter_cons_of_neg h]; rfl

theorem flatMap_single {α β : Type} (f : α → β) (l : List α) : (l.flatMap fun a => [f a]) = l.map f := by
  induction l with
  | nil => rfl
  | cons a l ih => rw [List.flatMap_cons, ih]; rfl

/-- The steps on one file. -/
def fileSteps (fl : Flags) (on : Flag → Bool) (hf : List String) (file : String) : List Step :=
  (if fl.t0 ∧ file ≠ "" then [.read file] else []) ++ (order.filter on).flatMap fun f => (hf.filter (passes fl)).map (.test file f)

theorem steps_eq (on : Flag → Bool) (hf : List String) (file : String) :
    (Tests.flatMap fun t => if on t.2.1 then (hf.flatMap fun name => if passes fl name then [Step.test file t.2.1 name] else []) else []) =
      (order.filter on).flatMap fun f => (hf.filter (passes fl)).map (.test file f) := by
  have h1 : ∀ f, (hf.flatMap fun name => if passes fl name then [Step.test file f name] else []) = (hf.filter (passes fl)).map (.test file f) := by
    intro f
    rw [flatMap_ite_filter, flatMap_single]
  simp only [h1]
  rw [order_eq, List.filter_map, List.flatMap_map, ← flatMap_ite_filter]
  rfl

theorem runOne_along (seed : Int) (file : String) (lines : Int) (t : String × Flag × Fn) (name : String) (st : St ω) :
    Along [.test file t.2.1 name] (runOne sys fl seed file lines t name st) := by
  unfold runOne
  split
  · exact along_error
  · exact ⟨List.prefix_rfl, fun _ _ => rfl⟩

theorem runTests_along (on : Flag → Bool) (seed : Int) (file : String) (lines : Int) (hf : List String) (st : St ω) :
    Along (fileSteps fl on hf file) (runTests sys fl on seed file lines hf st) := by
  unfold runTests fileSteps
  rw [← steps_eq]
  refine along_bind ?_ fun v _ => ?_
  · by_cases hfile : file = ""
    · subst hfile
      simp only [ne_eq, not_true_eq_false, and_false, if_false]
      exact along_nil
    · simp only [ne_eq, hfile, not_false_eq_true, and_true, if_true]
      by_cases ht0 : fl.t0 = true
      · simp only [ht0, if_true]
        split
        · exact along_error
        · split
          · exact along_error
          · exact ⟨List.prefix_rfl, fun _ _ => rfl⟩
      · simp only [ht0, Bool.false_eq_true, if_false]
        split
        · exact along_error
        · exact along_nil
  · refine along_forEach _ _ (fun t st => ?_) _ _
    split
    · refine along_forEach _ _ (fun name st => ?_) _ _
      by_cases hp : passes fl name = true
      · rw [if_pos hp, if_neg (by rw [selected_nil, hp]; decide)]
        exact runOne_along ..
      · rw [if_neg hp, if_pos ((selected_nil name).2 (by simpa using hp))]
        exact along_nil
    · exact along_nil

theorem eachSelected_map (ev : String → Model.HtMain.Event) (hf : fl.hf = "all") : eachSelected fl ev = (chosen fl).map ev := by
  unfold eachSelected chosen
  rw [if_pos hf]
  refine congrArg (List.map ev) (List.filter_congr fun name _ => ?_)
  have := selected_nil (fl := fl) name
  cases h : passes fl name <;> rw [h] at this <;> simpa using this

/-- The flags `main` runs with. -/
theorem on_eq : (let on := if fl.all then allTestsOn fl.on else fl.on
    if fl.file = "" ∧ fl.args = [] ∧ (TestPointers.filter on).length = 0 then (fun f => if f = Flag.I ∨ f = .J then true else allTestsOff on f) else on) = isOn fl := by
  have hon : (if fl.all then allTestsOn fl.on else fl.on) = fun g => fl.on g || (fl.all && decide (g ≠ .K)) := by
    funext g
    cases h : fl.all
    · simp
    · by_cases hg : g = .K <;> simp [allTestsOn, hg]
  dsimp only
  rw [hon]
  funext f
  unfold isOn
  dsimp only
  have hiff : (TestPointers.filter fun g => fl.on g || (fl.all && decide (g ≠ .K))).length = 0 ↔ ∀ g ∈ order, (fl.on g || (fl.all && decide (g ≠ .K))) = false := by
    rw [List.length_eq_zero_iff, List.filter_eq_nil_iff]
    simp only [Bool.not_eq_true]
    exact Iff.rfl
  by_cases hc : fl.file = "" ∧ fl.args = [] ∧ ∀ g ∈ order, (fl.on g || (fl.all && decide (g ≠ .K))) = false
  · rw [if_pos ⟨hc.1, hc.2.1, hiff.2 hc.2.2⟩, if_pos hc]
    have hK := hc.2.2 .K (by decide)
    by_cases hf : f = .I ∨ f = .J
    · simp [hf]
    · rw [if_neg hf]
      unfold allTestsOff
      by_cases hk : f = .K
      · rw [if_pos hk, hk]; exact hK
      · rw [if_neg hk]; simp [hf]
  · rw [if_neg (fun h => hc ⟨h.1, h.2.1, hiff.1 h.2.2⟩), if_neg hc]

theorem bind_pure {σ : Type} (x : Tr σ) : (x.bind fun s => ⟨[], .ok s⟩) = x := by
  obtain ⟨ev, out⟩ := x
  unfold Tr.bind
  cases out with
  | error e => rfl
  | ok s => simp

/-- The test part of the switch. -/
theorem mainSwitch_tests {on : Flag → Bool} {seed : Int} {st : St ω} (hsm : fl.sm = false) (hon : on = if fl.all then allTestsOn fl.on else fl.on) :
    mainSwitch sys fl on false seed st = forEach (fun v st => runTests sys fl (isOn fl) seed v fl.lines (hashes fl) st) (filesOf fl) st := by
  have single : ∀ v on', forEach (fun v st => runTests sys fl on' seed v fl.lines (hashes fl) st) [v] st = runTests sys fl on' seed v fl.lines (hashes fl) st := by
    intro v on'
    show Tr.bind _ _ = _
    exact bind_pure (runTests sys fl on' seed v fl.lines (hashes fl) st)
  unfold mainSwitch filesOf
  rw [← on_eq, ← hon, hsm]
  dsimp only
  rw [if_neg (by decide), if_neg (by decide)]
  by_cases h1 : fl.file = ""
  · have h1' : ¬ fl.file ≠ "" := fun h => h h1
    by_cases h2 : fl.args = []
    · have h2' : ¬ fl.args ≠ [] := fun h => h h2
      simp only [if_neg h1', if_neg h2', single]
      simp only [h1, h2, true_and]
    · simp only [if_neg h1', if_pos (show fl.args ≠ [] from h2), h2, false_and, and_false, if_false]
  · simp only [if_pos (show fl.file ≠ "" from h1), h1, false_and, if_false, single]

theorem mainSwitch_along {on : Flag → Bool} {b : Bool} {seed : Int} {st : St ω} (hon : on = if fl.all then allTestsOn fl.on else fl.on) (hb : b = if fl.hcb then true else fl.b) :
    Along (plan fl) (mainSwitch sys fl on b seed st) := by
  have full : ∀ {l : List Model.HtMain.Event} {steps : List Step}, l.map stepOf = steps → Along steps (⟨l, .ok st⟩ : Tr (St ω)) := by
    intro l steps h
    exact ⟨by rw [h], fun _ _ => h⟩
  have hb' : b = true ↔ (fl.b = true ∨ fl.hcb = true) := by rw [hb]; cases fl.hcb <;> simp
  unfold plan
  by_cases hsm : fl.sm = true
  · rw [if_pos hsm]
    unfold mainSwitch
    rw [if_pos hsm]
    by_cases hall : fl.hf = "all"
    · rw [if_pos hall, if_pos hall, eachSelected_map _ hall]
      exact full (by rw [List.map_map]; rfl)
    · rw [if_neg hall, if_neg hall]
      exact full rfl
  · rw [if_neg hsm]
    by_cases hbb : b = true
    · rw [if_pos (hb'.1 hbb)]
      unfold mainSwitch
      rw [if_neg hsm, if_pos hbb]
      by_cases hall : fl.hf = "all"
      · rw [if_pos hall, if_pos hall, eachSelected_map _ hall]
        exact full (by rw [List.map_map]; rfl)
      · rw [if_neg hall, if_neg hall]
        by_cases hh : fl.hcb = true
        · rw [if_pos hh, if_pos hh]; exact full rfl
        · rw [if_neg hh, if_neg hh]; exact full rfl
    · rw [if_neg (fun h => hbb (hb'.2 h)), Bool.eq_false_iff.2 hbb, mainSwitch_tests (by simpa using hsm) hon]
      exact along_forEach _ _ (fun v st => runTests_along ..) _ _

/-! ## The seed -/

theorem seedOf_eq {b : List U8} (hb : b.length = 8) : seedOf b = .ok (BitVec.ofNat 64 (beNat b)).toInt := by
  match b, hb with
  | [a, b, c, d, f, g, i, j], _ =>
    have e := or8_eq j i g f d c b a []
    show Except.ok _ = Except.ok _
    refine congrArg (fun x => Except.ok (BitVec.toInt x)) ?_
    have e2 : BitVec.ofNat 64 (beNat [a, b, c, d, f, g, i, j]) = le64 [j, i, g, f, d, c, b, a] := by
      simp only [beNat, le64, List.take_succ_cons, List.take_zero, List.reverse_cons, List.reverse_nil, List.nil_append, List.cons_append]
    rw [e2, ← e, BitVec.shiftLeft_zero]
    generalize a.setWidth 64 <<< 56 = A, b.setWidth 64 <<< 48 = B, c.setWidth 64 <<< 40 = C, d.setWidth 64 <<< 32 = D,
      f.setWidth 64 <<< 24 = F, g.setWidth 64 <<< 16 = G, i.setWidth 64 <<< 8 = I, j.setWidth 64 = J
    ac_rfl

theorem main_eq {w : ω} (hcr : ∀ b, sys.cr = some b → b.length = 8) :
    main sys fl w = match seedFor sys fl with
      | none => ⟨[], .ok ⟨w, fl.n, 0⟩⟩
      | some seed => mainSwitch sys fl (if fl.all then allTestsOn fl.on else fl.on) (if fl.hcb then true else fl.b) seed ⟨w, fl.n, 0⟩ := by
  unfold main seedFor
  dsimp only
  by_cases hr : fl.rr = true
  · rw [if_pos hr, if_pos hr]
    cases hc : sys.cr with
    | none => rfl
    | some b =>
      dsimp only [Option.map]
      rw [seedOf_eq (hcr b hc)]
  · rw [if_neg hr, if_neg hr]

/-! ## Runs that do not fail -/

section chain
variable {seed : Int} {content : String → List (List U8)}

/-- The last value of `n`. -/
def last (fl : Flags) (n : Int) (l : List Step) : Int := l.foldl (next fl) n

theorem follows_append (l1 l2 : List Step) : ∀ (n : Int) (e1 e2 : List Model.HtMain.Event), Follows sys fl seed content n l1 e1 →
    Follows sys fl seed content (last fl n l1) l2 e2 → Follows sys fl seed content n (l1 ++ l2) (e1 ++ e2) := by
  induction l1 with
  | nil => intro n e1 e2 h1 h2; cases h1; exact h2
  | cons s l ih =>
    intro n e1 e2 h1 h2
    obtain ⟨e, es, rfl, hm, hf⟩ := h1
    exact ⟨e, es ++ e2, rfl, hm, ih _ _ _ hf h2⟩

theorem allRunnable_append (l1 l2 : List Step) : ∀ (n : Int), AllRunnable sys fl seed content n (l1 ++ l2) ↔
    AllRunnable sys fl seed content n l1 ∧ AllRunnable sys fl seed content (last fl n l1) l2 := by
  induction l1 with
  | nil => intro n; exact ⟨fun h => ⟨trivial, h⟩, fun h => h.2⟩
  | cons s l ih => intro n; rw [List.cons_append]; show _ ∧ _ ↔ (_ ∧ _) ∧ _; rw [ih, and_assoc]; rfl

/-- The body, from any state, does these steps. -/
def Does (sys : Sys ω) (fl : Flags) (seed : Int) (content : String → List (List U8)) (steps : List Step) (body : St ω → Tr (St ω)) : Prop :=
  ∀ st, AllRunnable sys fl seed content st.n steps → ∃ es st', body st = ⟨es, .ok st'⟩ ∧ Follows sys fl seed content st.n steps es ∧ st'.n = last fl st.n steps

theorem does_nil : Does sys fl seed content [] (fun st => ⟨[], .ok st⟩) := fun st _ => ⟨[], st, rfl, rfl, rfl⟩

theorem does_bind {s1 s2 : List Step} {b1 b2 : St ω → Tr (St ω)} (h1 : Does sys fl seed content s1 b1) (h2 : Does sys fl seed content s2 b2) :
    Does sys fl seed content (s1 ++ s2) (fun st => (b1 st).bind b2) := by
  intro st hr
  rw [allRunnable_append] at hr
  obtain ⟨es, st', e1, f1, n1⟩ := h1 st hr.1
  obtain ⟨es', st'', e2, f2, n2⟩ := h2 st' (by rw [n1]; exact hr.2)
  refine ⟨es ++ es', st'', ?_, follows_append _ _ _ _ _ f1 (by rw [← n1]; exact f2), ?_⟩
  · dsimp only
    rw [e1]
    show (⟨es ++ (b2 st').events, (b2 st').out⟩ : Tr (St ω)) = _
    rw [e2]
  · rw [n2, n1]; unfold last; rw [List.foldl_append]

theorem does_forEach {α : Type} (steps : α → List Step) (body : α → St ω → Tr (St ω)) (l : List α) (hb : ∀ a ∈ l, Does sys fl seed content (steps a) (body a)) :
    Does sys fl seed content (l.flatMap steps) (forEach body l) := by
  induction l with
  | nil => exact does_nil
  | cons a l ih =>
    rw [List.flatMap_cons]
    exact does_bind (hb a (by simp)) (ih fun a ha => hb a (by simp [ha]))

theorem tests_label {t : String × Flag × Fn} (h : t ∈ Tests) : t.1 = label t.2.1 := by
  simp only [Tests, List.mem_cons, List.not_mem_nil, or_false] at h
  rcases h with h | h | h | h | h | h | h | h | h | h | h | h | h <;> rw [h] <;> rfl

theorem size_lo {file : String} {f : Flag} {n : Int} (hrf : readsFile f = true → file ≠ "") (hI : f = .I → -(2 : Int) ^ 43 ≤ n) (hM : f = .M → 0 < n ∧ n ≤ 2 ^ 45) :
    -(2 : Int) ^ 43 ≤ sizeFor (linesFor fl file (content file)) n f := by
  have hlo : -(2 : Int) ^ 43 ≤ sizeFor (linesFor fl file (content file)) n f ∨ readsFile f = true := by
    cases f <;> first | exact Or.inr rfl | (left; unfold sizeFor; first | exact hI rfl | exact le_trans (by decide) (Int.le_of_lt (hM rfl).1) | (dsimp only; decide))
  rcases hlo with h | h
  · exact h
  · have h1 := hrf h
    have h2 : 0 ≤ linesFor fl file (content file) := by
      unfold linesFor
      split
      · exact Int.natCast_nonneg _
      · next h3 => by_contra h4; exact h3 ⟨h1, by omega⟩
    have h3 : sizeFor (linesFor fl file (content file)) n f = linesFor fl file (content file) := by
      cases f <;> first | rfl | exact nomatch h
    rw [h3]; exact le_trans (by decide) h2

theorem runOne_does {file : String} {t : String × Flag × Fn} (ht : t ∈ Tests) (name : String) (hp : PrimeSizes sys fl) (he : 0 ≤ fl.extra) (he' : fl.extra ≤ 11)
    (hf : file ≠ "" → GoodFile sys file (content file)) :
    Does sys fl seed content [.test file t.2.1 name] (runOne sys fl seed file (linesFor fl file (content file)) t name) := by
  intro st hr
  obtain ⟨⟨hK, hrf, hI, hM, hh, htr, hroom⟩, _⟩ := hr
  have hnx : next fl st.n (.test file t.2.1 name) = if fl.dru = true ∧ (t.2.1 = .I ∨ t.2.1 = .M) then -st.n else st.n := rfl
  have hlo := size_lo (fl := fl) (content := content) hrf hI hM
  obtain ⟨r, st', h1, h3, h2⟩ := runFn_chain (sys := sys) (fl := fl) (name := name) (file := file) (ls := content file) (st := st) t ht hK hp he he' _ hnx hlo hM
    (fun h => hf (hrf h)) hh (fun k hk => by
      show (!fl.trace || decide (4 ≤ k.length)) = true
      cases h : fl.trace
      · rfl
      · simpa using htr h k hk) hroom
  refine ⟨[.run t.1 t.2.1 name file r], st', ?_, ⟨_, [], rfl, ⟨r, by rw [tests_label ht], h2⟩, rfl⟩, h3⟩
  unfold runOne
  rw [h1]

theorem runTests_does {file : String} (on : Flag → Bool) (hf : List String) (hp : PrimeSizes sys fl) (he : 0 ≤ fl.extra) (he' : fl.extra ≤ 11)
    (hfile : file ≠ "" → GoodFile sys file (content file)) :
    Does sys fl seed content (fileSteps fl on hf file) (runTests sys fl on seed file fl.lines hf) := by
  have htests : Does sys fl seed content (Tests.flatMap fun t => if on t.2.1 then (hf.flatMap fun name => if passes fl name then [Step.test file t.2.1 name] else []) else [])
      (fun st => forEach (fun t st =>
        if on t.2.1 then
          forEach (fun name st =>
            if Model.Hashf.selected fl.c fl.h32 fl.h64 [name] = [] then ⟨[], .ok st⟩
            else runOne sys fl seed file (linesFor fl file (content file)) t name st) hf st
        else ⟨[], .ok st⟩) Tests st) := by
    refine does_forEach _ _ _ fun t ht => ?_
    by_cases hon : on t.2.1 = true
    · simp only [hon, if_true]
      refine does_forEach _ _ _ fun name _ => ?_
      by_cases hpp : passes fl name = true
      · simp only [hpp, if_true]
        simp only [show ¬ Model.Hashf.selected fl.c fl.h32 fl.h64 [name] = [] by rw [selected_nil, hpp]; decide, if_false]
        exact runOne_does ht name hp he he' hfile
      · simp only [hpp, (selected_nil (fl := fl) name).2 (by simpa using hpp), if_true]
        exact does_nil
    · simp only [hon]
      exact does_nil
  unfold fileSteps
  rw [← steps_eq]
  intro st hr
  rw [allRunnable_append] at hr
  unfold runTests
  by_cases h1 : file = ""
  · rw [if_neg (show ¬ (fl.t0 = true ∧ file ≠ "") from fun h => h.2 h1)] at hr ⊢
    obtain ⟨es, st', e, f, hn⟩ := htests st hr.2
    refine ⟨es, st', ?_, f, hn⟩
    have hl : linesFor fl file (content file) = fl.lines := by unfold linesFor; rw [if_neg (by simp [h1])]
    rw [hl] at e
    dsimp only
    rw [if_neg (show ¬ file ≠ "" from fun h => h h1)]
    show (⟨[] ++ _, _⟩ : Tr (St ω)) = _
    rw [List.nil_append]; exact e
  · have hgood := hfile h1
    have hread := readGood hgood
    have hlines : (if fl.lines ≤ 0 then (ReadFile (sys.files file)).out.map Int.ofNat else .ok fl.lines) = .ok (linesFor fl file (content file)) := by
      unfold linesFor
      rw [hread]
      by_cases h : fl.lines ≤ 0
      · rw [if_pos h, if_pos ⟨h1, h⟩]; rfl
      · rw [if_neg h, if_neg (fun hh => h hh.2)]
    have h2 : 0 ≤ linesFor fl file (content file) := by
      unfold linesFor
      split
      · exact Int.natCast_nonneg _
      · next h3 => by_contra h4; exact h3 ⟨h1, by omega⟩
    dsimp only
    rw [if_pos h1, hlines]
    dsimp only
    by_cases ht0 : fl.t0 = true
    · rw [if_pos ht0] at *
      rw [if_pos ⟨ht0, h1⟩] at hr ⊢
      obtain ⟨ht, hnew, hlen⟩ := newTable_ok sys fl seed (linesFor fl file (content file)) hp he he' (le_trans (by decide) h2)
      have hpos : 0 < ht.buckets.length := by rw [hlen]; exact room_pos hp he' (le_trans (by decide) h2)
      have htest0 : test0 sys fl seed file (linesFor fl file (content file)) = .ok ht := by
        unfold test0
        rw [hnew, Go.bind_ok, hread]
        rfl
      rw [htest0]
      obtain ⟨es, st', e, f, hn⟩ := htests st hr.2
      refine ⟨.readOnly file ht :: es, st', ?_, ⟨_, es, rfl, ⟨ht, rfl, (HashTable.newHashTable_ok hnew).2.2.2.2.1, (HashTable.newHashTable_ok hnew).2.2.2.2.2.2.1, (HashTable.newHashTable_ok hnew).2.2.2.2.2.1, (HashTable.newHashTable_ok hnew).2.2.2.2.2.2.2.1, (HashTable.newHashTable_ok hnew).2.2.2.2.2.2.2.2.2.1, (HashTable.newHashTable_ok hnew).2.2.2.2.2.2.2.2.1, ?_⟩, f⟩, hn⟩
      · show (⟨[Event.readOnly file ht] ++ _, _⟩ : Tr (St ω)) = _
        dsimp only at e ⊢
        rw [e]; rfl
      · rw [(HashTable.newHashTable_ok hnew).1] at hlen ⊢
        rw [List.length_replicate] at hlen; rw [hlen]
    · rw [if_neg ht0]
      rw [if_neg (fun h => ht0 h.1)] at hr ⊢
      obtain ⟨es, st', e, f, hn⟩ := htests st hr.2
      refine ⟨es, st', ?_, f, hn⟩
      show (⟨[] ++ _, _⟩ : Tr (St ω)) = _
      rw [List.nil_append]; exact e

theorem follows_map {mk : String → Step} {ev : String → Model.HtMain.Event} (n : Int) (hn : ∀ h, next fl n (mk h) = n) (hm : ∀ h, Matches sys fl seed content n (mk h) (ev h)) (l : List String) :
    Follows sys fl seed content n (l.map mk) (l.map ev) := by
  induction l with
  | nil => rfl
  | cons a l ih => exact ⟨ev a, l.map ev, rfl, by rw [hn]; exact hm a, by rw [hn]; exact ih⟩

theorem mainSwitch_does {on : Flag → Bool} {b : Bool} {w : ω} (hon : on = if fl.all then allTestsOn fl.on else fl.on) (hb : b = if fl.hcb then true else fl.b)
    (hp : PrimeSizes sys fl) (he : 0 ≤ fl.extra) (he' : fl.extra ≤ 11) (hfile : ∀ file ∈ filesOf fl, file ≠ "" → GoodFile sys file (content file))
    (hr : AllRunnable sys fl seed content fl.n (plan fl)) :
    ∃ es st', mainSwitch sys fl on b seed ⟨w, fl.n, 0⟩ = ⟨es, .ok st'⟩ ∧ Follows sys fl seed content fl.n (plan fl) es := by
  have hb' : b = true ↔ (fl.b = true ∨ fl.hcb = true) := by rw [hb]; cases fl.hcb <;> simp
  unfold plan at hr ⊢
  by_cases hsm : fl.sm = true
  · rw [if_pos hsm] at hr ⊢
    unfold mainSwitch
    rw [if_pos hsm]
    by_cases hall : fl.hf = "all"
    · rw [if_pos hall, if_pos hall, eachSelected_map _ hall]
      refine ⟨_, _, rfl, ?_⟩; apply follows_map <;> intro _ <;> rfl
    · rw [if_neg hall, if_neg hall]
      exact ⟨_, _, rfl, _, [], rfl, rfl, rfl⟩
  · rw [if_neg hsm] at hr ⊢
    by_cases hbb : b = true
    · rw [if_pos (hb'.1 hbb)] at hr ⊢
      unfold mainSwitch
      rw [if_neg hsm, if_pos hbb]
      by_cases hall : fl.hf = "all"
      · rw [if_pos hall, if_pos hall, eachSelected_map _ hall]
        refine ⟨_, _, rfl, ?_⟩; apply follows_map <;> intro _ <;> rfl
      · rw [if_neg hall, if_neg hall]
        by_cases hh : fl.hcb = true
        · rw [if_pos hh, if_pos hh]; exact ⟨_, _, rfl, _, [], rfl, rfl, rfl⟩
        · rw [if_neg hh, if_neg hh]; exact ⟨_, _, rfl, _, [], rfl, rfl, rfl⟩
    · rw [if_neg (fun h => hbb (hb'.2 h))] at hr ⊢
      rw [Bool.eq_false_iff.2 hbb, mainSwitch_tests (by simpa using hsm) hon]
      obtain ⟨es, st', h1, h2, _⟩ := does_forEach _ _ _ (fun v hv => runTests_does (sys := sys) (fl := fl) (seed := seed) (content := content) (isOn fl) (hashes fl) hp he he' (hfile v hv))
        ⟨w, fl.n, 0⟩ hr
      exact ⟨es, st', h1, h2⟩

end chain

end

end Verif.Lemmas.HtMain
