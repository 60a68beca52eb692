import Verif.Lemmas.HtMain5
import Verif.Props.Hashf

/-!
# C99, C100: what a run of the test program does

`main sys fl w` is a run with the command line `fl`; `sys` is the world outside: the hash functions, which may have a state (initially
`w`), the files, the source of random seeds. Its `events` are the results that are printed, in order, up to the end or the first panic.
-/

namespace Verif.Props
open Verif Verif.Spec.HtMain Verif.Spec.HashTable Verif.Spec.Ht Verif.Model.HtMain Verif.Lemmas.HtMain
open Verif.HashTable (HT)

section
variable {ω : Type} (sys : Sys ω) (fl : Flags) (w : ω)

/-! ## C99: order -/

/-- C99. Whatever the flags, the hash functions and the files: the results that are printed are, in order, an initial segment of the plan,
and all of it unless the program panics. -/
theorem C99_order (hcr : ∀ b, sys.cr = some b → b.length = 8) (hs : seedFor sys fl ≠ none) :
    (main sys fl w).events.map stepOf <+: plan fl ∧ ∀ st, (main sys fl w).out = .ok st → (main sys fl w).events.map stepOf = plan fl := by
  rw [main_eq hcr]
  cases h : seedFor sys fl with
  | none => exact absurd h hs
  | some seed => exact mainSwitch_along rfl rfl

/-- C99. With `-rr`, if no random seed can be had, nothing is run. -/
theorem C99_no_seed (hr : fl.rr = true) (hc : sys.cr = none) : main sys fl w = ⟨[], .ok ⟨w, fl.n, 0⟩⟩ := by
  rw [main_eq (fun b hb => by rw [hc] at hb; exact nomatch hb)]
  unfold seedFor
  rw [if_pos hr, hc]; rfl

/-- C99. Every result is announced under its test's name, except that test M is announced as `TestL`. -/
theorem C99_labels (hcr : ∀ b, sys.cr = some b → b.length = 8) (name : String) (f : Flag) (hash file : String) (r : Result)
    (h : Event.run name f hash file r ∈ (main sys fl w).events) : name = label f := by
  have one : ∀ seed file lines t h st, t ∈ Tests → ∀ e ∈ (runOne sys fl seed file lines t h st).events, ∀ name f hash file r, e = Event.run name f hash file r → name = label f := by
    intro seed file lines t h st ht e he name f hash file r hr
    unfold runOne at he
    split at he
    · exact nomatch he
    · simp only [List.mem_singleton] at he
      rw [hr] at he
      injection he with h1 h2
      rw [h1, h2, tests_label ht]
  let P : Model.HtMain.Event → Prop := fun e => ∀ name f hash file r, e = Event.run name f hash file r → name = label f
  have hbind : ∀ {α β : Type} (x : Tr α) (g : α → Tr β), (∀ e ∈ x.events, P e) → (∀ a, ∀ e ∈ (g a).events, P e) → ∀ e ∈ (x.bind g).events, P e := by
    intro α β x g h1 h2 e he
    unfold Tr.bind at he
    split at he
    · exact h1 e he
    · next a _ =>
      rcases List.mem_append.1 he with h | h
      · exact h1 e h
      · exact h2 a e h
  have hfor : ∀ {α σ : Type} (body : α → σ → Tr σ) (l : List α), (∀ a ∈ l, ∀ s, ∀ e ∈ (body a s).events, P e) → ∀ s, ∀ e ∈ (forEach body l s).events, P e := by
    intro α σ body l
    induction l with
    | nil => intro _ s e he; exact nomatch he
    | cons a l ih => intro hb s; exact hbind _ _ (hb a (by simp) s) (fun s' => ih (fun a ha => hb a (by simp [ha])) s')
  have hrt : ∀ on seed file lines hf st, ∀ e ∈ (runTests sys fl on seed file lines hf st).events, P e := by
    intro on seed file lines hf st
    unfold runTests
    refine hbind _ _ ?_ ?_
    · intro e he
      split at he
      · split at he
        · exact nomatch he
        · split at he
          · split at he
            · exact nomatch he
            · simp only [List.mem_singleton] at he; subst he; intro _ _ _ _ _ hr; exact nomatch hr
          · exact nomatch he
      · exact nomatch he
    · intro lines
      refine hfor _ _ (fun t ht st => ?_) _
      split
      · refine hfor _ _ (fun h _ st => ?_) _
        split
        · intro e he; exact nomatch he
        · exact one seed file lines t h st ht
      · intro e he; exact nomatch he
  rw [main_eq hcr] at h
  cases hsd : seedFor sys fl with
  | none => rw [hsd] at h; exact nomatch h
  | some seed =>
    rw [hsd] at h
    have hsw : ∀ on b st, ∀ e ∈ (mainSwitch sys fl on b seed st).events, P e := by
      intro on b st e he
      have hmap : ∀ (ev : String → Model.HtMain.Event), (∀ h, P (ev h)) → ∀ e ∈ eachSelected fl ev, P e := by
        intro ev hev e he
        obtain ⟨x, _, rfl⟩ := List.mem_map.1 he
        exact hev x
      have hs1 : ∀ x, P (.smhasher x) := fun _ _ _ _ _ _ hr => (nomatch hr)
      have hs2 : ∀ x n, P (.bench x n) := fun _ _ _ _ _ _ _ hr => (nomatch hr)
      have hs3 : ∀ n, P (.hardcoded n) := fun _ _ _ _ _ _ hr => (nomatch hr)
      unfold mainSwitch at he
      split at he
      · split at he
        · exact hmap _ hs1 e he
        · simp only [List.mem_singleton] at he; subst he; exact hs1 _
      · split at he
        · split at he
          · exact hmap _ (fun h => hs2 h _) e he
          · split at he
            · simp only [List.mem_singleton] at he; subst he; exact hs3 _
            · simp only [List.mem_singleton] at he; subst he; exact hs2 _ _
        · split at he
          · exact hrt _ _ _ _ _ _ e he
          · split at he
            · exact hfor _ _ (fun v _ st => hrt _ _ _ _ _ st) _ e he
            · exact hrt _ _ _ _ _ _ e he
    exact hsw _ _ _ _ h name f hash file r rfl

/-! ## C99: results -/

theorem primeSizes_of {sys : Sys ω} {fl : Flags} (hp : fl.prime = false) : PrimeSizes sys fl := fun h => absurd (h.symm.trans hp) (by decide)

theorem room_of {sys : Sys ω} {fl : Flags} (hp : fl.prime = false) (size : Int) : room sys fl size = slots fl.extra.toNat size := by
  unfold room
  rw [hp]; rfl

/-- C99. With at most 11 extra bits, and with `-p` a `NextPrime` that does not make tables smaller or too large, files made of acceptable lines and no step that
must fail, the program does not panic, and its events are the plan with the right results: in every run the table has the announced
number of buckets, its counters say what is in it, and if the hash depends only on key and seed it holds exactly the test's keys, each in
the bucket of its hash in order of insertion, with the number of equal-hash pairs counted; test L counts the surplus of keys over
distinct hashes, test M the keys per residue class. -/
theorem C99_results (hcr : ∀ b, sys.cr = some b → b.length = 8) (seed : Int) (hs : seedFor sys fl = some seed) (content : String → List (List U8))
    (hp : PrimeSizes sys fl) (he : 0 ≤ fl.extra) (he' : fl.extra ≤ 11)
    (hfile : ∀ file ∈ filesOf fl, file ≠ "" → GoodFile sys file (content file)) (hr : AllRunnable sys fl seed content fl.n (plan fl)) :
    ∃ es st, main sys fl w = ⟨es, .ok st⟩ ∧ Follows sys fl seed content fl.n (plan fl) es := by
  rw [main_eq hcr, hs]
  exact mainSwitch_does rfl rfl hp he he' hfile hr

/-- The step uses one of the files of the command line. -/
theorem plan_files {file : String} {f : Flag} {h : String} (hm : .test file f h ∈ plan fl) : file ∈ filesOf fl := by
  unfold plan at hm
  split at hm
  · split at hm <;> simp at hm
  · split at hm
    · split at hm
      · simp at hm
      · split at hm <;> simp at hm
    · obtain ⟨v, hv, hm⟩ := List.mem_flatMap.1 hm
      rcases List.mem_append.1 hm with h1 | h1
      · split at h1 <;> simp at h1
      · obtain ⟨g, _, h1⟩ := List.mem_flatMap.1 h1
        obtain ⟨x, _, h1⟩ := List.mem_map.1 h1
        cases h1
        exact hv

theorem plan_reads {file : String} (hm : .read file ∈ plan fl) : file ∈ filesOf fl ∧ file ≠ "" := by
  unfold plan at hm
  split at hm
  · split at hm <;> simp at hm
  · split at hm
    · split at hm
      · simp at hm
      · split at hm <;> simp at hm
    · obtain ⟨v, hv, hm⟩ := List.mem_flatMap.1 hm
      rcases List.mem_append.1 hm with h1 | h1
      · split at h1
        · next hc => simp only [List.mem_singleton] at h1; cases h1; exact ⟨hv, hc.2⟩
        · exact nomatch h1
      · obtain ⟨g, _, h1⟩ := List.mem_flatMap.1 h1
        obtain ⟨x, _, h1⟩ := List.mem_map.1 h1
        exact nomatch h1

theorem follows_steps {seed : Int} {content : String → List (List U8)} {l : List Step} : ∀ {n : Int} {es : List Model.HtMain.Event},
    Follows sys fl seed content n l es → es.map stepOf = l := by
  induction l with
  | nil => intro n es h; cases h; rfl
  | cons s l ih =>
    intro n es h
    obtain ⟨e, es', rfl, hm, hf⟩ := h
    rw [List.map_cons, ih hf]
    congr 1
    cases s with
    | read file => obtain ⟨ht, rfl, _⟩ := hm; rfl
    | test file f h => obtain ⟨r, rfl, _⟩ := hm; rfl
    | smhasher h => cases hm; rfl
    | bench h => cases hm; rfl
    | hardcoded => cases hm; rfl

/-- C99. The first step with a key that has no hash, or with `-t` is shorter than four bytes, or with `-oa` finds the table full, or for test
K with a line that is not hexadecimal, ends the
program with that panic; the steps before it are done, the ones after it are not. -/
theorem C99_first_panic (hcr : ∀ b, sys.cr = some b → b.length = 8) (seed : Int) (hs : seedFor sys fl = some seed) (content : String → List (List U8))
    (hsm : fl.sm = false) (hb : fl.b = false) (hh : fl.hcb = false)
    (hp : PrimeSizes sys fl) (he : 0 ≤ fl.extra) (he' : fl.extra ≤ 11)
    (hfile : ∀ file ∈ filesOf fl, file ≠ "" → GoodFile sys file (content file))
    (pre post : List Step) (s : Step) (err : Fault) (hplan : plan fl = pre ++ s :: post) (hr : AllRunnable sys fl seed content fl.n pre)
    (hbr : Broken sys fl seed content (next fl (pre.foldl (next fl) fl.n) s) s err) :
    ∃ es, main sys fl w = ⟨es, .error err⟩ ∧ Follows sys fl seed content fl.n pre es := by
  rw [main_eq hcr, hs]
  dsimp only
  rw [mainSwitch_flat rfl rfl hsm (by rw [hh, hb]; rfl) hfile, hplan]
  have hmem : ∀ x, x ∈ pre ++ [s] → x ∈ plan fl := by
    intro x hx; rw [hplan]
    rcases List.mem_append.1 hx with h | h
    · simp [h]
    · simp only [List.mem_singleton] at h; simp [h]
  exact forEach_broken (st := ⟨w, fl.n, 0⟩) hp he he' (fun file f h hm => hfile file (plan_files fl (hmem _ hm)))
    (fun file hm => by
      obtain ⟨h1, h2⟩ := plan_reads fl (hmem _ (List.mem_append_left _ hm))
      exact ⟨h2, hfile file h1 h2⟩) hr hbr

/-- C99. The first step, if it is test M with an `n` (negated by `-dru`) outside of 1 ... 2^45, ends the program: a histogram of that size
cannot be made, or for `n = 0` the remainder cannot be taken. -/
theorem C99_test_M (hcr : ∀ b, sys.cr = some b → b.length = 8) (seed : Int) (hs : seedFor sys fl = some seed) (content : String → List (List U8))
    (hsm : fl.sm = false) (hb : fl.b = false) (hh : fl.hcb = false)
    (hp : PrimeSizes sys fl) (he : 0 ≤ fl.extra) (he' : fl.extra ≤ 11)
    (hfile : ∀ file ∈ filesOf fl, file ≠ "" → GoodFile sys file (content file))
    (pre post : List Step) (file hash : String) (hplan : plan fl = pre ++ .test file .M hash :: post) (hr : AllRunnable sys fl seed content fl.n pre)
    (n : Int) (hn : n = next fl (pre.foldl (next fl) fl.n) (.test file .M hash)) (h0 : n ≤ 0 ∨ 2 ^ 45 < n) :
    ∃ es err, main sys fl w = ⟨es, .error err⟩ ∧ Follows sys fl seed content fl.n pre es ∧
      (n ≠ 0 → err = .explicit "makeslice: len out of range") := by
  rw [main_eq hcr, hs]
  dsimp only
  rw [mainSwitch_flat rfl rfl hsm (by rw [hh, hb]; rfl) hfile, hplan]
  have hmem : ∀ x, x ∈ pre → x ∈ plan fl := by
    intro x hx; rw [hplan]
    exact List.mem_append_left _ hx
  exact forEach_stuck (st := ⟨w, fl.n, 0⟩) hp he he' (fun file f h hm => hfile file (plan_files fl (hmem _ hm)))
    (fun file hm => by
      obtain ⟨h1, h2⟩ := plan_reads fl (hmem _ hm)
      exact ⟨h2, hfile file h1 h2⟩) hr (fun st' h3 => by
        have : last fl fl.n pre = pre.foldl (next fl) fl.n := rfl
        rw [hn]
        rw [hn] at h0
        rw [← this, ← h3] at h0 ⊢
        exact doStep_M h0)

/-! ## C99: no file -/

theorem file_run_none {name file : String} {seed lines : Int} {st : St ω} (t : Model.Ht.FileTest) (hf : sys.files file = none) :
    ∃ err, runFn sys fl name seed file lines st (.file t) = .error err ∧
      (PrimeSizes sys fl → 0 ≤ fl.extra → fl.extra ≤ 11 → -(2 : Int) ^ 43 ≤ lines → err = .explicit "ReadFile: opening file") := by
  unfold runFn
  dsimp only
  cases hn : newTable sys fl seed lines with
  | error e =>
    refine ⟨e, rfl, fun h1 h2 h3 h4 => ?_⟩
    obtain ⟨ht, h, _⟩ := newTable_ok sys fl seed lines h1 h2 h3 h4
    rw [hn] at h; exact nomatch h
  | ok ht =>
    refine ⟨.explicit "ReadFile: opening file", ?_, fun _ _ _ _ => rfl⟩
    rw [hf]; rfl

/-- The tests A-G. -/
def fileTest (f : Flag) : Bool := readsFile f && decide (f ≠ .K)

/-- C99. Without a file (neither `-file` nor arguments), and if there is no file with the empty name, asking for one of the tests A-G, or
for all tests with `-a`, always panics. If the first test asked for is one of A-G nothing is run. -/
theorem C99_no_file (hcr : ∀ b, sys.cr = some b → b.length = 8) (hs : seedFor sys fl ≠ none) (hnone : sys.files "" = none)
    (hsm : fl.sm = false) (hb : fl.b = false) (hh : fl.hcb = false) (h1 : fl.file = "") (h2 : fl.args = []) (hc : chosen fl ≠ [])
    (f : Flag) (hf : fileTest f = true) (hon : isOn fl f = true) :
    (∃ err, (main sys fl w).out = .error err) ∧
      ((order.find? (isOn fl) = some f) → (main sys fl w).events = [] ∧
        (PrimeSizes sys fl → 0 ≤ fl.extra → fl.extra ≤ 11 → -(2 : Int) ^ 43 ≤ fl.lines → (main sys fl w).out = .error (.explicit "ReadFile: opening file"))) := by
  have hfo : filesOf fl = [""] := by unfold filesOf; rw [if_neg (by simp [h1]), if_neg (by simp [h2])]
  obtain ⟨name, names, hne⟩ := List.exists_cons_of_ne_nil hc
  have hplan : plan fl = (order.filter (isOn fl)).flatMap fun g => (chosen fl).map (.test "" g) := by
    unfold plan
    rw [if_neg (by simp [hsm]), if_neg (by simp [hb, hh]), hfo]
    simp
  have hrun : ∀ g, fileTest g = true → ∀ seed h st, ∃ err, doStep sys fl seed (fun _ => []) (.test "" g h) st = ⟨[], .error err⟩ ∧
      (PrimeSizes sys fl → 0 ≤ fl.extra → fl.extra ≤ 11 → -(2 : Int) ^ 43 ≤ fl.lines → err = .explicit "ReadFile: opening file") := by
    intro g hg seed h st
    have : ∃ t, (entryOf g).2.2 = .file t := by
      cases g <;> first | exact ⟨_, rfl⟩ | exact absurd hg (by decide)
    obtain ⟨t, ht⟩ := this
    obtain ⟨err, he, hx⟩ := file_run_none sys fl (name := h) (seed := seed) (lines := linesFor fl "" []) (st := st) t hnone
    refine ⟨err, ?_, hx⟩
    show runOne _ _ _ _ _ _ _ _ = _
    unfold runOne
    rw [ht, he]
  rw [main_eq hcr]
  cases hsd : seedFor sys fl with
  | none => exact absurd hsd hs
  | some seed =>
    dsimp only
    rw [mainSwitch_flat (content := fun _ => []) rfl rfl hsm (by rw [hh, hb]; rfl) (fun file hf' hne' => by rw [hfo] at hf'; simp at hf'; exact absurd hf' hne')]
    have hmem : .test "" f name ∈ plan fl := by
      rw [hplan]
      refine List.mem_flatMap.2 ⟨f, List.mem_filter.2 ⟨by cases f <;> decide, hon⟩, ?_⟩
      rw [hne]; simp
    constructor
    · have key : ∀ (l : List Step), .test "" f name ∈ l → ∀ st, ∃ err, (forEach (doStep sys fl seed fun _ => []) l st).out = .error err := by
        intro l
        induction l with
        | nil => intro hm; exact nomatch hm
        | cons a l ih =>
          intro hm st
          show ∃ err, (Tr.bind _ _).out = _
          unfold Tr.bind
          split
          · next e _ => exact ⟨e, rfl⟩
          · next st' hst =>
            rcases List.mem_cons.1 hm with rfl | hm
            · obtain ⟨err, he, _⟩ := hrun f hf seed name st
              rw [he] at hst; exact nomatch hst
            · exact ih hm st'
      exact key _ hmem _
    · intro hfirst
      have hfil : ∃ rest, order.filter (isOn fl) = f :: rest := by
        rw [← List.head?_filter] at hfirst
        cases hq : order.filter (isOn fl) with
        | nil => rw [hq] at hfirst; exact nomatch hfirst
        | cons a l => rw [hq] at hfirst; cases hfirst; exact ⟨l, rfl⟩
      obtain ⟨rest, hfil⟩ := hfil
      have hp : ∃ r, plan fl = .test "" f name :: r := by
        rw [hplan, hfil, List.flatMap_cons, hne]
        exact ⟨_, rfl⟩
      obtain ⟨r, hp⟩ := hp
      rw [hp]
      show (Tr.bind _ _).events = [] ∧ (_ → _ → _ → _ → (Tr.bind _ _).out = _)
      obtain ⟨err, he, hx⟩ := hrun f hf seed name ⟨w, fl.n, 0⟩
      rw [he]
      exact ⟨rfl, fun a b c d => congrArg Except.error (hx a b c d)⟩

/-- C99. With `-t` test L cannot run: its three-byte keys are too short to be traced. -/
theorem C99_trace_L (ht : fl.trace = true) (seed n : Int) (content : String → List (List U8)) (file hash : String)
    (hh : ∀ w, ∃ r, sys.hash w hash [0#8, 0#8, 0#8] (BitVec.ofInt 64 seed) = .ok r) : Broken sys fl seed content n (.test file .L hash) .index := by
  refine ⟨(fun h => (nomatch h)), (fun h => (nomatch h)), (fun h => (nomatch h)), ?_⟩
  rw [if_neg (by decide)]
  refine ⟨[], [0#8, 0#8, 0#8], (List.range (2 ^ 24 - 1)).map fun i => beBytes 3 (i + 1), ?_,
    fun x hx => (nomatch hx), fun _ _ x hx => (nomatch hx), fun _ _ => Nat.zero_le _, Or.inr ⟨hh, by decide, Or.inl ⟨ht, by decide, rfl⟩⟩⟩
  rw [hashedBy, if_neg (by decide)]
  show (List.range (2 ^ 24)).map (beBytes 3) = _
  have h2 : ∀ m : Nat, 0 < m → (List.range m).map (beBytes 3) = [0#8, 0#8, 0#8] :: (List.range (m - 1)).map fun i => beBytes 3 (i + 1) := by
    intro m hm
    obtain ⟨k, rfl⟩ : ∃ k, m = k + 1 := ⟨m - 1, by omega⟩
    rw [List.range_succ_eq_map, List.map_cons, List.map_map, Nat.add_sub_cancel]; rfl
  exact h2 _ (Nat.two_pow_pos 24)

/-! ## C100: the option -dru -/

theorem flips_cons (s : Step) (l : List Step) : flips (s :: l) = (match s with | .test _ f _ => if f = .I ∨ f = .M then 1 else 0 | _ => 0) + flips l := by
  unfold flips
  rw [List.countP_cons, Nat.add_comm]
  congr 1
  cases s <;> simp

theorem foldl_next (l : List Step) : ∀ n, l.foldl (next fl) n = if fl.dru = true ∧ flips l % 2 = 1 then -n else n := by
  induction l with
  | nil => intro n; rw [if_neg (fun h => absurd h.2 (by decide))]; rfl
  | cons s l ih =>
    intro n
    rw [List.foldl_cons, ih, flips_cons]
    cases s with
    | test file f h =>
      show (if _ then -(if _ then _ else _) else (if _ then _ else _)) = _
      by_cases hd : fl.dru = true
      · by_cases hf : f = .I ∨ f = .M
        · by_cases hp : flips l % 2 = 1
          · rw [if_pos ⟨hd, hp⟩, if_pos ⟨hd, hf⟩, if_neg (by simp [hf]; omega), Int.neg_neg]
          · rw [if_neg (fun h => hp h.2), if_pos ⟨hd, hf⟩, if_pos ⟨hd, by simp [hf]; omega⟩]
        · simp [hd, hf]
      · simp [hd]
    | _ => simp [next]

theorem follows_get {seed : Int} {content : String → List (List U8)} {l : List Step} : ∀ {n : Int} {es : List Model.HtMain.Event} (i : Nat) (s : Step),
    Follows sys fl seed content n l es → l[i]? = some s → ∃ e, es[i]? = some e ∧ Matches sys fl seed content ((l.take (i + 1)).foldl (next fl) n) s e := by
  induction l with
  | nil => intro n es i s _ h; exact nomatch h
  | cons a l ih =>
    intro n es i s h hi
    obtain ⟨e, es', rfl, hm, hf⟩ := h
    cases i with
    | zero => cases hi; exact ⟨e, rfl, hm⟩
    | succ i =>
      obtain ⟨e', h1, h2⟩ := ih i s hf hi
      exact ⟨e', h1, h2⟩

/-- C100. The number of buckets in each run of tests I and M, in a program run as in `C99_results`. With `-dru` it is exactly `n` in the
first, third, fifth, ... run of these tests, and rounded up to a power of two in the second, fourth, ...: the option changes the sign of
`n` for good, every time. Without `-dru` it is always rounded up. -/
theorem C100_buckets (hcr : ∀ b, sys.cr = some b → b.length = 8) (seed : Int) (hs : seedFor sys fl = some seed) (content : String → List (List U8))
    (hp : fl.prime = false) (he : 0 ≤ fl.extra) (he' : fl.extra ≤ 11)
    (hfile : ∀ file ∈ filesOf fl, file ≠ "" → GoodFile sys file (content file)) (hr : AllRunnable sys fl seed content fl.n (plan fl)) (hn : 0 < fl.n)
    (i : Nat) (file : String) (f : Flag) (h : String) (hi : (plan fl)[i]? = some (.test file f h)) (hf : f = .I ∨ f = .M) :
    ∃ r, (main sys fl w).events[i]? = some (.run (label f) f h file r) ∧
      r.ht.buckets.length = if fl.dru = true ∧ flips ((plan fl).take (i + 1)) % 2 = 1 then fl.n.toNat else slots fl.extra.toNat fl.n := by
  obtain ⟨es, st, h1, h2⟩ := C99_results sys fl w hcr seed hs content (primeSizes_of hp) he he' hfile hr
  obtain ⟨e, h3, r, rfl, h4⟩ := follows_get sys fl i _ h2 hi
  refine ⟨r, by rw [h1]; exact h3, ?_⟩
  have h5 := h4.table.length
  rw [foldl_next] at h5
  have hsz : ∀ m, sizeFor (linesFor fl file (content file)) m f = m := by intro m; rcases hf with rfl | rfl <;> rfl
  rw [h5, hsz, room_of hp]
  split
  · unfold slots
    rw [if_pos (by omega)]; omega
  · rfl

/-- C100. So `-dru` ("don't round n up") does round up in the second run of test I, whatever the two hash functions. -/
theorem C100_dru_violated (hcr : ∀ b, sys.cr = some b → b.length = 8) (seed : Int) (hs : seedFor sys fl = some seed) (content : String → List (List U8))
    (hp : fl.prime = false) (he : 0 ≤ fl.extra) (he' : fl.extra ≤ 11)
    (hfile : ∀ file ∈ filesOf fl, file ≠ "" → GoodFile sys file (content file)) (hr : AllRunnable sys fl seed content fl.n (plan fl)) (hn : 0 < fl.n) (hd : fl.dru = true)
    (file1 file2 h1 h2 : String) (rest : List Step) (hpl : plan fl = .test file1 .I h1 :: .test file2 .I h2 :: rest) :
    ∃ r1 r2 es, (main sys fl w).events = .run "TestI" .I h1 file1 r1 :: .run "TestI" .I h2 file2 r2 :: es ∧
      r1.ht.buckets.length = fl.n.toNat ∧ r2.ht.buckets.length = slots fl.extra.toNat fl.n := by
  obtain ⟨r1, e1, l1⟩ := C100_buckets sys fl w hcr seed hs content hp he he' hfile hr hn 0 file1 .I h1 (by rw [hpl]; rfl) (Or.inl rfl)
  obtain ⟨r2, e2, l2⟩ := C100_buckets sys fl w hcr seed hs content hp he he' hfile hr hn 1 file2 .I h2 (by rw [hpl]; rfl) (Or.inl rfl)
  rw [hpl] at l1 l2
  rw [if_pos ⟨hd, by rfl⟩] at l1
  rw [if_neg (fun h => absurd h.2 (by simp [flips]))] at l2
  cases hev : (main sys fl w).events with
  | nil => rw [hev] at e1; exact nomatch e1
  | cons a es =>
    rw [hev] at e1 e2
    cases es with
    | nil => exact nomatch e2
    | cons b es =>
      cases Option.some.inj e1
      cases Option.some.inj e2
      exact ⟨r1, r2, es, rfl, l1, l2⟩

/-- C100. In a table with `m` buckets, of any size as `-dru` makes them, a hash can only select a bucket whose number has no bit that
`m - 1` does not have, and every such bucket can be selected. -/
theorem C100_reachable (m : Nat) (hm : 0 < m) (hm' : m ≤ 2 ^ 64) (i : Nat) : (∃ h : U64, homeOf false m h = i) ↔ i &&& (m - 1) = i := by
  constructor
  · rintro ⟨h, rfl⟩
    show (h.toNat &&& (m - 1)) &&& (m - 1) = _
    rw [Nat.and_assoc, Nat.and_self]; rfl
  · intro h
    have hi : i ≤ m - 1 := by rw [← h]; exact Nat.and_le_right
    refine ⟨BitVec.ofNat 64 i, ?_⟩
    show (BitVec.ofNat 64 i).toNat &&& (m - 1) = i
    rw [BitVec.toNat_ofNat, Nat.mod_eq_of_lt (by omega), h]

/-- C100. So all buckets can be used only if their number is a power of two; the others stay empty, whatever the keys and the hash. -/
theorem C100_unused (m : Nat) (hm : 0 < m) (hm' : m ≤ 2 ^ 64) :
    ((∀ i, i < m → ∃ h : U64, homeOf false m h = i) ↔ ∃ k, m = 2 ^ k) ∧
      ∀ (hash : List U8 → U64) (keys : List (List U8)) (ht : HT (List U8)), Filled false m hash keys ht → ∀ i, i < m → i &&& (m - 1) ≠ i → ht.buckets[i]? = some [] := by
  refine ⟨⟨fun h => ?_, fun h => ?_⟩, fun hash keys ht hf i hi hne => ?_⟩
  · rcases Nat.lt_or_ge m 2 with h2 | h2
    · exact ⟨0, by omega⟩
    · refine ⟨Nat.log2 (m - 1) + 1, ?_⟩
      have hlo := Nat.log2_self_le (n := m - 1) (by omega)
      have hhi : m - 1 < 2 ^ (Nat.log2 (m - 1) + 1) := Nat.lt_log2_self
      generalize Nat.log2 (m - 1) = k at hlo hhi
      have hp : 0 < 2 ^ k := Nat.two_pow_pos k
      have := (C100_reachable m hm hm' (2 ^ k - 1)).1 (h _ (by omega))
      rw [Nat.and_comm, Nat.and_two_pow_sub_one_eq_mod] at this
      rw [Nat.pow_succ] at hhi ⊢
      have hsub : (m - 1) % 2 ^ k = m - 1 - 2 ^ k := by
        rw [Nat.mod_eq_sub_mod hlo, Nat.mod_eq_of_lt (by omega)]
      omega
  · obtain ⟨k, rfl⟩ := h
    intro i hi
    rw [C100_reachable _ hm hm', Nat.and_two_pow_sub_one_eq_mod, Nat.mod_eq_of_lt hi]
  · rw [hf.buckets, List.getElem?_map, List.getElem?_range hi, Option.map_some]
    refine congrArg some (List.filter_eq_nil_iff.2 fun k _ hk => ?_)
    exact hne ((C100_reachable m hm hm' i).1 ⟨hash k, by simpa using hk⟩)

/-- C100. With `2^k + 1` buckets all keys fall into two of them. -/
theorem C100_two_buckets (k : Nat) (hk : k < 64) (h : U64) : homeOf false (2 ^ k + 1) h = 0 ∨ homeOf false (2 ^ k + 1) h = 2 ^ k := by
  show h.toNat &&& (2 ^ k + 1 - 1) = 0 ∨ h.toNat &&& (2 ^ k + 1 - 1) = 2 ^ k
  rw [Nat.add_sub_cancel, Nat.and_two_pow]
  cases h.toNat.testBit k <;> simp

/-! ## Non-vacuity -/

/-- A hash function with a state (it counts its calls) whose value is the first byte. -/
def exampleSys : Sys Nat where
  hash w _ k _ := .ok ((k.headD 0#8).setWidth 64, w + 1)
  nextPrime x := x
  files f := if f = "words" then some ⟨[97#8, 98#8, 10#8, 99#8, 10#8], false⟩ else none
  rnd _ := 0#64
  cr := none

/-- `ht -A -I -M -dru -n 5 -ni 3 -e 0 -hf j332c words`. -/
def exampleFlags : Flags where
  file := ""
  lines := 0
  hf := "j332c"
  extra := 0
  prime := false
  all := false
  pd := false
  oa := false
  s := 7
  rr := false
  c := false
  h32 := true
  h64 := false
  b := false
  hcb := false
  sm := false
  ni := 3
  n := 5
  dru := true
  ns := 1
  trace := false
  t0 := true
  on f := f = .A ∨ f = .I ∨ f = .M
  args := ["words"]

example : plan exampleFlags = [.read "words", .test "words" .A "j332c", .test "words" .I "j332c", .test "words" .M "j332c"] := by decide

/-- The hypotheses of `C99_results` and `C100_buckets` are met by this run. -/
example : seedFor exampleSys exampleFlags = some 7 ∧ GoodFile exampleSys "words" [[97#8, 98#8], [99#8]] ∧
    AllRunnable exampleSys exampleFlags 7 (fun _ => [[97#8, 98#8], [99#8]]) exampleFlags.n (plan exampleFlags) := by
  have hh : ∀ name seed ks, Hashes exampleSys name seed ks := fun name seed ks k _ w => ⟨_, rfl⟩
  refine ⟨by decide, ⟨[], rfl, by decide, by decide, by decide⟩, ?_⟩
  rw [show plan exampleFlags = [.read "words", .test "words" .A "j332c", .test "words" .I "j332c", .test "words" .M "j332c"] by decide]
  exact ⟨trivial, ⟨(fun h => (nomatch h)), by decide, by decide, by decide, hh _ _ _, (fun h => (nomatch h)), (fun h => (nomatch h))⟩, ⟨(fun h => (nomatch h)), by decide, by decide, by decide, hh _ _ _, (fun h => (nomatch h)), (fun h => (nomatch h))⟩,
    ⟨(fun h => (nomatch h)), by decide, by decide, by decide, hh _ _ _, (fun h => (nomatch h)), (fun h => (nomatch h))⟩, trivial⟩

/-- The hypotheses of `C99_test_M`: `-dru` makes `n` negative, and test M comes after two steps that run. -/
example : let fl : Flags := { exampleFlags with n := 2 ^ 42, on := fun f => f = .A ∨ f = .M }
    plan fl = [.read "words", .test "words" .A "j332c"] ++ .test "words" .M "j332c" :: [] ∧
    AllRunnable exampleSys fl 7 (fun _ => [[97#8, 98#8], [99#8]]) fl.n [.read "words", .test "words" .A "j332c"] ∧
    next fl ([Step.read "words", .test "words" .A "j332c"].foldl (next fl) fl.n) (.test "words" .M "j332c") = -2 ^ 42 := by
  have hh : ∀ name seed ks, Hashes exampleSys name seed ks := fun name seed ks k _ w => ⟨_, rfl⟩
  refine ⟨by decide, ⟨trivial, ⟨(fun h => (nomatch h)), by decide, by decide, by decide, hh _ _ _, (fun h => (nomatch h)), (fun h => (nomatch h))⟩, trivial⟩, by decide⟩

/-- And those of `C99_no_file`. -/
example : exampleSys.files "" = none ∧ chosen { exampleFlags with args := [] } ≠ [] ∧ fileTest .A = true ∧ isOn { exampleFlags with args := [] } .A = true ∧
    order.find? (isOn { exampleFlags with args := [] }) = some .A := by decide

end

/-! ## C99: with the hash functions of package hashf -/

section hashf
open Verif.Spec.Hashf (Ok resultAfter outcome names counters)
variable (e : Model.Hashf.Ext) (he : Ok e) (nextPrime : Int → Int) (files : String → Option Model.Ht.File) (rnd : Nat → U64) (cr : Option (List U8))
include he

/-- C99. Every name of package hashf but the two counters gives results that depend on key and seed only, so `C99_results` determines
the contents of the tables. -/
theorem C99_hashf_determined (name : String) (h1 : name ≠ "nullhash") (h2 : name ≠ "nullhashF64ns") :
    Determined (hashfSys e nextPrime files rnd cr) name (outcome e [] name) := by
  intro hist k s
  show ((resultAfter e hist name k s).map _).map _ = _
  rw [C81_independent e he hist [] name k s h1 h2, C81_history e he]
  cases outcome e [] name k s <;> rfl

/-- C99. Every known name hashes every key of at least eight bytes; all names used by the tests hash every key that is not empty. -/
theorem C99_hashf_hashes (name : String) (hn : name ∈ names) (seed : U64) (ks : List (List U8)) (hk : ∀ k ∈ ks, ¬ tooShort name k) :
    Hashes (hashfSys e nextPrime files rnd cr) name seed ks := by
  intro k hk' hist
  obtain ⟨v, hv⟩ := (C78_short_key e he hist name k seed hn).2 (hk k hk')
  refine ⟨(v, hist ++ [(name, k, seed)]), ?_⟩
  show (resultAfter e hist name k seed).map _ = _
  rw [hv]; rfl

/-- C99. The command line without options or arguments (with any `-n`, `-ni > 0`, `-s`, and up to 11 extra bits; with
open addressing if the table has room): test I runs with the
listed hash functions up to `skein256`, where the program panics; test J is never reached. -/
theorem C99_default_panics (fl : Flags) (hfile : fl.file = "") (hargs : fl.args = []) (hon : ∀ f, fl.on f = false) (hall : fl.all = false)
    (hhf : fl.hf = "all") (hsm : fl.sm = false) (hb : fl.b = false) (hh : fl.hcb = false) (hrr : fl.rr = false) (hc : fl.c = false) (h32 : fl.h32 = false)
    (h64 : fl.h64 = false) (hoa : fl.oa = true → fl.ni.toNat ≤ room (hashfSys e nextPrime files rnd cr) fl fl.n) (hp : PrimeSizes (hashfSys e nextPrime files rnd cr) fl) (hx : 0 ≤ fl.extra) (hx' : fl.extra ≤ 11) (hdru : fl.dru = false)
    (hn : -(2 : Int) ^ 43 ≤ fl.n) (hni : 0 < fl.ni) (hcr : ∀ b, cr = some b → b.length = 8) :
    ∃ es, main (hashfSys e nextPrime files rnd cr) fl [] = ⟨es, .error (.explicit "hashf")⟩ ∧
      es.map stepOf = (Model.Hashf.TestHashFunctions.takeWhile (· ≠ "skein256")).map (.test "" .I) ∧ es.length = 42 := by
  have hpass : ∀ name, passes fl name = true := by intro name; unfold passes; rw [hc, h32, h64]; rfl
  have hchosen : chosen fl = Model.Hashf.TestHashFunctions := by
    unfold chosen
    rw [if_pos hhf, List.filter_eq_self]
    exact fun a _ => hpass a
  have hisOn : isOn fl = fun f => decide (f = .I ∨ f = .J) := by
    funext f
    unfold isOn
    dsimp only
    rw [if_pos ⟨hfile, hargs, fun g _ => by rw [hon, hall]; rfl⟩]
  have hplan : plan fl = (Model.Hashf.TestHashFunctions.takeWhile (· ≠ "skein256")).map (.test "" .I) ++ .test "" .I "skein256" ::
      ((Model.Hashf.TestHashFunctions.dropWhile (· ≠ "skein256")).tail.map (.test "" .I) ++ Model.Hashf.TestHashFunctions.map (.test "" .J)) := by
    unfold plan
    have hfo : filesOf fl = [""] := by unfold filesOf; rw [if_neg (by simp [hfile]), if_neg (by simp [hargs])]
    rw [if_neg (by simp [hsm]), if_neg (by simp [hb, hh]), hfo, hchosen, hisOn]
    simp only [List.flatMap_cons, List.flatMap_nil, List.append_nil, ne_eq, not_true_eq_false, and_false, if_false, List.nil_append]
    rfl
  have hnext : ∀ n s, next fl n s = n := by
    intro n s
    unfold next
    split
    · rw [if_neg (by simp [hdru])]
    · rfl
  have hlast : ∀ (l : List Step) n, l.foldl (next fl) n = n := by
    intro l
    induction l with
    | nil => intro n; rfl
    | cons a l ih => intro n; rw [List.foldl_cons, hnext]; exact ih n
  set sys := hashfSys e nextPrime files rnd cr with hsys
  have hkeys : hashedBy [] fl.ni .I = (List.range fl.ni.toNat).map (leBytes 4) := rfl
  have hne : ∃ m, fl.ni.toNat = m + 1 := ⟨fl.ni.toNat - 1, by omega⟩
  obtain ⟨m, hm⟩ := hne
  have hseed : seedFor sys fl = some (BitVec.ofInt 64 fl.s).toInt := by unfold seedFor; rw [if_neg (by simp [hrr])]
  generalize hsd : (BitVec.ofInt 64 fl.s).toInt = seed at hseed
  have hrun : AllRunnable sys fl seed (fun _ => []) fl.n ((Model.Hashf.TestHashFunctions.takeWhile (· ≠ "skein256")).map (.test "" .I)) := by
    have key : ∀ l : List String, (∀ x ∈ l, x ∈ names ∧ x ≠ "aeshash64I") → AllRunnable sys fl seed (fun _ => []) fl.n (l.map (.test "" .I)) := by
      intro l
      induction l with
      | nil => intro _; trivial
      | cons a l ih =>
        intro hl
        refine ⟨?_, by rw [hnext]; exact ih fun x hx => hl x (by simp [hx])⟩
        refine ⟨(fun h => (nomatch h)), (fun h => (nomatch h)), fun _ => by rw [hnext]; exact hn, (fun h => (nomatch h)), ?_, ?_, fun ho => by rw [hnext]; show ((List.range fl.ni.toNat).map (leBytes 4)).length ≤ _; rw [List.length_map, List.length_range]; exact hoa ho⟩
        · refine C99_hashf_hashes e he nextPrime files rnd cr a (hl a (by simp)).1 _ _ fun k hk => ?_
          obtain ⟨i, _, rfl⟩ := List.mem_map.1 hk
          have hlen := leBytes_length 4 i
          have hne : leBytes 4 i ≠ [] := by intro h; rw [h] at hlen; exact nomatch hlen
          rintro (⟨_, h⟩ | ⟨_, h⟩ | ⟨h, _⟩ | ⟨_, h⟩ | ⟨_, h⟩)
          · omega
          · omega
          · exact (hl a (by simp)).2 h
          · exact hne h
          · exact hne h
        · intro _ k hk
          obtain ⟨i, _, rfl⟩ := List.mem_map.1 hk
          exact Nat.le_of_eq (leBytes_length 4 i).symm
    exact key _ (by decide)
  have hbr : Broken sys fl seed (fun _ => []) (next fl (((Model.Hashf.TestHashFunctions.takeWhile (· ≠ "skein256")).map (.test "" .I)).foldl (next fl) fl.n) (.test "" .I "skein256"))
      (.test "" .I "skein256") (.explicit "hashf") := by
    rw [hlast, hnext]
    refine ⟨(fun h => (nomatch h)), fun _ => hn, (fun h => (nomatch h)), ?_⟩
    rw [if_neg (by decide)]
    refine ⟨[], leBytes 4 0, (List.range m).map fun i => leBytes 4 (i + 1), ?_,
      fun x hx => (nomatch hx), fun _ _ x hx => (nomatch hx), fun _ _ => Nat.zero_le _, Or.inl fun hist => ?_⟩
    · rw [hkeys, hm, List.range_succ_eq_map, List.map_cons, List.map_map]; rfl
    · show (resultAfter e hist "skein256" _ _).map _ = _
      rw [(C78_unknown_name e he hist "skein256" _ _).2 (by decide)]; rfl
  have hsome : ∀ b, sys.cr = some b → b.length = 8 := hcr
  obtain ⟨es, h1, h2⟩ := C99_first_panic sys fl [] hsome seed hseed (fun _ => []) hsm hb hh hp hx hx'
    (fun file hf hne => by
      have hfo : filesOf fl = [""] := by unfold filesOf; rw [if_neg (by simp [hfile]), if_neg (by simp [hargs])]
      rw [hfo] at hf; simp at hf; exact absurd hf hne) _ _ _ _ hplan hrun hbr
  have hsteps := follows_steps _ _ h2
  refine ⟨es, h1, hsteps, ?_⟩
  have := congrArg List.length hsteps
  rw [List.length_map, List.length_map] at this
  rw [this]
  decide


end hashf

end Verif.Props
