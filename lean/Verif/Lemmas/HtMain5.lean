import Verif.Lemmas.HtMain4

/-! Lemmas for C99, C100: the program as one sequence of steps, and the first step that panics. -/

namespace Verif.Lemmas.HtMain
open Verif Verif.Spec.HtMain Verif.Spec.HashTable Verif.Spec.Ht Verif.Model.HtMain Verif.Model.Ht Verif.Lemmas.Ht
open Verif.HashTable (HT)

section
variable {σ : Type}

theorem bind_assoc {α β γ : Type} (x : Tr α) (f : α → Tr β) (g : β → Tr γ) : (x.bind f).bind g = x.bind fun a => (f a).bind g := by
  obtain ⟨ev, out⟩ := x
  cases out with
  | error e => rfl
  | ok a =>
    show (⟨ev ++ (f a).events, (f a).out⟩ : Tr β).bind g = ⟨ev ++ ((f a).bind g).events, ((f a).bind g).out⟩
    obtain ⟨ev2, out2⟩ := f a
    cases out2 with
    | error e => rfl
    | ok b => show (⟨(ev ++ ev2) ++ (g b).events, (g b).out⟩ : Tr γ) = ⟨ev ++ (ev2 ++ (g b).events), (g b).out⟩; rw [List.append_assoc]

theorem pure_bind {α β : Type} (a : α) (f : α → Tr β) : (⟨[], .ok a⟩ : Tr α).bind f = f a := by
  show (⟨[] ++ (f a).events, (f a).out⟩ : Tr β) = f a
  rw [List.nil_append]

theorem forEach_append {α : Type} (body : α → σ → Tr σ) (l1 l2 : List α) : ∀ s, forEach body (l1 ++ l2) s = (forEach body l1 s).bind (forEach body l2) := by
  induction l1 with
  | nil => intro s; exact (pure_bind s _).symm
  | cons a l1 ih =>
    intro s
    show (body a s).bind _ = ((body a s).bind _).bind _
    rw [bind_assoc]
    exact congrArg _ (funext ih)

theorem forEach_flat {α β : Type} (body : β → σ → Tr σ) (steps : α → List β) (B : α → σ → Tr σ) (l : List α) (h : ∀ a ∈ l, ∀ s, B a s = forEach body (steps a) s) :
    ∀ s, forEach B l s = forEach body (l.flatMap steps) s := by
  induction l with
  | nil => intro s; rfl
  | cons a l ih =>
    intro s
    rw [List.flatMap_cons, forEach_append]
    show (B a s).bind _ = _
    rw [h a (by simp)]
    exact congrArg _ (funext (ih fun a ha => h a (by simp [ha])))

end

section
variable {ω : Type} (sys : Sys ω) (fl : Flags) (seed : Int) (content : String → List (List U8))

/-- The entry of a flag in the table of tests. -/
def entryOf (f : Flag) : String × Flag × Fn := (Tests.find? fun t => t.2.1 = f).getD ("", .A, .H)

theorem entryOf_eq {t : String × Flag × Fn} (h : t ∈ Tests) : entryOf t.2.1 = t := by
  simp only [Tests, List.mem_cons, List.not_mem_nil, or_false] at h
  rcases h with h | h | h | h | h | h | h | h | h | h | h | h | h <;> rw [h] <;> rfl

theorem entryOf_mem (f : Flag) : entryOf f ∈ Tests ∧ (entryOf f).2.1 = f := by cases f <;> decide

/-- One step. -/
def doStep : Step → St ω → Tr (St ω)
  | .read file, st => match test0 sys fl seed file (linesFor fl file (content file)) with
    | .error e => ⟨[], .error e⟩
    | .ok ht => ⟨[.readOnly file ht], .ok st⟩
  | .test file f name, st => runOne sys fl seed file (linesFor fl file (content file)) (entryOf f) name st
  | .smhasher h, st => ⟨[.smhasher h], .ok st⟩
  | .bench h, st => ⟨[.bench h st.n], .ok st⟩
  | .hardcoded, st => ⟨[.hardcoded st.n], .ok st⟩

variable {sys fl seed content}

theorem runTests_flat {file : String} (on : Flag → Bool) (hf : List String) (st : St ω) (hfile : file ≠ "" → GoodFile sys file (content file)) :
    runTests sys fl on seed file fl.lines hf st = forEach (doStep sys fl seed content) (fileSteps fl on hf file) st := by
  have htests : ∀ st, (forEach (fun t st =>
        if on t.2.1 then
          forEach (fun name st =>
            if Model.Hashf.selected fl.c fl.h32 fl.h64 [name] = [] then ⟨[], .ok st⟩
            else runOne sys fl seed file (linesFor fl file (content file)) t name st) hf st
        else ⟨[], .ok st⟩) Tests st) =
      forEach (doStep sys fl seed content) (Tests.flatMap fun t => if on t.2.1 then (hf.flatMap fun name => if passes fl name then [Step.test file t.2.1 name] else []) else []) st := by
    refine forEach_flat _ _ _ _ fun t ht st => ?_
    by_cases hon : on t.2.1 = true
    · rw [if_pos hon, if_pos hon]
      refine forEach_flat _ _ _ _ (fun name _ st => ?_) st
      by_cases hpp : passes fl name = true
      · rw [if_pos hpp, if_neg (by rw [selected_nil, hpp]; decide)]
        show _ = Tr.bind _ _
        refine Eq.trans ?_ (bind_pure _).symm
        show _ = runOne sys fl seed file _ (entryOf t.2.1) name st
        rw [entryOf_eq ht]
      · rw [if_neg hpp, if_pos ((selected_nil name).2 (by simpa using hpp))]
        rfl
    · rw [if_neg hon, if_neg hon]; rfl
  unfold fileSteps
  rw [← steps_eq, forEach_append]
  unfold runTests
  dsimp only
  by_cases h1 : file = ""
  · rw [if_neg (show ¬ (fl.t0 = true ∧ file ≠ "") from fun h => h.2 h1), if_neg (show ¬ file ≠ "" from fun h => h h1)]
    have hl : linesFor fl file (content file) = fl.lines := by unfold linesFor; rw [if_neg (by simp [h1])]
    rw [pure_bind]
    rw [hl] at htests
    rw [htests]
    exact (pure_bind st _).symm
  · have hgood := hfile h1
    have hread := readGood hgood
    have hlines : (if fl.lines ≤ 0 then (ReadFile (sys.files file)).out.map Int.ofNat else .ok fl.lines) = .ok (linesFor fl file (content file)) := by
      unfold linesFor
      rw [hread]
      by_cases h : fl.lines ≤ 0
      · rw [if_pos h, if_pos ⟨h1, h⟩]; rfl
      · rw [if_neg h, if_neg (fun hh => h hh.2)]
    rw [if_pos h1, hlines]
    dsimp only
    by_cases ht0 : fl.t0 = true
    · rw [if_pos ht0, if_pos ⟨ht0, h1⟩]
      cases h0 : test0 sys fl seed file (linesFor fl file (content file)) with
      | error e =>
        have hd : doStep sys fl seed content (.read file) st = ⟨[], .error e⟩ := by unfold doStep; dsimp only; rw [h0]
        show _ = Tr.bind (Tr.bind (doStep sys fl seed content (.read file) st) _) _
        rw [hd]; rfl
      | ok ht =>
        have hd : doStep sys fl seed content (.read file) st = ⟨[.readOnly file ht], .ok st⟩ := by unfold doStep; dsimp only; rw [h0]
        show _ = Tr.bind (Tr.bind (doStep sys fl seed content (.read file) st) _) _
        rw [hd]
        show (⟨[Event.readOnly file ht] ++ _, _⟩ : Tr (St ω)) = ⟨([Event.readOnly file ht] ++ []) ++ _, _⟩
        dsimp only
        rw [htests]; rfl
    · rw [if_neg ht0, if_neg (fun h => ht0 h.1), pure_bind, htests]
      exact (pure_bind st _).symm

theorem mainSwitch_flat {on : Flag → Bool} {b : Bool} {w : ω} (hon : on = if fl.all then allTestsOn fl.on else fl.on) (hb : b = if fl.hcb then true else fl.b)
    (hsm : fl.sm = false) (hbb : b = false) (hfile : ∀ file ∈ filesOf fl, file ≠ "" → GoodFile sys file (content file)) :
    mainSwitch sys fl on b seed ⟨w, fl.n, 0⟩ = forEach (doStep sys fl seed content) (plan fl) ⟨w, fl.n, 0⟩ := by
  have hb' : b = true ↔ (fl.b = true ∨ fl.hcb = true) := by rw [hb]; cases fl.hcb <;> simp
  unfold plan
  rw [if_neg (by simp [hsm]), if_neg (fun h => by rw [← hb', hbb] at h; exact nomatch h), hbb, mainSwitch_tests hsm hon]
  exact forEach_flat _ _ _ _ (fun v hv st => runTests_flat (sys := sys) (fl := fl) (seed := seed) (content := content) (file := v) (isOn fl) (hashes fl) st (hfile v hv)) _

theorem doStep_does (s : Step) (hp : PrimeSizes sys fl) (he : 0 ≤ fl.extra) (he' : fl.extra ≤ 11)
    (hf : ∀ file f h, s = .test file f h → file ≠ "" → GoodFile sys file (content file)) (hr : ∀ file, s ≠ .read file) :
    Does sys fl seed content [s] (doStep sys fl seed content s) := by
  cases s with
  | read file => exact absurd rfl (hr file)
  | test file f h =>
    have := runOne_does (sys := sys) (fl := fl) (seed := seed) (content := content) (file := file) (entryOf_mem f).1 h hp he he' (hf file f h rfl)
    rw [(entryOf_mem f).2] at this
    exact this
  | smhasher h => exact fun st _ => ⟨_, st, rfl, ⟨_, [], rfl, rfl, rfl⟩, rfl⟩
  | bench h => exact fun st _ => ⟨_, st, rfl, ⟨_, [], rfl, rfl, rfl⟩, rfl⟩
  | hardcoded => exact fun st _ => ⟨_, st, rfl, ⟨_, [], rfl, rfl, rfl⟩, rfl⟩

theorem insertKeys_append (name : String) (l1 l2 : List (List U8)) : ∀ (w : ω) (ht : HT (List U8)),
    insertKeys sys fl name w ht (l1 ++ l2) = (insertKeys sys fl name w ht l1) >>= fun p => insertKeys sys fl name p.1 p.2 l2 := by
  induction l1 with
  | nil => intro w ht; rfl
  | cons k l ih =>
    intro w ht
    rw [List.cons_append, insertKeys, insertKeys]
    cases insert1 sys fl name w ht k with
    | error e => rfl
    | ok p => exact ih _ _

theorem insertL_append (name : String) (l1 l2 : List (List U8)) : ∀ (w : ω) (ht : HT (List U8)) (hs : List U64),
    insertL sys fl name w ht hs (l1 ++ l2) = (insertL sys fl name w ht hs l1) >>= fun p => insertL sys fl name p.1 p.2.1 p.2.2 l2 := by
  induction l1 with
  | nil => intro w ht hs; rfl
  | cons k l ih =>
    intro w ht hs
    rw [List.cons_append, insertL, insertL]
    cases sys.hash w name k ht.seed with
    | error e => rfl
    | ok q =>
      rw [Go.bind_ok, Go.bind_ok]
      dsimp only
      cases insert1 sys fl name q.2 ht k with
      | error e => rfl
      | ok p => exact ih _ _ _

theorem modLoop_append (name : String) (seed mod : U64) (n1 n2 : Nat) : ∀ (i : Nat) (w : ω) (q : List U8 × List Nat),
    modLoop sys name seed mod i (n1 + n2) w q = (modLoop sys name seed mod i n1 w q) >>= fun p => modLoop sys name seed mod (i + n1) n2 p.1 p.2 := by
  induction n1 with
  | zero => intro i w q; rw [Nat.zero_add]; rfl
  | succ n ih =>
    intro i w q
    rw [show n + 1 + n2 = (n + n2) + 1 by omega, modLoop, modLoop]
    cases sys.hash w name [BitVec.ofNat 8 i, BitVec.ofNat 8 (i >>> 8), BitVec.ofNat 8 (i >>> 16), BitVec.ofNat 8 (i >>> 24)] seed with
    | error e => rfl
    | ok r =>
      rw [Go.bind_ok, Go.bind_ok]
      dsimp only
      cases testMBody (fun _ => r.1) mod i q with
      | error e => rfl
      | ok q' =>
        rw [Go.bind_ok, Go.bind_ok, ih, show i + 1 + n = i + (n + 1) by omega]

theorem untraced {e : HashTable.Env ω (List U8)} {w : ω} {ht : HT (List U8)} {k : List U8} (wf : HashTable.WF ht) (hk : e.traceOK k = false) :
    HashTable.insert e w ht k = .error .index := by
  obtain ⟨idx, hi, he⟩ := HashTable.insert_eq (e := e) (w := w) (k := k) wf
  have hlt := wf.home_lt (e.hash w k ht.seed).1
  rw [he, HashTable.insertLoop]
  simp only [hi, Go.idx_eq hlt, Go.bind_ok]
  split
  · simp only [Go.set, hlt, HashTable.traceChk, hk]; rfl
  · split
    · simp only [HashTable.traceChk, hk]; rfl
    · simp only [Go.set, hlt, HashTable.traceChk, hk]; rfl

theorem all_full {bs : List (List (List U8))} (h1 : ∀ b ∈ bs, b.length ≤ 1) : bs.flatten.length ≤ bs.length ∧ (bs.flatten.length = bs.length → ∀ b ∈ bs, b ≠ []) := by
  induction bs with
  | nil => exact ⟨Nat.le_refl _, fun _ b hb => nomatch hb⟩
  | cons a l ih =>
    obtain ⟨h2, h3⟩ := ih fun b hb => h1 b (List.mem_cons_of_mem _ hb)
    have ha := h1 a (by simp)
    rw [List.flatten_cons, List.length_append, List.length_cons]
    refine ⟨by omega, fun e b hb => ?_⟩
    rcases List.mem_cons.1 hb with rfl | hb
    · intro h; rw [h, List.length_nil] at e; omega
    · exact h3 (by omega) b hb

/-- Why a key cannot be inserted into a table made for `m` keys after `before`. -/
def Stuck (sys : Sys ω) (fl : Flags) (name : String) (seed : U64) (m : Nat) (before : List (List U8)) (k : List U8) (e : Fault) : Prop :=
  (∀ w, sys.hash w name k seed = .error e) ∨
    ((∀ w, ∃ r, sys.hash w name k seed = .ok r) ∧
      ((fl.trace = true ∧ k.length < 4 ∧ e = .index) ∨ ((fl.trace = true → 4 ≤ k.length) ∧ fl.oa = true ∧ before.length = m ∧ e = .explicit "Add: pass")))

/-- The insertion fails when the hash panics, the key cannot be traced or the table is full. -/
theorem insert1_broken {name : String} {before : List (List U8)} {ht : HT (List U8)} {k : List U8} {e : Fault} (w : ω) (hf : Fine sys name ht) (hst : Stats fl before ht)
    (h : Stuck sys fl name ht.seed ht.size.toNat before k e) : insert1 sys fl name w ht k = .error e := by
  rcases h with h | ⟨h, h'⟩
  · exact HashTable.insertF_panic (e := env sys fl name) (h w)
  · rw [insert1_eq hf (h w)]
    rcases h' with ⟨ht1, hk, rfl⟩ | ⟨hk, ho, hlen, rfl⟩
    · refine untraced hst.wf ?_
      show (!fl.trace || decide (4 ≤ k.length)) = false
      rw [ht1]; simp; omega
    · have hs := hst.2 ho
      have hne := (all_full hs.opened.single).2 (by rw [hs.opened.contents.length_eq, hs.wf.len, hlen])
      have htr : (env sys fl name).total.traceOK k = true := by
        show (!fl.trace || decide (4 ≤ k.length)) = true
        cases hc : fl.trace
        · rfl
        · simpa using hk hc
      rcases HashTable.insert_cases (e := (env sys fl name).total) (w := w) hs.wf htr with ⟨_, _, h3⟩ | ⟨h3, _⟩
      · exact h3
      · rcases h3 with h3 | ⟨b, hb, rfl⟩
        · rw [hs.oa] at h3; exact nomatch h3
        · exact absurd rfl (hne _ hb)

theorem runFn_broken {lines : Int} {file name : String} {ls : List (List U8)} {st : St ω} {err : Fault} (t : String × Flag × Fn) (ht : t ∈ Tests) (hK : t.2.1 ≠ .K)
    (hp : PrimeSizes sys fl) (he : 0 ≤ fl.extra) (he' : fl.extra ≤ 11)
    (n : Int) (hn : n = if fl.dru = true ∧ (t.2.1 = .I ∨ t.2.1 = .M) then -st.n else st.n)
    (hlo : -(2 : Int) ^ 43 ≤ sizeFor lines n t.2.1) (hM : t.2.1 = .M → 0 < n ∧ n ≤ 2 ^ 45)
    (hf : readsFile t.2.1 = true → GoodFile sys file ls) {pre ks : List (List U8)} {k : List U8} (hk : hashedBy ls fl.ni t.2.1 = pre ++ k :: ks)
    (hh : Hashes sys name (BitVec.ofInt 64 seed) pre) (htr : t.2.1 ≠ .M → fl.trace = true → ∀ x ∈ pre, 4 ≤ x.length)
    (hroom : t.2.1 ≠ .M → fl.oa = true → pre.length ≤ room sys fl (sizeFor lines n t.2.1))
    (hbr : (∀ w, sys.hash w name k (BitVec.ofInt 64 seed) = .error err) ∨
      ((∀ w, ∃ r, sys.hash w name k (BitVec.ofInt 64 seed) = .ok r) ∧ t.2.1 ≠ .M ∧
        ((fl.trace = true ∧ k.length < 4 ∧ err = .index) ∨
          ((fl.trace = true → 4 ≤ k.length) ∧ fl.oa = true ∧ pre.length = room sys fl (sizeFor lines n t.2.1) ∧ err = .explicit "Add: pass")))) :
    runFn sys fl name seed file lines st t.2.2 = .error err := by
  obtain ⟨ht0, hnew, hlen⟩ := newTable_ok sys fl seed (sizeFor lines n t.2.1) hp he he' hlo
  have hpos : 0 < ht0.buckets.length := by rw [hlen]; exact room_pos hp he' hlo
  have hsd := newTable_seed hnew
  have hst0 := stats_new hnew hpos
  have hsz : ht0.size.toNat = room sys fl (sizeFor lines n t.2.1) := by rw [← hst0.wf.len, hlen]
  have hbr1 : Stuck sys fl name ht0.seed ht0.size.toNat pre k err := by
    rw [hsd, hsz]
    rcases hbr with h | ⟨h1, h2, h3⟩
    · exact Or.inl h
    · exact Or.inr ⟨h1, h3⟩
  have htr' : t.2.1 ≠ .M → Traces sys fl name pre := by
    intro hm x hx
    show (!fl.trace || decide (4 ≤ x.length)) = true
    cases hc : fl.trace
    · rfl
    · simpa using htr hm hc x hx
  rw [← hsd] at hh
  have hins : t.2.1 ≠ .M → ∀ w, insertKeys sys fl name w ht0 (pre ++ k :: ks) = .error err := by
    intro hm w
    obtain ⟨w', ht', h1, h2, h3, h4, h5⟩ := insertKeys_stats (name := name) ht0.seed pre hh (htr' hm) [] w ht0 rfl (fine_new hnew) hst0 (fun ho => by rw [hsz]; exact hroom hm ho)
    rw [insertKeys_append, h1, Go.bind_ok, insertKeys, insert1_broken w' h5 h2 (by rw [h3, h4]; exact hbr1)]; rfl
  have file_case : ∀ (ft : FileTest) (f : Flag), f ≠ .M → sizeFor lines n f = lines → t.2.1 = f → t.2.2 = .file ft →
      keysFor ls fl.ni f = ls.map (fun l => ft.key (strip l)) → readsFile f = true → runFn sys fl name seed file lines st t.2.2 = .error err := by
    intro ft f hMne hs e1 e2 hk' hr
    rw [e1] at hnew hf hk
    rw [hs] at hnew
    rw [hashedBy, if_neg hMne, hk'] at hk
    rw [e2]
    unfold runFn
    dsimp only
    rw [hnew, Go.bind_ok, readGood (hf hr)]
    dsimp only
    rw [List.map_map, show (ft.key ∘ strip) = fun l => ft.key (strip l) from rfl, hk, hins (by rw [e1]; exact hMne)]; rfl
  simp only [Tests, List.mem_cons, List.not_mem_nil, or_false] at ht
  rcases ht with h | h | h | h | h | h | h | h | h | h | h | h | h
  · exact file_case .A .A (by decide) rfl (by rw [h]) (by rw [h]) rfl rfl
  · exact file_case .B .B (by decide) rfl (by rw [h]) (by rw [h]) rfl rfl
  · exact file_case .C .C (by decide) rfl (by rw [h]) (by rw [h]) (by simp [keysFor, FileTest.key]) rfl
  · exact file_case .D .D (by decide) rfl (by rw [h]) (by rw [h]) rfl rfl
  · exact file_case .E .E (by decide) rfl (by rw [h]) (by rw [h]) rfl rfl
  · exact file_case .F .F (by decide) rfl (by rw [h]) (by rw [h]) rfl rfl
  · exact file_case .F .G (by decide) rfl (by rw [h]) (by rw [h]) rfl rfl
  · -- H
    have e1 : t.2.1 = .H := by rw [h]
    have e2 : t.2.2 = .H := by rw [h]
    have hw : genWords letters = ⟨(combos alphabets).map spell, .ok ()⟩ := by
      rw [letters_eq]; exact genWords_eq (by decide) (by decide)
    have hwl : ((combos alphabets).map spell).length = 262144 := by
      have := Props.C65_testH.2.1
      rw [hw] at this; exact this
    rw [e1, hashedBy, if_neg (by decide)] at hk
    rw [e2]
    unfold runFn
    dsimp only
    rw [hw]
    dsimp only
    rw [Go.bind_ok, hwl]
    rw [e1] at hnew
    rw [show newTable sys fl seed ((262144 : Nat) : Int) = .ok ht0 from hnew, Go.bind_ok, show (combos alphabets).map spell = pre ++ k :: ks from hk, hins (by rw [e1]; decide)]; rfl
  · -- I
    have e1 : t.2.1 = .I := by rw [h]
    have e2 : t.2.2 = .I := by rw [h]
    have hnn : n = if fl.dru = true then -st.n else st.n := by rw [hn, e1]; simp
    rw [e1, hashedBy, if_neg (by decide)] at hk
    rw [e2]
    unfold runFn
    dsimp only
    obtain ⟨bs, hI⟩ := testI_eq fl.ni
    rw [e1] at hnew
    rw [← hnn, show newTable sys fl seed n = .ok ht0 from hnew, Go.bind_ok, hI, Go.bind_ok]
    dsimp only
    rw [show (List.range fl.ni.toNat).map (leBytes 4) = pre ++ k :: ks from hk, hins (by rw [e1]; decide)]; rfl
  · -- J
    have e1 : t.2.1 = .J := by rw [h]
    have e2 : t.2.2 = .J := by rw [h]
    rw [e1, hashedBy, if_neg (by decide)] at hk
    rw [e2]
    unfold runFn
    dsimp only
    obtain ⟨bs, hI⟩ := testJ_eq 900
    rw [e1] at hnew
    rw [show newTable sys fl seed (900 * 8) = .ok ht0 from hnew, Go.bind_ok, hI, Go.bind_ok]
    dsimp only
    rw [show (List.range (8 * 900)).map (fun j => leBytes 900 (2 ^ j)) = pre ++ k :: ks from hk, hins (by rw [e1]; decide)]; rfl
  · exact absurd (by rw [h]) hK
  · -- L
    have e1 : t.2.1 = .L := by rw [h]
    have e2 : t.2.2 = .L := by rw [h]
    rw [e1, hashedBy, if_neg (by decide)] at hk
    rw [e2]
    unfold runFn
    dsimp only
    obtain ⟨bs, hI⟩ := testL_eq
    rw [e1] at hnew
    rw [show newTable sys fl seed (256 * 256 * 256) = .ok ht0 from hnew, Go.bind_ok, hI, Go.bind_ok]
    dsimp only
    obtain ⟨w', ht', hs', h1, h2, h3, h4, h5⟩ := insertL_stats (name := name) ht0.seed pre hh (htr' (by rw [e1]; decide)) [] st.w ht0 [] rfl (fine_new hnew) hst0
      (fun ho => by rw [hsz]; exact hroom (by rw [e1]; decide) ho)
    rw [show (List.range (256 * (256 * 256))).map (beBytes 3) = pre ++ k :: ks from hk, insertL_append, h1, Go.bind_ok]
    dsimp only
    rw [insertL, h4]
    have hb := fun w => insert1_broken (sys := sys) (name := name) (k := k) (e := err) w h5 h2 (by rw [h3, h4]; exact hbr1)
    rcases hbr1 with hb1 | hb1
    · rw [hb1]; rfl
    · obtain ⟨⟨r1, r2⟩, hr⟩ := hb1.1 w'
      rw [hr, Go.bind_ok]
      dsimp only
      rw [hb]; rfl
  · -- M
    have e1 : t.2.1 = .M := by rw [h]
    have e2 : t.2.2 = .M := by rw [h]
    have hnn : n = if fl.dru = true then -st.n else st.n := by rw [hn, e1]; simp
    obtain ⟨hn0, hn1⟩ := hM e1
    rw [e1] at hnew
    rw [e1, hashedBy, if_pos rfl] at hk
    have hpl : pre.length < fl.ni.toNat := by
      have := congrArg List.length hk
      simp at this; omega
    have hpk : ∀ i, i < pre.length → leBytes 4 i ∈ pre := by
      intro i hi
      have h1 : ((List.range fl.ni.toNat).map (leBytes 4))[i]? = pre[i]? := by rw [hk, List.getElem?_append_left hi]
      rw [List.getElem?_map, List.getElem?_range (by omega), Option.map_some] at h1
      exact List.mem_of_getElem? h1.symm
    have hkk : leBytes 4 pre.length = k := by
      have h1 : ((List.range fl.ni.toNat).map (leBytes 4))[pre.length]? = some k := by rw [hk, List.getElem?_append_right (Nat.le_refl _)]; simp
      rw [List.getElem?_map, List.getElem?_range hpl, Option.map_some] at h1
      exact Option.some.inj h1
    have hb : ∀ w, sys.hash w name (leBytes 4 pre.length) ht0.seed = .error err := by
      rcases hbr with hb | hb
      · rw [hsd, hkk]; exact hb
      · exact absurd e1 hb.2.1
    obtain ⟨N, rfl⟩ : ∃ N : Nat, n = N := ⟨n.toNat, by omega⟩
    obtain ⟨w', bs', hist', _, h1, _⟩ := modLoop_eq (sys := sys) (name := name) ht0.seed N (by omega) (by omega) pre.length 0 st.w (List.replicate 4 0#8)
      (List.replicate N 0) (by simp) (by simp) (fun i _ hi w => hh _ (hpk i (by omega)) w)
    rw [e2]
    unfold runFn
    dsimp only
    rw [← hnn, if_neg (by omega), show newTable sys fl seed (N : Int) = .ok ht0 from hnew, Go.bind_ok, Int.toNat_natCast, BitVec.ofInt_natCast,
      show fl.ni.toNat = pre.length + ((fl.ni.toNat - pre.length - 1) + 1) by omega, modLoop_append, h1, Go.bind_ok]
    dsimp only
    rw [Nat.zero_add, modLoop, ← leBytes4, hb]; rfl

theorem runK_broken {lines : Int} {file name : String} {ls : List (List U8)} {st : St ω} {err : Fault} (hp : PrimeSizes sys fl) (he : 0 ≤ fl.extra) (he' : fl.extra ≤ 11)
    (hlo : -(2 : Int) ^ 43 ≤ lines) (hf : GoodFile sys file ls) (hb : KPanics sys fl name ls err) : runFn sys fl name seed file lines st .K = .error err := by
  obtain ⟨ht0, hnew, hlen⟩ := newTable_ok sys fl seed lines hp he he' hlo
  obtain ⟨h0, hb⟩ := hb
  have hns : (BitVec.ofInt 64 fl.ns).toNat = ((fl.ns % 2 ^ 64).toNat - 1) + 1 := by
    rw [BitVec.toNat_ofInt]
    show (fl.ns % 2 ^ 64).toNat = _
    have : 0 ≤ fl.ns % 2 ^ 64 := Int.emod_nonneg _ (by decide)
    omega
  unfold runFn
  dsimp only
  rw [hnew, Go.bind_ok, hns, seedLoop, readGood hf]
  dsimp only
  rw [hashLines_broken (sys.rnd st.drawn) (err := err) (ls.map strip) ?_]
  · rfl
  · rcases hb with ⟨h1, h2⟩ | ⟨h1, before, l, after, rfl, h3, h4⟩
    · exact Or.inl ⟨by simpa using h1, h2 _⟩
    · refine Or.inr ⟨h1 _, before.map strip, strip l, after.map strip, by simp, fun x hx => ?_, h4⟩
      obtain ⟨y, hy, rfl⟩ := List.mem_map.1 hx
      exact h3 y hy

/-- A broken step panics. -/
theorem doStep_broken {st : St ω} {s : Step} {err : Fault} (hp : PrimeSizes sys fl) (he : 0 ≤ fl.extra) (he' : fl.extra ≤ 11)
    (hf : ∀ file f h, s = .test file f h → file ≠ "" → GoodFile sys file (content file)) (hb : Broken sys fl seed content (next fl st.n s) s err) :
    doStep sys fl seed content s st = ⟨[], .error err⟩ := by
  cases s with
  | test file f h =>
    obtain ⟨hrf, hI, hM, hb⟩ := hb
    by_cases hK : f = .K
    · rw [if_pos hK] at hb
      subst hK
      have hlo : -(2 : Int) ^ 43 ≤ linesFor fl file (content file) := size_lo (fl := fl) (content := content) hrf hI hM
      show runOne _ _ _ _ _ _ _ _ = _
      unfold runOne
      rw [show (entryOf .K).2.2 = .K from rfl, runK_broken hp he he' hlo (hf file .K h rfl (hrf rfl)) hb]
    rw [if_neg hK] at hb
    obtain ⟨pre, k, ks, hk, hh, htr, hroom, hbr⟩ := hb
    have hnx : next fl st.n (.test file f h) = if fl.dru = true ∧ (f = .I ∨ f = .M) then -st.n else st.n := rfl
    have hlo := size_lo (fl := fl) (content := content) hrf hI hM
    have := runFn_broken (sys := sys) (fl := fl) (seed := seed) (name := h) (file := file) (ls := content file) (st := st) (entryOf f) (entryOf_mem f).1
      (by rw [(entryOf_mem f).2]; exact hK) hp he he' (next fl st.n (.test file f h)) (by rw [(entryOf_mem f).2]; exact hnx) (by rw [(entryOf_mem f).2]; exact hlo) (by rw [(entryOf_mem f).2]; exact hM)
      (by rw [(entryOf_mem f).2]; exact fun hh => hf file f h rfl (hrf hh)) (by rw [(entryOf_mem f).2]; exact hk) hh (by rw [(entryOf_mem f).2]; exact htr)
      (by rw [(entryOf_mem f).2]; exact hroom) (by rw [(entryOf_mem f).2]; exact hbr)
    show runOne _ _ _ _ _ _ _ _ = _
    unfold runOne
    rw [this]
  | _ => exact hb.elim

/-- Runnable steps, then one that panics. -/
theorem forEach_stuck {st : St ω} {pre post : List Step} {s : Step} {P : Fault → Prop} (hp : PrimeSizes sys fl) (he : 0 ≤ fl.extra) (he' : fl.extra ≤ 11)
    (hf : ∀ file f h, .test file f h ∈ pre → file ≠ "" → GoodFile sys file (content file)) (hrd : ∀ file, .read file ∈ pre → file ≠ "" ∧ GoodFile sys file (content file))
    (hr : AllRunnable sys fl seed content st.n pre) (hb : ∀ st' : St ω, st'.n = last fl st.n pre → ∃ err, doStep sys fl seed content s st' = ⟨[], .error err⟩ ∧ P err) :
    ∃ es err, forEach (doStep sys fl seed content) (pre ++ s :: post) st = ⟨es, .error err⟩ ∧ Follows sys fl seed content st.n pre es ∧ P err := by
  have hd : Does sys fl seed content pre (forEach (doStep sys fl seed content) pre) := by
    have := does_forEach (sys := sys) (fl := fl) (seed := seed) (content := content) (fun s => [s]) (doStep sys fl seed content) pre fun s hs => by
      by_cases h : ∃ file, s = .read file
      · obtain ⟨file, rfl⟩ := h
        obtain ⟨h1, hgood⟩ := hrd file hs
        intro st _
        have hread := readGood hgood
        have h2 : 0 ≤ linesFor fl file (content file) := by
          unfold linesFor
          split
          · exact Int.natCast_nonneg _
          · next h3 => by_contra h4; exact h3 ⟨h1, by omega⟩
        obtain ⟨ht, hnew, hlen⟩ := newTable_ok sys fl seed (linesFor fl file (content file)) hp he he' (le_trans (by decide) h2)
        have hpos : 0 < ht.buckets.length := by rw [hlen]; exact room_pos hp he' (le_trans (by decide) h2)
        have htest0 : test0 sys fl seed file (linesFor fl file (content file)) = .ok ht := by
          unfold test0
          rw [hnew, Go.bind_ok, hread]
          rfl
        refine ⟨[.readOnly file ht], st, by unfold doStep; dsimp only; rw [htest0], ⟨_, [], rfl, ⟨ht, rfl, (HashTable.newHashTable_ok hnew).2.2.2.2.1, (HashTable.newHashTable_ok hnew).2.2.2.2.2.2.1, (HashTable.newHashTable_ok hnew).2.2.2.2.2.1, (HashTable.newHashTable_ok hnew).2.2.2.2.2.2.2.1, (HashTable.newHashTable_ok hnew).2.2.2.2.2.2.2.2.2.1, (HashTable.newHashTable_ok hnew).2.2.2.2.2.2.2.2.1, ?_⟩, rfl⟩, rfl⟩
        rw [(HashTable.newHashTable_ok hnew).1] at hlen ⊢
        rw [List.length_replicate] at hlen; rw [hlen]
      · exact doStep_does s hp he he' (fun file f h' e => hf file f h' (by rw [← e]; exact hs)) fun file e => h ⟨file, e⟩
    rw [flatMap_single, List.map_id'] at this
    exact this
  obtain ⟨es, st', h1, h2, h3⟩ := hd st hr
  obtain ⟨err, h4, h5⟩ := hb st' h3
  refine ⟨es, err, ?_, h2, h5⟩
  rw [forEach_append, h1]
  show (⟨es ++ (Tr.bind (doStep sys fl seed content s st') _).events, (Tr.bind (doStep sys fl seed content s st') _).out⟩ : Tr (St ω)) = _
  rw [h4]
  show (⟨es ++ [], _⟩ : Tr (St ω)) = _
  rw [List.append_nil]; rfl

/-- Runnable steps, then a broken one. -/
theorem forEach_broken {st : St ω} {pre post : List Step} {s : Step} {err : Fault} (hp : PrimeSizes sys fl) (he : 0 ≤ fl.extra) (he' : fl.extra ≤ 11)
    (hf : ∀ file f h, .test file f h ∈ pre ++ [s] → file ≠ "" → GoodFile sys file (content file)) (hrd : ∀ file, .read file ∈ pre → file ≠ "" ∧ GoodFile sys file (content file))
    (hr : AllRunnable sys fl seed content st.n pre) (hb : Broken sys fl seed content (next fl (last fl st.n pre) s) s err) :
    ∃ es, forEach (doStep sys fl seed content) (pre ++ s :: post) st = ⟨es, .error err⟩ ∧ Follows sys fl seed content st.n pre es := by
  obtain ⟨es, err', h1, h2, rfl⟩ := forEach_stuck (s := s) (post := post) (P := fun e => e = err) hp he he'
    (fun file f h hm => hf file f h (List.mem_append_left _ hm)) hrd hr fun st' h3 =>
      ⟨err, doStep_broken hp he he' (fun file f h e => hf file f h (by rw [e]; simp)) (by rw [h3]; exact hb), rfl⟩
  exact ⟨es, h1, h2⟩

/-- Test M panics unless `0 < n ≤ 2^45`. -/
theorem doStep_M {st : St ω} {file hash : String} (h0 : next fl st.n (.test file .M hash) ≤ 0 ∨ 2 ^ 45 < next fl st.n (.test file .M hash)) :
    ∃ err, doStep sys fl seed content (.test file .M hash) st = ⟨[], .error err⟩ ∧
      (next fl st.n (.test file .M hash) ≠ 0 → err = .explicit "makeslice: len out of range") := by
  have hnx : next fl st.n (.test file .M hash) = if fl.dru = true then -st.n else st.n := by simp [Spec.HtMain.next]
  rw [hnx] at h0 ⊢
  generalize hn : (if fl.dru = true then -st.n else st.n) = n at h0 ⊢
  have key : ∃ err, runFn sys fl hash seed file (linesFor fl file (content file)) st .M = .error err ∧ (n ≠ 0 → err = .explicit "makeslice: len out of range") := by
    unfold runFn
    dsimp only
    rw [hn]
    by_cases hz : n = 0
    · subst hz
      rw [if_neg (by decide)]
      cases h1 : newTable sys fl seed 0 with
      | error e => exact ⟨e, rfl, fun h => absurd rfl h⟩
      | ok ht =>
        rw [Go.bind_ok]
        cases h2 : modLoop sys hash ht.seed (BitVec.ofInt 64 0) 0 fl.ni.toNat st.w (List.replicate 4 0#8, List.replicate (0 : Int).toNat 0) with
        | error e => exact ⟨e, rfl, fun h => absurd rfl h⟩
        | ok r => exact ⟨.divZero, rfl, fun h => absurd rfl h⟩
    · rw [if_pos (by omega)]
      exact ⟨_, rfl, fun _ => rfl⟩
  obtain ⟨err, h1, h2⟩ := key
  refine ⟨err, ?_, h2⟩
  show runOne _ _ _ _ _ _ _ _ = _
  unfold runOne
  rw [show (entryOf .M).2.2 = .M from rfl, h1]

end

end Verif.Lemmas.HtMain
