import Verif.Props.HtMain
import Mathlib.NumberTheory.LucasPrimality
import Mathlib.Tactic.ReduceModChar
import Mathlib.Tactic.NormNum.Prime
import Mathlib.Data.Nat.Prime.Infinite

/-!
# C99, C106: every run ends as predicted; open addressing
-/

namespace Verif.Props
open Verif Verif.Spec.HtMain Verif.Spec.HashTable Verif.Spec.Ht Verif.Model.HtMain Verif.Lemmas.HtMain
open Verif.HashTable (HT)

section
variable {ω : Type} (sys : Sys ω) (fl : Flags) (w : ω)

/-- The first key of a list that cannot be inserted, if there is one. -/
theorem first_stuck {name : String} (hd : Decided sys name) (seed : U64) (m : Nat) (ks : List (List U8)) : ∀ (done : List (List U8)),
    Hashes sys name seed done → (fl.trace = true → ∀ x ∈ done, 4 ≤ x.length) → (fl.oa = true → done.length ≤ m) →
    (Hashes sys name seed (done ++ ks) ∧ (fl.trace = true → ∀ x ∈ done ++ ks, 4 ≤ x.length) ∧ (fl.oa = true → (done ++ ks).length ≤ m)) ∨
      ∃ before k after err, done ++ ks = before ++ k :: after ∧ Hashes sys name seed before ∧ (fl.trace = true → ∀ x ∈ before, 4 ≤ x.length) ∧
        (fl.oa = true → before.length ≤ m) ∧ Stuck sys fl name seed m before k err := by
  induction ks with
  | nil => intro done h1 h2 h3; left; rw [List.append_nil]; exact ⟨h1, h2, h3⟩
  | cons k ks ih =>
    intro done h1 h2 h3
    have hd' : (∀ w, ∃ r, sys.hash w name k seed = .ok r) ∨ ∃ e, ∀ w, sys.hash w name k seed = .error e :=
      (hd k).imp (fun h => h seed) (fun ⟨e, h⟩ => ⟨e, h seed⟩)
    rcases hd' with hk | ⟨e, hk⟩
    · by_cases ht : fl.trace = true ∧ k.length < 4
      · right
        exact ⟨done, k, ks, .index, rfl, h1, h2, h3, Or.inr ⟨hk, Or.inl ⟨ht.1, ht.2, rfl⟩⟩⟩
      · by_cases hf : fl.oa = true ∧ done.length = m
        · right
          exact ⟨done, k, ks, _, rfl, h1, h2, h3, Or.inr ⟨hk, Or.inr ⟨fun h => by by_contra h'; exact ht ⟨h, by omega⟩, hf.1, hf.2, rfl⟩⟩⟩
        · have := ih (done ++ [k]) ?_ ?_ ?_
          · rw [List.append_assoc] at this
            exact this
          · intro x hx
            rcases List.mem_append.1 hx with hx | hx
            · exact h1 x hx
            · rw [List.mem_singleton.1 hx]; exact hk
          · intro h x hx
            rcases List.mem_append.1 hx with hx | hx
            · exact h2 h x hx
            · rw [List.mem_singleton.1 hx]; by_contra h'; exact ht ⟨h, by omega⟩
          · intro h
            have := h3 h
            rw [List.length_append, List.length_singleton]
            rcases Nat.lt_or_ge done.length m with h' | h'
            · omega
            · exact absurd ⟨h, by omega⟩ hf
    · right
      exact ⟨done, k, ks, e, rfl, h1, h2, h3, Or.inl hk⟩

/-- The first line that cannot be decoded, if there is one. -/
theorem first_bad (ls : List (List U8)) : (∀ l ∈ ls, hexFault (strip l) = none) ∨
    ∃ before l after e, ls = before ++ l :: after ∧ (∀ x ∈ before, hexFault (strip x) = none) ∧ hexFault (strip l) = some e := by
  induction ls with
  | nil => left; exact fun l hl => nomatch hl
  | cons x ls ih =>
    cases hx : hexFault (strip x) with
    | some e => right; exact ⟨[], x, ls, e, rfl, fun y hy => (nomatch hy), hx⟩
    | none =>
      rcases ih with h | ⟨before, l, after, e, h1, h2, h3⟩
      · left
        intro l hl
        rcases List.mem_cons.1 hl with rfl | hl
        · exact hx
        · exact h l hl
      · right
        refine ⟨x :: before, l, after, e, by rw [h1]; rfl, fun y hy => ?_, h3⟩
        rcases List.mem_cons.1 hy with rfl | hy
        · exact hx
        · exact h2 y hy

/-- C99. A step that can be run, with a hash that panics or not depending on the key, either goes through or panics at a certain key
in a certain way. -/
theorem C99_dichotomy (seed n : Int) (content : String → List (List U8)) (s : Step) (hp : Possible n s)
    (hd : ∀ file f hash, s = .test file f hash → Decided sys hash) :
    Runnable sys fl seed content n s ∨ ∃ err, Broken sys fl seed content n s err := by
  cases s with
  | test file f hash =>
    obtain ⟨h2, h3, h4⟩ := hp
    replace hd := hd file f hash rfl
    by_cases hK : f = .K
    · subst hK
      have hkeys : hashedBy (content file) fl.ni .K = [] := rfl
      by_cases h0 : fl.ns % 2 ^ 64 = 0
      · left
        exact ⟨fun _ => Or.inl h0, h2, h3, h4, fun k hk => (nomatch hk), fun _ k hk => (nomatch hk), fun _ => Nat.zero_le _⟩
      by_cases h1 : content file = []
      · left
        exact ⟨fun _ => Or.inr (Or.inl h1), h2, h3, h4, fun k hk => (nomatch hk), fun _ k hk => (nomatch hk), fun _ => Nat.zero_le _⟩
      rcases hd zeroKey with hz | ⟨e, hz⟩
      · have hz' : ∀ s, Hashes sys hash s [zeroKey] := fun s k hk => by rw [List.mem_singleton.1 hk]; exact hz s
        rcases first_bad (content file) with hb | ⟨before, l, after, e, b1, b2, b3⟩
        · left
          exact ⟨fun _ => Or.inr (Or.inr ⟨hz', hb⟩), h2, h3, h4, fun k hk => (nomatch hk), fun _ k hk => (nomatch hk), fun _ => Nat.zero_le _⟩
        · right
          refine ⟨e, h2, h3, h4, ?_⟩
          rw [if_pos rfl]
          exact ⟨h0, Or.inr ⟨hz', before, l, after, b1, b2, b3⟩⟩
      · right
        refine ⟨e, h2, h3, h4, ?_⟩
        rw [if_pos rfl]
        exact ⟨h0, Or.inl ⟨h1, hz⟩⟩
    by_cases hM : f = .M
    · have hk : keysFor (content file) fl.ni f = [] := by rw [hM]; rfl
      have hfs := first_stuck sys { fl with trace := false, oa := false } hd (BitVec.ofInt 64 seed) 0 (hashedBy (content file) fl.ni f) []
        (fun x hx => (nomatch hx)) (fun h => (nomatch h)) (fun h => (nomatch h))
      rw [List.nil_append] at hfs
      rcases hfs with ⟨a, _, _⟩ | ⟨before, k, after, err, b1, b2, _, _, b5⟩
      · left
        refine ⟨fun h => absurd h hK, h2, h3, h4, a, fun _ x hx => ?_, fun _ => ?_⟩
        · rw [hk] at hx; exact nomatch hx
        · rw [hk]; exact Nat.zero_le _
      · right
        refine ⟨err, h2, h3, h4, ?_⟩
        rw [if_neg hK]
        refine ⟨before, k, after, b1, b2, fun h => absurd hM h, fun h => absurd hM h, Or.inl ?_⟩
        rcases b5 with b5 | ⟨_, ⟨h, _⟩ | ⟨_, h, _⟩⟩
        · exact b5
        · exact nomatch h
        · exact nomatch h
    · have hk : hashedBy (content file) fl.ni f = keysFor (content file) fl.ni f := if_neg hM
      have hfs := first_stuck sys fl hd (BitVec.ofInt 64 seed) (room sys fl (sizeFor (linesFor fl file (content file)) n f))
        (hashedBy (content file) fl.ni f) [] (fun x hx => (nomatch hx)) (fun _ x hx => (nomatch hx)) (fun _ => Nat.zero_le _)
      rw [List.nil_append] at hfs
      rcases hfs with ⟨a, b, c⟩ | ⟨before, k, after, err, b1, b2, b3, b4, b5⟩
      · left
        rw [hk] at b c
        exact ⟨fun h => absurd h hK, h2, h3, h4, a, b, c⟩
      · right
        refine ⟨err, h2, h3, h4, ?_⟩
        rw [if_neg hK]
        refine ⟨before, k, after, b1, b2, fun _ => b3, fun _ => b4, ?_⟩
        rcases b5 with b5 | ⟨b5, b6⟩
        · exact Or.inl b5
        · exact Or.inr ⟨b5, hM, b6⟩
  | _ => left; trivial

/-- Of a list of steps that can be run either all go through, or all before the first that panics. -/
theorem first_broken (seed : Int) (content : String → List (List U8)) (l : List Step) (hd : ∀ file f hash, .test file f hash ∈ l → Decided sys hash) :
    ∀ n, AllPossible fl n l → AllRunnable sys fl seed content n l ∨
      ∃ pre s post err, l = pre ++ s :: post ∧ AllRunnable sys fl seed content n pre ∧ Broken sys fl seed content (next fl (pre.foldl (next fl) n) s) s err := by
  induction l with
  | nil => intro n _; left; trivial
  | cons s l ih =>
    intro n hp
    rcases C99_dichotomy sys fl seed (next fl n s) content s hp.1 (fun file f hash e => hd file f hash (by rw [e]; simp)) with h | ⟨err, h⟩
    · rcases ih (fun file f hash hm => hd file f hash (List.mem_cons_of_mem _ hm)) _ hp.2 with h' | ⟨pre, s', post, err, h1, h2, h3⟩
      · left; exact ⟨h, h'⟩
      · right
        exact ⟨s :: pre, s', post, err, by rw [h1]; rfl, ⟨h, h2⟩, h3⟩
    · right
      exact ⟨[], s, l, err, rfl, trivial, h⟩

/-- C99. So the outcome of the program is determined: it completes the plan with the results described, or it completes the steps before
the first one with a key that cannot be hashed, traced or stored, and ends with the panic of that key. -/
theorem C99_total (hcr : ∀ b, sys.cr = some b → b.length = 8) (seed : Int) (hs : seedFor sys fl = some seed) (content : String → List (List U8))
    (hp : PrimeSizes sys fl) (he : 0 ≤ fl.extra) (he' : fl.extra ≤ 11) (hfile : ∀ file ∈ filesOf fl, file ≠ "" → GoodFile sys file (content file))
    (hd : ∀ hash ∈ chosen fl, Decided sys hash) (hpos : AllPossible fl fl.n (plan fl)) :
    ∃ es, (Follows sys fl seed content fl.n (plan fl) es ∧ ∃ st, main sys fl w = ⟨es, .ok st⟩) ∨
      ∃ pre s post err, plan fl = pre ++ s :: post ∧ Follows sys fl seed content fl.n pre es ∧
        Broken sys fl seed content (next fl (pre.foldl (next fl) fl.n) s) s err ∧ main sys fl w = ⟨es, .error err⟩ := by
  have htest : ∀ file f hash, .test file f hash ∈ plan fl → fl.sm = false ∧ fl.b = false ∧ fl.hcb = false ∧ hash ∈ chosen fl := by
    intro file f hash hm
    unfold plan at hm
    split at hm
    · split at hm <;> simp at hm
    · next hsm =>
      split at hm
      · split at hm
        · simp at hm
        · split at hm <;> simp at hm
      · next hb =>
        obtain ⟨v, hv, hm⟩ := List.mem_flatMap.1 hm
        rcases List.mem_append.1 hm with h1 | h1
        · split at h1 <;> simp at h1
        · obtain ⟨g, _, h1⟩ := List.mem_flatMap.1 h1
          obtain ⟨x, hx, h1⟩ := List.mem_map.1 h1
          cases h1
          rw [not_or] at hb
          exact ⟨by simpa using hsm, by simpa using hb.1, by simpa using hb.2, hx⟩
  rcases first_broken sys fl seed content (plan fl) (fun file f hash hm => hd hash (htest file f hash hm).2.2.2) fl.n hpos with h | ⟨pre, s, post, err, h1, h2, h3⟩
  · obtain ⟨es, st, a, b⟩ := C99_results sys fl w hcr seed hs content hp he he' hfile h
    exact ⟨es, Or.inl ⟨b, st, a⟩⟩
  · have hsm : fl.sm = false ∧ fl.b = false ∧ fl.hcb = false := by
      cases s with
      | test file f hash =>
        obtain ⟨a, b, c, _⟩ := htest file f hash (by rw [h1]; simp)
        exact ⟨a, b, c⟩
      | _ => exact h3.elim
    obtain ⟨es, a, b⟩ := C99_first_panic sys fl w hcr seed hs content hsm.1 hsm.2.1 hsm.2.2 hp he he' hfile pre post s err h1 h2 h3
    exact ⟨es, Or.inr ⟨pre, s, post, err, h1, b, h3, a⟩⟩

/-! ## C106: open addressing -/

/-- A table asked to hold fewer than 2^32 keys has room for them. -/
theorem slots_ge (extra : Nat) (size : Int) (h0 : 0 ≤ size) (h : size < 2 ^ 32) : size.toNat ≤ slots extra size := by
  unfold slots
  rw [if_neg (by omega), Nat.mod_eq_of_lt (by omega), Nat.pow_add]
  refine Nat.le_trans ?_ (Nat.le_mul_of_pos_right _ (Nat.two_pow_pos _))
  split
  · omega
  · exact Nat.le_pow_clog (by decide) _

theorem room_ge (hp : PrimeSizes sys fl) (he' : fl.extra ≤ 11) (size : Int) (h0 : 0 ≤ size) (h : size < 2 ^ 32) : size.toNat ≤ room sys fl size := by
  have h1 := slots_ge fl.extra.toNat size h0 h
  unfold room
  split
  · next hb =>
    have := (hp hb _ slots_pos (slots_le (extra := fl.extra.toNat) (size := size) (by omega) (by omega))).1
    omega
  · exact h1

/-- C106. Which runs fit into an open-addressing table: those of tests H, J, L and M always; those of tests A-G if the lines were counted,
or if the number given is not less than the number of lines; test I exactly if `ni` is at most the number of slots made for `n`. -/
theorem C106_fits (hp : PrimeSizes sys fl) (he' : fl.extra ≤ 11) (content : String → List (List U8)) (file : String) (n : Int) (f : Flag) :
    (f ∈ [.H, .J, .L, .M] → (keysFor (content file) fl.ni f).length ≤ room sys fl (sizeFor (linesFor fl file (content file)) n f)) ∧
    (f ∈ [.A, .B, .C, .D, .E, .F, .G] → (content file).length < 2 ^ 32 → fl.lines < 2 ^ 32 → ((file ≠ "" ∧ fl.lines ≤ 0) ∨ ((content file).length : Int) ≤ fl.lines) →
      (keysFor (content file) fl.ni f).length ≤ room sys fl (sizeFor (linesFor fl file (content file)) n f)) ∧
    (f = .I → ((keysFor (content file) fl.ni f).length ≤ room sys fl (sizeFor (linesFor fl file (content file)) n f) ↔ fl.ni.toNat ≤ room sys fl n)) := by
  refine ⟨fun h => ?_, fun h hl hl2 hc => ?_, fun h => ?_⟩
  · simp only [List.mem_cons, List.not_mem_nil, or_false] at h
    rcases h with rfl | rfl | rfl | rfl
    · have hl : (keysFor (content file) fl.ni .H).length = 262144 := by
        show ((combos alphabets).map spell).length = _
        have hw : Model.Ht.genWords Model.Ht.letters = ⟨(combos alphabets).map spell, .ok ()⟩ := by
          rw [letters_eq]; exact Lemmas.Ht.genWords_eq (by decide) (by decide)
        have := Props.C65_testH.2.1
        rw [hw] at this; exact this
      rw [hl]
      exact room_ge sys fl hp he' 262144 (by decide) (by decide)
    · have hl : (keysFor (content file) fl.ni .J).length = 7200 := by
        unfold keysFor
        rw [List.length_map, List.length_range]
      rw [hl]
      exact room_ge sys fl hp he' 7200 (by decide) (by decide)
    · have hl : (keysFor (content file) fl.ni .L).length = (16777216 : Int).toNat := by
        unfold keysFor
        rw [List.length_map, List.length_range]; decide
      rw [hl]
      exact room_ge sys fl hp he' 16777216 (by decide) (by decide)
    · exact Nat.zero_le _
  · have hlen : (keysFor (content file) fl.ni f).length = (content file).length := by
      simp only [List.mem_cons, List.not_mem_nil, or_false] at h
      rcases h with rfl | rfl | rfl | rfl | rfl | rfl | rfl <;> exact List.length_map _
    have hs : sizeFor (linesFor fl file (content file)) n f = linesFor fl file (content file) := by
      simp only [List.mem_cons, List.not_mem_nil, or_false] at h
      rcases h with rfl | rfl | rfl | rfl | rfl | rfl | rfl <;> rfl
    rw [hlen, hs]
    unfold linesFor
    split
    · exact room_ge sys fl hp he' ((content file).length : Int) (by omega) (by omega)
    · next h1 =>
      rcases hc with hc | hc
      · exact absurd hc h1
      · exact Nat.le_trans (by omega) (room_ge sys fl hp he' fl.lines (by omega) hl2)
  · subst h
    show ((List.range fl.ni.toNat).map _).length ≤ _ ↔ _
    rw [List.length_map, List.length_range]; rfl

/-- C106. Test I with more integers than slots panics with `Add: pass` when the table is full, if the hash has a value for the integers. -/
theorem C106_overflow (seed n : Int) (content : String → List (List U8)) (file hash : String) (hn : -(2 : Int) ^ 43 ≤ n) (ho : fl.oa = true)
    (hh : ∀ i w, ∃ r, sys.hash w hash (leBytes 4 i) (BitVec.ofInt 64 seed) = .ok r) (hlt : room sys fl n < fl.ni.toNat) :
    Broken sys fl seed content n (.test file .I hash) (.explicit "Add: pass") := by
  refine ⟨(fun h => (nomatch h)), fun _ => hn, (fun h => (nomatch h)), ?_⟩
  rw [if_neg (by decide)]
  refine ⟨(List.range (room sys fl n)).map (leBytes 4), leBytes 4 (room sys fl n),
    (List.range' (room sys fl n + 1) (fl.ni.toNat - room sys fl n - 1)).map (leBytes 4), ?_, ?_, ?_, ?_, Or.inr ⟨fun w => hh _ w, by decide, Or.inr ⟨?_, ho, ?_, rfl⟩⟩⟩
  · rw [hashedBy, if_neg (by decide)]
    show (List.range fl.ni.toNat).map (leBytes 4) = _
    generalize room sys fl n = m at hlt ⊢
    rw [← List.map_cons, ← List.map_append, ← List.range'_succ, List.range_eq_range', List.range_eq_range']
    have h := List.range'_append_1 (s := 0) (m := m) (n := fl.ni.toNat - m - 1 + 1)
    rw [Nat.zero_add] at h
    rw [h]
    congr 2; omega
  · intro k hk w'
    obtain ⟨i, _, rfl⟩ := List.mem_map.1 hk
    exact hh i w'
  · intro _ _ k hk
    obtain ⟨i, _, rfl⟩ := List.mem_map.1 hk
    exact Nat.le_of_eq (leBytes_length 4 i).symm
  · intro _ _
    rw [List.length_map, List.length_range]; exact Nat.le_refl _
  · intro _; exact Nat.le_of_eq (leBytes_length 4 _).symm
  · rw [List.length_map, List.length_range]; rfl

end

section hashf
open Verif.Spec.Hashf (Ok resultAfter outcome names counters)
variable (e : Model.Hashf.Ext) (he : Ok e) (nextPrime : Int → Int) (files : String → Option Model.Ht.File) (rnd : Nat → U64) (cr : Option (List U8))
include he

/-- C99. The hash functions of package hashf are as `C99_total` needs them, under every name. -/
theorem C99_hashf_decided (name : String) : Decided (hashfSys e nextPrime files rnd cr) name := by
  intro k
  have hres : ∀ hist s, (hashfSys e nextPrime files rnd cr).hash hist name k s = (resultAfter e hist name k s).map fun h => (h, hist ++ [(name, k, s)]) := fun _ _ => rfl
  by_cases hn : name ∈ names
  · by_cases hs : tooShort name k
    · exact Or.inr ⟨.index, fun s hist => by rw [hres, (C78_short_key e he hist name k s hn).1 hs]; rfl⟩
    · refine Or.inl fun s hist => ?_
      obtain ⟨v, hv⟩ := (C78_short_key e he hist name k s hn).2 hs
      exact ⟨(v, hist ++ [(name, k, s)]), by rw [hres, hv]; rfl⟩
  · exact Or.inr ⟨.explicit "hashf", fun s hist => by rw [hres, (C78_unknown_name e he hist name k s).2 hn]; rfl⟩

end hashf

/-- The hypotheses of `C99_total` are met by the run of `C99_results`, those of `C106_overflow` by a run with open addressing. -/
example : (∀ name, Decided exampleSys name) ∧ AllPossible exampleFlags exampleFlags.n (plan exampleFlags) ∧
    slots { exampleFlags with oa := true, ni := 9 }.extra.toNat 5 < ({ exampleFlags with oa := true, ni := 9 } : Flags).ni.toNat := by
  refine ⟨fun name k => Or.inl fun s w => ⟨_, rfl⟩, ?_, ?_⟩
  · rw [show plan exampleFlags = [.read "words", .test "words" .A "j332c", .test "words" .I "j332c", .test "words" .M "j332c"] by decide]
    exact ⟨trivial, ⟨by decide, by decide, by decide⟩, ⟨by decide, by decide, by decide⟩, ⟨by decide, by decide, by decide⟩, trivial⟩
  · decide

/-! ## C99: tables of prime size -/

/-- A prime beyond every table size. -/
theorem bigPrime : Nat.Prime 10479720202241 := by
  refine lucas_primality 10479720202241 (3 : ZMod 10479720202241) ?_ ?_
  · norm_num; reduce_mod_char
  · intro q hq hd
    have hd' : q ∣ 2 ^ 35 * 305 := by norm_num at hd ⊢; exact hd
    have : q = 2 ∨ q = 5 ∨ q = 61 := by
      rcases (Nat.Prime.dvd_mul hq).1 hd' with h | h
      · exact Or.inl ((Nat.prime_dvd_prime_iff_eq hq Nat.prime_two).1 (hq.dvd_of_dvd_pow h))
      · rw [show (305 : ℕ) = 5 * 61 by rfl] at h
        rcases (Nat.Prime.dvd_mul hq).1 h with h | h
        · exact Or.inr (Or.inl ((Nat.prime_dvd_prime_iff_eq hq (by norm_num)).1 h))
        · exact Or.inr (Or.inr ((Nat.prime_dvd_prime_iff_eq hq (by norm_num)).1 h))
    rcases this with rfl | rfl | rfl
    · norm_num; reduce_mod_char; decide
    · norm_num; reduce_mod_char; decide
    · norm_num; reduce_mod_char; decide

/-- C99. The least prime that is not less than its argument is a `NextPrime` as `C99_results`, `C99_total` and `C106_fits` need it. -/
theorem C99_next_prime {ω : Type} (sys : Sys ω) (fl : Flags) (h : ∀ m : Nat, ∃ q : Nat, sys.nextPrime m = q ∧ IsLeast {q | Nat.Prime q ∧ m ≤ q} q) : PrimeSizes sys fl := by
  intro _ m _ hm
  obtain ⟨q, h1, h2, h3⟩ := h m
  have h4 : q ≤ 10479720202241 := h3 ⟨bigPrime, Nat.le_trans hm (by decide)⟩
  rw [h1]
  exact ⟨by exact_mod_cast h2.2, by omega⟩

/-- There is such a function. -/
noncomputable def leastPrime (x : Int) : Int := (Nat.find (Nat.exists_infinite_primes x.toNat) : Nat)

/-- So `C99_results` holds with `-p`, for the run of the example above. -/
example : PrimeSizes { exampleSys with nextPrime := leastPrime } { exampleFlags with prime := true } :=
  C99_next_prime _ _ fun m => ⟨_, rfl, by
    have h := Nat.find_spec (Nat.exists_infinite_primes (m : Int).toNat)
    change IsLeast {q | Nat.Prime q ∧ (m : Int).toNat ≤ q} _
    exact ⟨⟨h.2, h.1⟩, fun q hq => Nat.find_min' _ ⟨hq.2, hq.1⟩⟩⟩

end Verif.Props
