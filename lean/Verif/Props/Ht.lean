import Verif.Lemmas.Ht
import Verif.Props.HashTable
import Mathlib.Data.List.Sort
import Mathlib.Data.List.Dedup

/-! Properties C65-C70 and C82-C84: the test program ht.go. -/

namespace Verif.Props
open Verif Verif.Model.Ht Verif.Spec.Ht Verif.Lemmas.Ht
open Verif.HashTable (pureEnv)
open Verif.Spec.HashTable (homeOf)

/-! ## C65 -/

/-- `genWords` calls its callback with the spelling of every choice of one letter per string, first position fastest, and
returns. -/
theorem C65_enumerates (perms : List (List U8)) (hne : perms ≠ []) (h : ∀ p ∈ perms, p ≠ []) :
    (genWords perms).out = .ok () ∧ (genWords perms).calls = (combos perms).map spell ∧
    (∀ w, w ∈ combos perms ↔ List.Forall₂ (· ∈ ·) w perms) ∧ (combos perms).length = (perms.map List.length).prod := by
  rw [genWords_eq hne h]
  exact ⟨rfl, rfl, mem_combos perms, length_combos perms⟩

/-- For ASCII strings the words are the choices themselves. -/
theorem C65_ascii (perms : List (List U8)) (hne : perms ≠ []) (h : ∀ p ∈ perms, p ≠ []) (ha : ∀ p ∈ perms, ascii p) :
    (genWords perms).calls = combos perms := by
  rw [genWords_eq hne h]
  have : ∀ w ∈ combos perms, spell w = id w := by
    intro w hw
    apply spell_ascii
    have hf := (mem_combos perms w).1 hw
    intro b hb
    clear hw h hne
    induction hf with
    | nil => simp at hb
    | cons hc _ ih =>
      rcases List.mem_cons.1 hb with rfl | hb
      · exact ha _ (by simp) _ hc
      · exact ih (fun p hp => ha p (List.mem_cons_of_mem _ hp)) hb
  show (combos perms).map spell = _
  rw [List.map_congr_left this, List.map_id]

/-- C65 at work: the alphabets "ab" and "c" give "ac", "bc". -/
example : (genWords [[97, 98], [99]]).calls = [[97, 99], [98, 99]] := (C65_ascii [[97, 98], [99]] (by decide) (by decide) (by unfold ascii; decide)).trans (by decide)

/-- When no string repeats a letter, no word is delivered twice. -/
theorem C65_distinct (perms : List (List U8)) (hne : perms ≠ []) (h : ∀ p ∈ perms, p ≠ []) (hd : ∀ p ∈ perms, p.Nodup) :
    (genWords perms).calls.Nodup := by
  rw [genWords_eq hne h]
  exact (nodup_combos hd).map spell_inj

/-- The excluded inputs panic: an empty list after one call with the empty word, an empty string before any call. -/
theorem C65_excluded :
    (genWords [] = ⟨[[]], .error .index⟩) ∧
    (∀ perms : List (List U8), [] ∈ perms → genWords perms = ⟨[], .error .index⟩) := by
  refine ⟨rfl, fun perms h => ?_⟩
  unfold genWords genLoop
  rw [word_empty_string h _ _ (Nat.le_refl _) (by simp) (by intro i hi; exact List.eq_of_mem_replicate hi)]

/-- TestH: 262144 different words. -/
theorem C65_testH : (genWords letters).out = .ok () ∧ (genWords letters).calls.length = 262144 ∧ (genWords letters).calls.Nodup := by
  have hne : letters ≠ [] := by decide
  have h : ∀ p ∈ letters, p ≠ [] := by decide
  have hd : ∀ p ∈ letters, p.Nodup := by decide
  obtain ⟨h1, h2, _, h4⟩ := C65_enumerates letters hne h
  refine ⟨h1, ?_, C65_distinct letters hne h hd⟩
  rw [h2, List.length_map, h4]; decide

example : genWords [[97, 98], [99, 100]] = ⟨[[97, 99], [98, 99], [97, 100], [98, 100]], .ok ()⟩ := by rw [genWords_eq (by simp) (by simp)]; rfl

/-! ## C66 -/

/-- `reverse` spells the reversed string, reading each byte as a code point. -/
theorem C66_reverse (s : List U8) : reverse s = s.reverse.flatMap utf8 := reverse_eq s

theorem C66_ascii (s : List U8) (h : ascii s) : reverse s = s.reverse := by
  rw [reverse_eq, spell_ascii]; intro b hb; exact h b (List.mem_reverse.1 hb)

/-- Exactly the ASCII strings are reversed correctly; any other string grows. -/
theorem C66_reverses_iff (s : List U8) : reverse s = s.reverse ↔ ascii s := by
  refine ⟨fun h => ?_, C66_ascii s⟩
  have key : ∀ w : List U8, (spell w).length = w.length → ascii w := by
    have le : ∀ w : List U8, w.length ≤ (spell w).length := by
      intro w
      induction w with
      | nil => simp
      | cons b w ih =>
        rw [spell_cons, List.length_append, List.length_cons]
        have := List.length_pos_iff.2 (utf8_ne b)
        omega
    intro w
    induction w with
    | nil => intro _ b hb; simp at hb
    | cons b w ih =>
      intro hl c hc
      rw [spell_cons, List.length_append, List.length_cons] at hl
      have h1 := List.length_pos_iff.2 (utf8_ne b)
      have h2 := le w
      rcases List.mem_cons.1 hc with rfl | hc
      · unfold utf8 at hl
        split at hl
        · assumption
        · simp at hl; omega
      · exact ih (by omega) c hc
  rw [reverse_eq] at h
  have := key s.reverse (by rw [h])
  intro b hb; exact this b (List.mem_reverse.2 hb)

theorem C66_injective : Function.Injective reverse := by
  intro s t h
  rw [reverse_eq, reverse_eq] at h
  exact List.reverse_injective (spell_inj h)

/-- The expected byte reversal fails: "é" in Latin-1 becomes two bytes. -/
theorem C66_violated : reverse [0xE9] = [0xC3, 0xA9] := by decide

/-! ## C67 -/

/-- Every string: too long, odd, with a bad digit, or decoded digit by digit. -/
theorem C67_total (s : List U8) :
    (2002 ≤ s.length → hexToBytes s = .error .slice) ∧
    (s.length < 2002 → s.length % 2 = 1 → hexToBytes s = .error (.explicit "gethex: string must be even")) ∧
    (s.length < 2002 → s.length % 2 = 0 → (∃ c ∈ s, digit c = none) → hexToBytes s = .error (.explicit "unhex: bad input")) ∧
    (s.length < 2002 → s.length % 2 = 0 → (∀ c ∈ s, digit c ≠ none) → ∃ r, hexToBytes s = .ok r ∧ s.length = 2 * r.length ∧
      ∀ i, i < r.length → ∃ a b, digit (s.getD (2 * i) 0) = some a ∧ digit (s.getD (2 * i + 1) 0) = some b ∧
        r[i]? = some (BitVec.ofNat 8 (16 * a + b))) := by
  unfold hexToBytes
  refine ⟨fun h => ?_, fun h h2 => ?_, fun h h2 hb => ?_, fun h h2 hd => ?_⟩
  · rw [if_neg (by omega)]
  · rw [if_pos (by omega), if_pos h2]; rfl
  · rw [if_pos (by omega), if_neg (by omega)]
    obtain ⟨c, hc, hn⟩ := hb
    obtain ⟨j, hj, rfl⟩ := List.mem_iff_getElem.1 hc
    exact hexLoop_bad h2 0 (s.length / 2) _ (by omega) (by simp)
      ⟨j, by omega, hj, by rw [List.getD_eq_getElem?_getD, List.getElem?_eq_getElem hj]; exact hn⟩
  · rw [if_pos (by omega), if_neg (by omega)]
    obtain ⟨r, h3, h4, _, h5⟩ := hexLoop_ok h2 hd 0 (s.length / 2) (List.replicate (s.length / 2) 0#8) (by omega) (by simp)
    rw [List.length_replicate] at h4
    exact ⟨r, h3, by omega, fun i hi => h5 i (by omega) (by omega)⟩

theorem digit_hexChar (upper : Bool) (n : Nat) (hn : n < 16) : digit (hexChar upper n) = some n := by
  have : ∀ u : Bool, ∀ n : Fin 16, digit (hexChar u n.val) = some n.val := by decide +kernel
  exact this upper ⟨n, hn⟩

theorem hex_getD (upper : Bool) (b : List U8) (i : Nat) (hi : i < b.length) :
    (hex upper b).getD (2 * i) 0 = hexChar upper (b[i].toNat / 16) ∧ (hex upper b).getD (2 * i + 1) 0 = hexChar upper (b[i].toNat % 16) := by
  induction b generalizing i with
  | nil => simp at hi
  | cons x b ih =>
    cases i with
    | zero => exact ⟨rfl, rfl⟩
    | succ i => exact ih i (by simpa using hi)

theorem hex_length (upper : Bool) (b : List U8) : (hex upper b).length = 2 * b.length := by
  induction b with
  | nil => rfl
  | cons x b ih => simp [hex] at ih ⊢; omega

/-- `hexToBytes` inverts lower- and upper-case hexadecimal encoding up to 1000 bytes. -/
theorem C67_roundtrip (upper : Bool) (b : List U8) (hb : b.length ≤ 1000) : hexToBytes (hex upper b) = .ok b := by
  have hl := hex_length upper b
  obtain ⟨r, h1, h2, h3⟩ := (C67_total (hex upper b)).2.2.2 (by omega) (by omega) (by
    intro c hc
    simp only [hex, List.mem_flatMap, List.mem_cons, List.not_mem_nil, or_false] at hc
    obtain ⟨x, _, hx⟩ := hc
    have := x.isLt
    rcases hx with rfl | rfl <;> rw [digit_hexChar _ _ (by omega)] <;> simp)
  rw [h1]
  congr 1
  apply List.ext_getElem? 
  intro i
  rcases Nat.lt_or_ge i r.length with hi | hi
  · obtain ⟨a, c, ha, hc, hr⟩ := h3 i hi
    have hib : i < b.length := by omega
    obtain ⟨g1, g2⟩ := hex_getD upper b i hib
    have := b[i].isLt
    rw [g1, digit_hexChar _ _ (by omega)] at ha
    rw [g2, digit_hexChar _ _ (by omega)] at hc
    rw [hr, List.getElem?_eq_getElem hib]
    simp only [Option.some.injEq] at ha hc ⊢
    rw [← ha, ← hc, Nat.div_add_mod]
    simp
  · rw [List.getElem?_eq_none hi, List.getElem?_eq_none (by omega)]

example : hexToBytes [0x64, 0x45, 0x30, 0x31] = .ok [0xDE, 0x01] := by decide

/-! ## C68 -/

/-- What `ReadFile` does with a file: `ls` are its newline-terminated lines, `rest` the unterminated rest. -/
theorem C68_readFile (ioErr : Bool) (ls : List (List U8)) (rest : List U8) (hls : ∀ l ∈ ls, 10#8 ∉ l) (hrest : 10#8 ∉ rest) :
    (ReadFile (some ⟨fileOf ls rest, ioErr⟩)).calls = (ls.takeWhile (! bad ·)).map strip ∧
    (ReadFile (some ⟨fileOf ls rest, ioErr⟩)).out =
      if ls.any bad then .error .index else if ioErr then .error (.explicit "reading file") else .ok ls.length := by
  rw [ReadFile_eq ioErr ls rest hls hrest]; exact ⟨rfl, rfl⟩

/-- Every file is of that form. -/
theorem C68_every_file (content : List U8) : ∃ ls rest, content = fileOf ls rest ∧ (∀ l ∈ ls, 10#8 ∉ l) ∧ 10#8 ∉ rest :=
  fileOf_exists content

theorem takeWhile_all {α : Type} (p : α → Bool) (l : List α) (h : ∀ a ∈ l, p a = true) : l.takeWhile p = l := by
  induction l with
  | nil => rfl
  | cons a l ih => rw [List.takeWhile_cons, if_pos (h a (by simp)), ih (fun b hb => h b (List.mem_cons_of_mem _ hb))]

/-- With no empty line, no line that is just CR and no read error, every terminated line is delivered, in order, and counted. -/
theorem C68_delivers (ls : List (List U8)) (rest : List U8) (hls : ∀ l ∈ ls, 10#8 ∉ l) (hrest : 10#8 ∉ rest) (hb : ∀ l ∈ ls, l ≠ [] ∧ l ≠ [13#8]) :
    ReadFile (some ⟨fileOf ls rest, false⟩) = ⟨ls.map strip, .ok ls.length⟩ := by
  have hnb : ∀ l ∈ ls, bad l = false := fun l hl => by simp [bad, hb l hl]
  rw [ReadFile_eq false ls rest hls hrest]
  have h1 : ls.takeWhile (! bad ·) = ls := takeWhile_all _ _ (fun l hl => by simp [hnb l hl])
  have h2 : ls.any bad = false := List.any_eq_false.2 (fun l hl => by simp [hnb l hl])
  rw [h1, h2]; rfl

/-- C68 at work: the last line, not ended by a newline, is lost. -/
example : ∃ ls rest, ([97, 98, 13, 10, 99, 10, 100] : List U8) = fileOf ls rest ∧ (∀ l ∈ ls, 10#8 ∉ l) ∧ 10#8 ∉ rest ∧ ∀ l ∈ ls, l ≠ [] ∧ l ≠ [13#8] :=
  ⟨[[97, 98, 13], [99]], [100], rfl, by decide, by decide, by decide⟩

/-- A file that cannot be opened panics. -/
theorem C68_missing : ReadFile none = ⟨[], .error (.explicit "ReadFile: opening file")⟩ := rfl

/-- The expected behaviour fails: an empty line panics, and an unterminated last line is lost. -/
theorem C68_violated :
    ReadFile (some ⟨[97, 10, 10, 98, 10], false⟩) = ⟨[[97]], .error .index⟩ ∧
    ReadFile (some ⟨[97, 13, 10], false⟩) = ⟨[[97]], .ok 1⟩ ∧
    ReadFile (some ⟨[97, 10, 98], false⟩) = ⟨[[97]], .ok 1⟩ := by
  refine ⟨?_, ?_, ?_⟩
  · exact ReadFile_eq false [[97], [], [98]] [] (by decide) (by decide)
  · exact ReadFile_eq false [[97, 13]] [] (by decide) (by decide)
  · exact ReadFile_eq false [[97]] [98] (by decide) (by decide)

/-! ## C69 -/

/-- For every slice, seen as a sequence of runs: `dups` counts the elements that repeat their predecessor, and `mrun` is the
largest number of repetitions in a run other than the last. -/
theorem C69_runs (rs : List (U32 × Nat)) (h : IsRuns rs) :
    ∃ d m, checkForDups32 (ofRuns rs) = .ok (d, m) ∧ d = (rs.map fun r => r.2 - 1).sum ∧
      (∀ r ∈ rs.dropLast, r.2 - 1 ≤ m) ∧ (m = 0 ∨ ∃ r ∈ rs.dropLast, m = r.2 - 1) := by
  refine ⟨_, _, checkForDups32_runs rs h, rfl, ?_, ?_⟩
  · generalize rs.dropLast = l
    induction l with
    | nil => simp
    | cons a l ih =>
      intro r hr
      simp only [longest, List.foldr_cons] at ih ⊢
      rcases List.mem_cons.1 hr with rfl | hr
      · omega
      · have := ih r hr; omega
  · generalize rs.dropLast = l
    induction l with
    | nil => exact .inl rfl
    | cons a l ih =>
      have e : longest (a :: l) = max (a.2 - 1) (longest l) := rfl
      rcases Nat.le_total (longest l) (a.2 - 1) with hc | hc
      · right; exact ⟨a, by simp, by rw [e, Nat.max_eq_left hc]⟩
      · rw [e, Nat.max_eq_right hc]
        rcases ih with h0 | ⟨r, hr, he⟩
        · exact .inl h0
        · exact .inr ⟨r, List.mem_cons_of_mem _ hr, he⟩

/-- Every slice is such a sequence of runs. -/
theorem C69_every_slice (u : List U32) : ∃ rs, IsRuns rs ∧ u = ofRuns rs := runs_exist u

theorem ofRuns_length (rs : List (U32 × Nat)) (h : ∀ r ∈ rs, 0 < r.2) : (ofRuns rs).length = (rs.map fun r => r.2 - 1).sum + rs.length := by
  induction rs with
  | nil => rfl
  | cons r rs ih =>
    have h1 := ih (fun x hx => h x (List.mem_cons_of_mem _ hx))
    have h2 := h r (by simp)
    simp only [ofRuns, List.flatMap_cons, List.length_append, List.length_replicate, List.map_cons, List.sum_cons, List.length_cons] at h1 ⊢
    omega

theorem mem_ofRuns (rs : List (U32 × Nat)) (h : ∀ r ∈ rs, 0 < r.2) (x : U32) : x ∈ ofRuns rs ↔ x ∈ rs.map (·.1) := by
  simp only [ofRuns, List.mem_flatMap, List.mem_replicate, List.mem_map]
  constructor
  · rintro ⟨r, hr, _, rfl⟩; exact ⟨r, hr, rfl⟩
  · rintro ⟨r, hr, rfl⟩; exact ⟨r, hr, by have := h r hr; omega, rfl⟩

/-- For a sorted slice `dups` is the number of elements minus the number of different values. -/
theorem C69_sorted (u : List U32) (hs : u.Pairwise (fun a b => a.toNat ≤ b.toNat)) :
    ∃ d m, checkForDups32 u = .ok (d, m) ∧ d + u.dedup.length = u.length := by
  obtain ⟨rs, h, rfl⟩ := runs_exist u
  obtain ⟨d, m, h1, h2, _⟩ := C69_runs rs h
  refine ⟨d, m, h1, ?_⟩
  rw [ofRuns_length rs h.1, ← h2]
  congr 1
  have hnd : (rs.map (·.1)).Nodup := by
    clear h1 h2
    have : ∀ rs : List (U32 × Nat), IsRuns rs → (ofRuns rs).Pairwise (fun a b => a.toNat ≤ b.toNat) →
        (rs.map (·.1)).Pairwise (fun a b => a.toNat < b.toNat) := by
      intro rs
      induction rs with
      | nil => simp
      | cons r rs ih =>
        intro hr hs
        have hr' : IsRuns rs := ⟨fun x hx => hr.1 x (List.mem_cons_of_mem _ hx), hr.2.tail⟩
        rw [show ofRuns (r :: rs) = List.replicate r.2 r.1 ++ ofRuns rs from rfl, List.pairwise_append] at hs
        have hi := ih hr' hs.2.1
        have hle : ∀ x ∈ rs.map (·.1), r.1.toNat ≤ x.toNat := fun x hx =>
          hs.2.2 r.1 (List.mem_replicate.2 ⟨by have := hr.1 r (by simp); omega, rfl⟩) x ((mem_ofRuns rs hr'.1 x).2 hx)
        rw [List.map_cons, List.pairwise_cons]
        refine ⟨?_, hi⟩
        cases rs with
        | nil => simp
        | cons a rs =>
          have hne := (List.isChain_cons_cons.1 hr.2).1
          have h1 := hle a.1 (by simp)
          have h2 : r.1.toNat < a.1.toNat := by
            rcases Nat.lt_or_eq_of_le h1 with h | h
            · exact h
            · exact absurd (BitVec.eq_of_toNat_eq h) hne
          rw [List.map_cons, List.pairwise_cons] at hi
          intro x hx
          rcases List.mem_cons.1 hx with rfl | hx
          · exact h2
          · exact Nat.lt_trans h2 (hi.1 x hx)
    exact (this rs h hs).imp (fun h e => by subst e; omega)
  have hp : (ofRuns rs).dedup.Perm (rs.map (·.1)) := by
    rw [List.perm_ext_iff_of_nodup (List.nodup_dedup _) hnd]
    intro x
    rw [List.mem_dedup, mem_ofRuns rs h.1]
  rw [hp.length_eq, List.length_map]

/-- `mrun` should be the longest run of repetitions: the last run is forgotten. -/
theorem C69_mrun_violated : checkForDups32 [1, 2, 2, 2] = .ok (2, 0) ∧ checkForDups32 [2, 2, 2, 3] = .ok (2, 2) := by decide

example : IsRuns [(1, 2), (5, 3), (6, 1)] ∧ checkForDups32 [1, 1, 5, 5, 5, 6] = .ok (3, 2) := ⟨⟨by decide, by decide⟩, by decide⟩

/-! ## C70 -/

/-- TestI inserts the little-endian 4-byte integers 0 .. ni-1, in order. -/
theorem C70_testI (ni : Int) : (testI ni).map Prod.snd = .ok ((List.range ni.toNat).map (leBytes 4)) := by
  obtain ⟨bs, h⟩ := testI_eq ni; rw [h]; rfl

theorem leBytes4_inj (i j : Nat) : leBytes 4 i = leBytes 4 j ↔ i % 2 ^ 32 = j % 2 ^ 32 := by
  constructor
  · intro h
    have := congrArg leNat h
    rw [leNat_leBytes, leNat_leBytes] at this
    exact this
  · intro h
    rw [leBytes4, leBytes4]
    have e : ∀ a b s : Nat, a % 2 ^ 32 = b % 2 ^ 32 → s + 8 ≤ 32 → BitVec.ofNat 8 (a >>> s) = BitVec.ofNat 8 (b >>> s) := by
      intro a b s hab hs
      apply BitVec.eq_of_getLsbD_eq
      intro k hk
      simp only [BitVec.getLsbD_ofNat, Nat.testBit_shiftRight, hk, decide_true, Bool.true_and]
      have := congrArg (fun x => Nat.testBit x (s + k)) hab
      simp only [Nat.testBit_mod_two_pow, show s + k < 32 by omega, decide_true, Bool.true_and] at this
      exact this
    rw [e i j 8 h (by omega), e i j 16 h (by omega), e i j 24 h (by omega)]
    have := e i j 0 h (by omega)
    simp only [Nat.shiftRight_zero] at this
    rw [this]

/-- They are pairwise distinct as long as `ni ≤ 2^32`, and not beyond. -/
theorem C70_testI_distinct (ni : Int) : ((List.range ni.toNat).map (leBytes 4)).Nodup ↔ ni ≤ 2 ^ 32 := by
  constructor
  · intro h
    rcases Int.lt_or_le (2 ^ 32) ni with hn | hn
    · exfalso
      have h2 := (List.nodup_iff_injective_get.1 h)
      have hl : ((List.range ni.toNat).map (leBytes 4)).length = ni.toNat := by simp
      have := @h2 ⟨0, by omega⟩ ⟨2 ^ 32, by omega⟩ (by
        simp only [List.get_eq_getElem, List.getElem_map, List.getElem_range]
        exact (leBytes4_inj _ _).2 (by simp))
      simp at this
    · exact hn
  · intro h
    rw [List.nodup_map_iff_inj_on List.nodup_range]
    intro x hx y hy hxy
    rw [List.mem_range] at hx hy
    have := (leBytes4_inj x y).1 hxy
    rw [Nat.mod_eq_of_lt (by omega), Nat.mod_eq_of_lt (by omega)] at this
    exact this

/-- TestJ inserts exactly the strings of its length with one bit set, lowest bit first, each once. -/
theorem C70_testJ (length : Nat) : ∃ keys, (testJ length).map Prod.snd = .ok keys ∧ (∀ k ∈ keys, k.length = length) ∧
    keys.map leNat = (List.range (8 * length)).map (2 ^ ·) ∧ keys.Nodup := by
  obtain ⟨bs, h⟩ := testJ_eq length
  have hl : ((List.range (8 * length)).map fun j => leBytes length (2 ^ j)).map leNat = (List.range (8 * length)).map (2 ^ ·) := by
    rw [List.map_map]
    apply List.map_congr_left
    intro j hj
    rw [List.mem_range] at hj
    rw [Function.comp_apply, leNat_leBytes, Nat.mod_eq_of_lt]
    rw [show 256 = 2 ^ 8 from rfl, ← Nat.pow_mul]
    exact Nat.pow_lt_pow_right (by omega) hj
  refine ⟨_, by rw [h]; rfl, ?_, hl, ?_⟩
  · intro k hk
    obtain ⟨j, _, rfl⟩ := List.mem_map.1 hk
    exact leBytes_length _ _
  · apply List.Nodup.of_map leNat
    rw [hl]
    exact List.nodup_range.map (Nat.pow_right_injective (Nat.le_refl 2))

theorem beBytes3_surj (k : List U8) (h : k.length = 3) : beBytes 3 (beNat k) = k := by
  unfold beBytes beNat
  have := leBytes_leNat k.reverse
  rw [List.length_reverse, h] at this
  rw [this, List.reverse_reverse]

/-- TestL inserts every 3-byte string exactly once. -/
theorem C70_testL : ∃ keys, testL.map Prod.snd = .ok keys ∧ keys.Nodup ∧ ∀ k, k ∈ keys ↔ k.length = 3 := by
  obtain ⟨bs, h⟩ := testL_eq
  refine ⟨_, by rw [h]; rfl, ?_, ?_⟩
  · rw [List.nodup_map_iff_inj_on List.nodup_range]
    intro x hx y hy hxy
    rw [List.mem_range] at hx hy
    have := congrArg beNat hxy
    simp only [beNat, beBytes, List.reverse_reverse, leNat_leBytes] at this
    rw [Nat.mod_eq_of_lt (by omega), Nat.mod_eq_of_lt (by omega)] at this
    exact this
  · intro k
    rw [List.mem_map]
    constructor
    · rintro ⟨n, _, rfl⟩; simp [beBytes, leBytes_length]
    · intro hk
      refine ⟨beNat k, ?_, beBytes3_surj k hk⟩
      rw [List.mem_range]
      have := leNat_lt k.reverse
      rw [List.length_reverse, hk] at this
      exact this

example : (testI 3).map Prod.snd = .ok [[0, 0, 0, 0], [1, 0, 0, 0], [2, 0, 0, 0]] ∧ (testJ 1).map Prod.snd = .ok [[1], [2], [4], [8], [16], [32], [64], [128]] := by decide

/-! ## C82 -/

/-- The file tests insert one key per line: the run equals the history of inserts of the transformed lines. -/
theorem C82_inserts_lines {ω : Type} (e : HashTable.Env ω (List U8)) (w : ω) (ht : HashTable.HT (List U8)) (t : FileTest)
    (ls : List (List U8)) (rest : List U8) (hls : ∀ l ∈ ls, 10#8 ∉ l) (hrest : 10#8 ∉ rest) (hb : ∀ l ∈ ls, l ≠ [] ∧ l ≠ [13#8]) :
    runFileTest e w ht t (some ⟨fileOf ls rest, false⟩) = HashTable.insertAll e w ht (ls.map fun l => t.key (strip l)) := by
  unfold runFileTest
  rw [C68_delivers ls rest hls hrest hb]
  dsimp only
  rw [List.map_map]
  show (HashTable.insertAll e w ht (ls.map fun l => t.key (strip l)) >>= fun q => Except.ok ls.length >>= fun _ => pure q) = _
  cases HashTable.insertAll e w ht (ls.map fun l => t.key (strip l)) <;> rfl

/-- In chaining mode the test ends with every line's key in the table, exactly once per line, and `Inserts` the number of lines. -/
theorem C82_chain_total (H : List U8 → U64 → U64) (np : Int → Int) (size seed extra : Int) (pd prime : Bool) (ht0 : HashTable.HT (List U8)) (t : FileTest)
    (hnew : HashTable.newHashTable np size seed extra pd false prime = .ok ht0) (hpos : 0 < ht0.buckets.length)
    (ls : List (List U8)) (rest : List U8) (hls : ∀ l ∈ ls, 10#8 ∉ l) (hrest : 10#8 ∉ rest) (hb : ∀ l ∈ ls, l ≠ [] ∧ l ≠ [13#8]) :
    ∃ ht, runFileTest (pureEnv H (fun _ => true)) () ht0 t (some ⟨fileOf ls rest, false⟩) = .ok ((), ht) ∧ ht.inserts = ls.length ∧
      ht.buckets = (List.range ht0.buckets.length).map fun i =>
        (ls.map fun l => t.key (strip l)).filter fun k => homeOf prime ht0.buckets.length (H k ht0.seed) = i := by
  rw [C82_inserts_lines _ _ _ t ls rest hls hrest hb]
  obtain ⟨ht, h1, h2⟩ := C04_chain_contents H np size seed extra pd prime ht0 (ls.map fun l => t.key (strip l)) hnew hpos
  obtain ⟨w, ht', h3, h4, _⟩ := C05_chain_stats (pureEnv H (fun _ => true)) (fun _ => rfl) np size seed extra pd prime ht0 () (ls.map fun l => t.key (strip l)) hnew hpos
  rw [h1] at h3
  cases h3
  exact ⟨ht, h1, by rw [h4, List.length_map], h2⟩

/-- C82_chain_total applies to a table of sixteen buckets and the lines "ab", "c". -/
example : ∃ ht0 : HashTable.HT (List U8), HashTable.newHashTable id 5 7 1 false false false = .ok ht0 ∧ 0 < ht0.buckets.length ∧ ∀ l ∈ ([[97, 98], [99]] : List (List U8)), 10#8 ∉ l :=
  ⟨_, rfl, by decide, by decide⟩

/-- The key transforms, and that they never merge two different lines. -/
theorem C82_transforms (l : List U8) :
    FileTest.A.key l = l ∧ FileTest.B.key l = l ++ [10#8] ∧ FileTest.C.key l = l ++ l ++ [10#8, 10#8, 10#8, 10#8] ∧
    FileTest.D.key l = [65#8, 66#8, 67#8, 68#8, 69#8] ++ l ∧ FileTest.E.key l = l ++ l ∧ FileTest.F.key l = l ++ l ++ l ++ l ∧
    FileTest.G.key l = l.reverse.flatMap utf8 := by
  refine ⟨rfl, rfl, ?_, rfl, rfl, rfl, reverse_eq l⟩
  rw [FileTest.key, List.append_assoc]

theorem C82_injective (t : FileTest) : Function.Injective t.key := by
  have dbl : ∀ a b : List U8, a ++ a = b ++ b → a = b := by
    intro a b h
    have hl := congrArg List.length h
    simp only [List.length_append] at hl
    exact (List.append_inj h (by omega)).1
  intro a b h
  cases t <;> simp only [FileTest.key] at h
  · exact h
  · exact List.append_cancel_right h
  · rw [← List.append_assoc, ← List.append_assoc] at h
    exact dbl a b (List.append_cancel_right h)
  · exact List.append_cancel_left h
  · exact dbl a b h
  · rw [List.append_assoc, List.append_assoc (b ++ b)] at h
    exact dbl a b (dbl (a ++ a) (b ++ b) h)
  · exact C66_injective h

/-- The table of tests runs the test its flag names, except that flag G runs TestF and nothing runs TestG. -/
theorem C82_flags : (∀ p ∈ [('A', FileTest.A), ('B', .B), ('C', .C), ('D', .D), ('E', .E), ('F', .F)], testsTable.filter (fun q => q.1 = p.1) = [p]) ∧
    testsTable.filter (fun q => q.1 = 'G') = [('G', .F)] ∧ ∀ p ∈ testsTable, p.2 ≠ .G := by decide

/-- TestC, described as adding four newlines, also doubles the line. -/
theorem C82_testC_violated : FileTest.C.key [97] ≠ [97] ++ [10, 10, 10, 10] := by decide

/-! ## C83 -/

theorem binCount_sum (h : Nat → Nat) (n ni : Nat) (hh : ∀ i, h i < n) : ((List.range n).map (binCount h ni)).sum = ni := by
  induction ni with
  | zero =>
    show ((List.range n).map (fun b => binCount h 0 b)).sum = 0
    simp [binCount]
  | succ k ih =>
    have : ∀ m, ((List.range m).map (binCount h (k + 1))).sum = ((List.range m).map (binCount h k)).sum + if h k < m then 1 else 0 := by
      intro m
      induction m with
      | zero => simp
      | succ m ihm =>
        simp only [List.range_succ, List.map_append, List.sum_append, List.map_cons, List.map_nil, List.sum_cons, List.sum_nil, ihm, binCount_succ]
        split <;> split <;> split <;> omega
    rw [this, ih, if_pos (hh k)]

/-- TestM, with `n > 0` buckets (negative when -dru is set, which negates it): bin `b` of the histogram counts the integers below `ni` whose hash is congruent to `b`, and the bins sum to the number of keys. -/
theorem C83_histogram (H : List U8 → U64) (n : Nat) (hn : 0 < n) (hn' : n ≤ 2 ^ 45) (ni : Int) (dru : Bool) :
    ∃ hist, testM H (if dru then -(n : Int) else n) ni dru = .ok hist ∧ hist.length = n ∧
      (∀ b, b < n → hist[b]? = some (binCount (fun i => (H (leBytes 4 i)).toNat % n) ni.toNat b)) ∧ hist.sum = ni.toNat := by
  obtain ⟨bs, hist, h1, h2, h3⟩ := testMLoop_eq H n hn (by omega) ni.toNat 0 (List.replicate 4 0#8) (List.replicate n 0) (by simp) (by simp)
    (fun b hb => by simp [binCount, hb])
  refine ⟨hist, ?_, h2, by rw [Nat.zero_add] at h3; exact h3, ?_⟩
  · have e : (if dru = true then -(if dru = true then -(n : Int) else n) else (if dru = true then -(n : Int) else n)) = (n : Int) := by
      cases dru <;> simp
    unfold testM
    rw [e]
    dsimp only
    rw [if_neg (by omega), Int.toNat_natCast, BitVec.ofInt_natCast, h1, Go.bind_ok, if_neg (by omega)]; rfl
  · rw [Nat.zero_add] at h3
    have : hist = (List.range n).map (binCount (fun i => (H (leBytes 4 i)).toNat % n) ni.toNat) := by
      apply List.ext_getElem?
      intro b
      rcases Nat.lt_or_ge b n with hb | hb
      · rw [h3 b hb]; simp [hb]
      · rw [List.getElem?_eq_none (by omega), List.getElem?_eq_none (by simpa using hb)]
    rw [this, binCount_sum _ n _ (fun i => Nat.mod_lt _ hn)]

/-- It panics for a non-positive number of buckets; in particular -dru, which negates `n`, makes it panic for every `n > 0`. -/
theorem C83_panics (H : List U8 → U64) (n ni : Int) :
    (n < 0 ∨ 2 ^ 45 < n → testM H n ni false = .error (.explicit "makeslice: len out of range")) ∧
    (0 < n → testM H n ni true = .error (.explicit "makeslice: len out of range")) ∧
    (∀ dru, testM H 0 ni dru = .error .divZero) := by
  refine ⟨fun h => ?_, fun h => ?_, fun dru => ?_⟩
  · unfold testM
    simp only [Bool.false_eq_true, if_false]
    rw [if_pos (by omega)]; rfl
  · unfold testM
    simp only [if_true]
    rw [if_pos (by omega)]; rfl
  · unfold testM
    have : (if dru = true then -(0 : Int) else 0) = 0 := by cases dru <;> rfl
    simp only [this]
    rw [if_neg (by omega)]
    cases hm : ni.toNat with
    | zero => rfl
    | succ m => rfl

example : testM (fun k => BitVec.ofNat 64 (leNat k)) 3 5 false = .ok [2, 2, 1] := by decide

/-! ## C84 -/

/-- TestK prints the hash of 1000 zero bytes beside every key. -/
theorem C84_hash_of_zeros (H : List U8 → U64 → U64) (rseed : U64) (ls : List (List U8)) (rest : List U8) (hls : ∀ l ∈ ls, 10#8 ∉ l) (hrest : 10#8 ∉ rest)
    (hb : ∀ l ∈ ls, l ≠ [] ∧ l ≠ [13#8]) (out : List (U64 × List U8 × U64)) (h : testK H rseed (some ⟨fileOf ls rest, false⟩) = .ok out) :
    out.length = ls.length ∧ ∀ (i : Nat) (o : U64 × List U8 × U64) (l : List U8), out[i]? = some o → ls[i]? = some l → hexToBytes (strip l) = .ok o.2.1 ∧ o.1 = rseed ∧ o.2.2 = H (List.replicate 1000 0#8) rseed := by
  unfold testK at h
  rw [C68_delivers ls rest hls hrest hb] at h
  dsimp only at h
  have key : ∀ (ks : List (List U8)) out, ks.mapM (hashLine H rseed (List.replicate 1000 0#8)) = .ok out →
      out.length = ks.length ∧ ∀ (i : Nat) (o : U64 × List U8 × U64) (l : List U8), out[i]? = some o → ks[i]? = some l → hexToBytes l = .ok o.2.1 ∧ o.1 = rseed ∧ o.2.2 = H (List.replicate 1000 0#8) rseed := by
    generalize List.replicate 1000 0#8 = z
    intro ks
    induction ks with
    | nil => intro out h; cases h; simp
    | cons k ks ih =>
      intro out h
      rw [List.mapM_cons] at h
      unfold hashLine at h
      cases hk : hexToBytes k with
      | error e => rw [hk, Go.bind_error] at h; cases h
      | ok b =>
        rw [hk, Go.bind_ok, Go.pure_ok, Go.bind_ok] at h
        cases hr : ks.mapM (hashLine H rseed z) with
        | error e =>
          rw [show (fun line => do
              let h := H z rseed
              let k ← hexToBytes line
              return (rseed, k, h)) = hashLine H rseed z from rfl, hr, Go.bind_error] at h
          cases h
        | ok r =>
          rw [show (fun line => do
              let h := H z rseed
              let k ← hexToBytes line
              return (rseed, k, h)) = hashLine H rseed z from rfl, hr, Go.bind_ok, Go.pure_ok] at h
          cases h
          obtain ⟨h1, h2⟩ := ih r hr
          refine ⟨by simp [h1], ?_⟩
          intro i o l ho hl
          cases i with
          | zero => simp at ho hl; subst ho; subst hl; exact ⟨hk, rfl, rfl⟩
          | succ i => exact h2 i o l ho hl
  generalize List.replicate 1000 0#8 = z at h key ⊢
  cases hm : (ls.map strip).mapM (hashLine H rseed z) with
  | error e => rw [hm, Go.bind_error] at h; cases h
  | ok r =>
    rw [hm, Go.bind_ok, Go.bind_ok, Go.pure_ok] at h
    cases h
    obtain ⟨h1, h2⟩ := key _ _ hm
    refine ⟨by rw [h1, List.length_map], ?_⟩
    intro i o l ho hl
    exact h2 i o (strip l) ho (by rw [List.getElem?_map, hl]; rfl)

/-- TestK reads the whole file when every line decodes, and otherwise dies with the error of the first line that does not. -/
theorem C84_outcome (H : List U8 → U64 → U64) (rseed : U64) (ls : List (List U8)) (rest : List U8) (hls : ∀ l ∈ ls, 10#8 ∉ l) (hrest : 10#8 ∉ rest)
    (hb : ∀ l ∈ ls, l ≠ [] ∧ l ≠ [13#8]) :
    ((∃ out, testK H rseed (some ⟨fileOf ls rest, false⟩) = .ok out) ↔ ∀ l ∈ ls, ∃ k, hexToBytes (strip l) = .ok k) ∧
    (∀ (pre : List (List U8)) (l : List U8) (post : List (List U8)) (f : Fault), ls = pre ++ l :: post → (∀ x ∈ pre, ∃ k, hexToBytes (strip x) = .ok k) →
      hexToBytes (strip l) = .error f → testK H rseed (some ⟨fileOf ls rest, false⟩) = .error f) := by
  unfold testK
  rw [C68_delivers ls rest hls hrest hb]
  dsimp only
  generalize List.replicate 1000 0#8 = z
  have hl : ∀ x k, hexToBytes x = .ok k → hashLine H rseed z x = .ok (rseed, k, H z rseed) := by
    intro x k h
    unfold hashLine
    rw [h]
    rfl
  have he : ∀ x f, hexToBytes x = .error f → hashLine H rseed z x = .error f := by
    intro x f h
    unfold hashLine
    rw [h]
    rfl
  have hmap : ∀ (pre : List (List U8)) (x : List U8) (post : List (List U8)) (f : Fault), (∀ x ∈ pre, ∃ k, hexToBytes x = .ok k) →
      hexToBytes x = .error f → (pre ++ x :: post).mapM (hashLine H rseed z) = .error f := by
    intro pre
    induction pre with
    | nil => intro x post f _ h; rw [List.nil_append, List.mapM_cons, he x f h, Go.bind_error]
    | cons y pre ih =>
      intro x post f hp h
      obtain ⟨k, hk⟩ := hp y (List.mem_cons_self ..)
      rw [List.cons_append, List.mapM_cons, hl y k hk, Go.bind_ok, ih x post f (fun y hy => hp y (List.mem_cons_of_mem _ hy)) h, Go.bind_error]
  have hok : ∀ ks : List (List U8), (∀ x ∈ ks, ∃ k, hexToBytes x = .ok k) → ∃ out, ks.mapM (hashLine H rseed z) = .ok out := by
    intro ks
    induction ks with
    | nil => intro _; exact ⟨[], rfl⟩
    | cons y ks ih =>
      intro hp
      obtain ⟨k, hk⟩ := hp y (List.mem_cons_self ..)
      obtain ⟨out, ho⟩ := ih (fun y hy => hp y (List.mem_cons_of_mem _ hy))
      rw [List.mapM_cons, hl y k hk, Go.bind_ok, ho, Go.bind_ok]
      exact ⟨_, rfl⟩
  have hrev : ∀ (ks : List (List U8)) out, ks.mapM (hashLine H rseed z) = .ok out → ∀ x ∈ ks, ∃ k, hexToBytes x = .ok k := by
    intro ks
    induction ks with
    | nil => intro out _ x hx; exact absurd hx List.not_mem_nil
    | cons y ks ih =>
      intro out h
      rw [List.mapM_cons] at h
      cases hy : hexToBytes y with
      | error f => rw [he y f hy, Go.bind_error] at h; exact nomatch h
      | ok k =>
        rw [hl y k hy, Go.bind_ok] at h
        cases hr : ks.mapM (hashLine H rseed z) with
        | error f => rw [hr, Go.bind_error] at h; exact nomatch h
        | ok r =>
          intro x hx
          rcases List.mem_cons.1 hx with rfl | hx
          · exact ⟨k, hy⟩
          · exact ih r hr x hx
  have hpost : ∀ (g : Go (List (U64 × List U8 × U64))), (do let out ← g; let _ ← (Except.ok ls.length : Go Nat); pure out) = g := by
    intro g
    cases g <;> rfl
  rw [hpost]
  refine ⟨⟨fun ⟨out, h⟩ l hm => hrev _ out h _ (List.mem_map_of_mem hm), fun h => hok _ fun x hx => ?_⟩, fun pre l post f hs hp h => ?_⟩
  · obtain ⟨l, hm, rfl⟩ := List.mem_map.1 hx
    exact h l hm
  · rw [hs, List.map_append, List.map_cons]
    exact hmap _ _ _ f (fun x hx => by obtain ⟨l, hm, rfl⟩ := List.mem_map.1 hx; exact hp l hm) h

/-- A file whose second line is not hexadecimal. -/
example : ∃ f, hexToBytes (strip [0x34, 0x31]) = .ok [0x41] ∧ hexToBytes (strip [0x7a, 0x31]) = .error f := ⟨_, by decide, by rfl⟩

/-- It does not print the hash of the key: with the hash that returns the length, the key `41` gets 1000. -/
theorem C84_violated : testK (fun k _ => BitVec.ofNat 64 k.length) 7 (some ⟨[0x34, 0x31, 10], false⟩) = .ok [(7, [0x41], 1000)] := by decide +kernel

end Verif.Props
