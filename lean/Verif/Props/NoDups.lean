import Verif.Props.Reach
import Verif.Props.HtMain2

/-!
# C117: the tests of the test program under hash functions that are one-to-one on short keys
-/

namespace Verif.Props
open Verif Verif.Spec.HtMain Verif.Spec.Ht Verif.Spec.HashTable
open Verif.Model.HtMain (Flag Flags Sys Result main)
open Verif.Spec.Hashf (Ok resultAfter outcome)
open Verif.Model.Murmur3 (Sum32)
open Verif.Model.Gomap (Hash32 Hash64)

section counting
variable {α β : Type} [DecidableEq α] [DecidableEq β]

theorem eqPairs_nodup (l : List α) (h : l.Nodup) : eqPairs l = 0 := by
  induction l with
  | nil => rfl
  | cons a l ih =>
    rw [List.nodup_cons] at h
    rw [eqPairs, ih h.2, List.countP_eq_zero.2]
    intro x hx e
    exact h.1 (by rw [← of_decide_eq_true e]; exact hx)

theorem eqPairs_snoc (l : List α) (a : α) : eqPairs (l ++ [a]) = eqPairs l + l.countP (fun y => y = a) := by
  induction l with
  | nil => rfl
  | cons b l ih =>
    rw [List.cons_append, eqPairs, ih, eqPairs, List.countP_append, List.countP_cons, List.countP_cons, List.countP_nil]
    by_cases h : a = b
    · subst h; simp; omega
    · have : ¬ b = a := fun e => h e.symm
      simp [h, this]; omega

/-- Of `M + j` values that repeat with period `M` at least `j` pairs are equal. -/
theorem eqPairs_period (M : Nat) (hM : 0 < M) (f : Nat → α) (hf : ∀ i, f (M + i) = f i) (j : Nat) : j ≤ eqPairs ((List.range (M + j)).map f) := by
  induction j with
  | zero => exact Nat.zero_le _
  | succ j ih =>
    rw [← Nat.add_assoc, List.range_succ, List.map_append, List.map_singleton, eqPairs_snoc]
    have : 0 < ((List.range (M + j)).map f).countP fun y => y = f (M + j) := by
      rw [List.countP_pos_iff]
      exact ⟨f j, List.mem_map.2 ⟨j, by simp; omega, rfl⟩, by rw [hf]; simp⟩
    omega

/-- Exactly `j` of them for `j ≤ M` if there is no repetition within a period. -/
theorem eqPairs_period_inj (M : Nat) (f : Nat → α) (hf : ∀ i, f (M + i) = f i) (hi : ∀ a < M, ∀ b < M, f a = f b → a = b) (j : Nat) (hj : j ≤ M) :
    eqPairs ((List.range (M + j)).map f) = j := by
  induction j with
  | zero =>
    refine eqPairs_nodup _ (List.Nodup.map_on ?_ List.nodup_range)
    intro x hx y hy h
    exact hi x (by simpa using hx) y (by simpa using hy) h
  | succ j ih =>
    rw [← Nat.add_assoc, List.range_succ, List.map_append, List.map_singleton, eqPairs_snoc, ih (by omega)]
    congr 1
    rw [List.countP_map, hf]
    have : (List.range (M + j)).countP ((fun y => decide (y = f j)) ∘ f) = (List.range (M + j)).count j := by
      unfold List.count
      apply List.countP_congr
      intro x hx
      rw [List.mem_range] at hx
      simp only [Function.comp_apply, decide_eq_true_eq, beq_iff_eq]
      refine ⟨fun h => ?_, fun h => by rw [h]⟩
      rcases Nat.lt_or_ge x M with h1 | h1
      · exact hi x h1 j (by omega) h
      · obtain ⟨i, rfl⟩ : ∃ i, x = M + i := ⟨x - M, by omega⟩
        rw [hf] at h
        have := hi i (by omega) j (by omega) h
        omega
    rw [this]
    exact List.count_eq_one_of_mem List.nodup_range (by simp; omega)

end counting

/-- The functions of the dispatcher that are one-to-one on the keys of each length up to the given one. -/
def oneToOne : List (String × Nat) := [("murmur332", 4), ("gomap32", 4), ("gomap64", 8)]

/-- Values of `Hashf` under `murmur332`, `gomap32` and `gomap64` for keys that are not empty. -/
theorem outcome_murmur332 (e : Model.Hashf.Ext) (he : Ok e) (k : List U8) (s : U64) : ∃ h, Sum32 k = .ok h ∧ outcome e [] "murmur332" k s = .ok (Spec.Hashf.wide h) := by
  refine ⟨_, C21_sum32_is_murmur3 k, ?_⟩
  rw [← C81_history e he]
  exact value e he [] k s 23 rfl rfl

theorem outcome_gomap32 (e : Model.Hashf.Ext) (he : Ok e) (k : List U8) (s : U64) (hk : k ≠ []) :
    ∃ h, Hash32 k (Spec.Hashf.low s) = .ok h ∧ outcome e [] "gomap32" k s = .ok (Spec.Hashf.wide h) := by
  refine ⟨_, (C48_total k (Spec.Hashf.low s) 0#64 hk).1, ?_⟩
  rw [← C81_history e he]
  refine value e he [] k s 2 rfl ?_
  rw [if_neg hk]

theorem outcome_gomap64 (e : Model.Hashf.Ext) (he : Ok e) (k : List U8) (s : U64) (hk : k ≠ []) :
    ∃ h, Hash64 k s = .ok h ∧ outcome e [] "gomap64" k s = .ok h := by
  refine ⟨_, (C48_total k 0#32 s hk).2, ?_⟩
  rw [← C81_history e he]
  refine value e he [] k s 1 rfl ?_
  rw [if_neg hk]

theorem wide_inj {a b : U32} (h : Spec.Hashf.wide a = Spec.Hashf.wide b) : a = b := by
  have h1 := congrArg BitVec.toNat h
  simp only [Spec.Hashf.wide, BitVec.toNat_ofNat] at h1
  apply BitVec.eq_of_toNat_eq
  have := a.isLt
  have := b.isLt
  omega

/-- C117. Under these names `Hashf`, for any seed, tells any two different keys of the same length apart, up to 4 or 8 bytes. -/
theorem C117_one_to_one (e : Model.Hashf.Ext) (he : Ok e) (name : String) (b : Nat) (hname : (name, b) ∈ oneToOne) (s : U64) (x y : List U8)
    (hl : x.length = y.length) (hb : x.length ≤ b) (hist hist' : List (String × List U8 × U64)) (hne : x ≠ y) :
    resultAfter e hist name x s ≠ resultAfter e hist' name y s := by
  have h0 : x ≠ [] ∧ y ≠ [] := by
    constructor
    · rintro rfl
      exact hne (List.eq_nil_of_length_eq_zero hl.symm).symm
    · rintro rfl
      exact hne (List.eq_nil_of_length_eq_zero hl)
  have hc : name ≠ "nullhash" ∧ name ≠ "nullhashF64ns" := by
    simp only [oneToOne, List.mem_cons, Prod.mk.injEq, List.not_mem_nil, or_false] at hname
    rcases hname with ⟨rfl, rfl⟩ | ⟨rfl, rfl⟩ | ⟨rfl, rfl⟩ <;> decide
  rw [C81_independent e he hist [] name x s hc.1 hc.2, C81_independent e he hist' [] name y s hc.1 hc.2, C81_history e he, C81_history e he]
  intro h
  simp only [oneToOne, List.mem_cons, Prod.mk.injEq, List.not_mem_nil, or_false] at hname
  rcases hname with ⟨rfl, rfl⟩ | ⟨rfl, rfl⟩ | ⟨rfl, rfl⟩
  · obtain ⟨u, h1, h2⟩ := outcome_murmur332 e he x s
    obtain ⟨v, h3, h4⟩ := outcome_murmur332 e he y s
    rw [h2, h4] at h
    exact hne (C25_injective32 x y hl hb (by rw [h1, h3, wide_inj (Except.ok.inj h)]))
  · obtain ⟨u, h1, h2⟩ := outcome_gomap32 e he x s h0.1
    obtain ⟨v, h3, h4⟩ := outcome_gomap32 e he y s h0.2
    rw [h2, h4] at h
    exact (C49_short x y (Spec.Hashf.low s) 0#64 hl hne).1 hb (by rw [h1, h3, wide_inj (Except.ok.inj h)])
  · obtain ⟨u, h1, h2⟩ := outcome_gomap64 e he x s h0.1
    obtain ⟨v, h3, h4⟩ := outcome_gomap64 e he y s h0.2
    rw [h2, h4] at h
    exact (C49_short x y 0#32 s hl hne).2 hb (by rw [h1, h3, Except.ok.inj h])

/-- The same for the values. -/
theorem value_inj (e : Model.Hashf.Ext) (he : Ok e) (name : String) (b : Nat) (hname : (name, b) ∈ oneToOne) (s : U64) (x y : List U8)
    (hl : x.length = y.length) (hb : x.length ≤ b) (h : valueOf (outcome e [] name) x s = valueOf (outcome e [] name) y s) : x = y := by
  by_contra hne
  have h1 := C117_one_to_one e he name b hname s x y hl hb [] [] hne
  rw [C81_history e he, C81_history e he] at h1
  apply h1
  have hok : ∀ k : List U8, k ≠ [] → ∃ v, outcome e [] name k s = .ok v := by
    intro k hk0
    simp only [oneToOne, List.mem_cons, Prod.mk.injEq, List.not_mem_nil, or_false] at hname
    rcases hname with ⟨rfl, rfl⟩ | ⟨rfl, rfl⟩ | ⟨rfl, rfl⟩
    · obtain ⟨v, _, h⟩ := outcome_murmur332 e he k s; exact ⟨_, h⟩
    · obtain ⟨v, _, h⟩ := outcome_gomap32 e he k s hk0; exact ⟨_, h⟩
    · obtain ⟨v, _, h⟩ := outcome_gomap64 e he k s hk0; exact ⟨_, h⟩
  obtain ⟨v, hv⟩ := hok x (by rintro rfl; exact hne (List.eq_nil_of_length_eq_zero hl.symm).symm)
  obtain ⟨v', hv'⟩ := hok y (by rintro rfl; exact hne (List.eq_nil_of_length_eq_zero hl))
  simp only [valueOf, hv, hv'] at h
  rw [hv, hv', h]

/-! ## What the program reports -/

section program
variable {ω : Type} {sys : Sys ω} {fl : Flags}

theorem follows_mem {seed : Int} {content : String → List (List U8)} {l : List Step} : ∀ {n : Int} {es : List Model.HtMain.Event},
    Follows sys fl seed content n l es → ∀ x ∈ es, ∃ m s, s ∈ l ∧ Matches sys fl seed content m s x := by
  induction l with
  | nil => intro n es h x hx; cases h; exact nomatch hx
  | cons s l ih =>
    intro n es h x hx
    obtain ⟨y, es', rfl, hm, hf⟩ := h
    rcases List.mem_cons.1 hx with rfl | hx
    · exact ⟨_, s, by simp, hm⟩
    · obtain ⟨m, s', h1, h2⟩ := ih hf x hx
      exact ⟨m, s', by simp [h1], h2⟩

/-- The counter of duplicates of a described run, with either kind of table. -/
theorem dups_of {name : String} {seed lines n : Int} {ls : List (List U8)} {f : Flag} {r : Result} (h : Describes sys fl name seed lines n ls f r)
    (G : List U8 → U64 → Go U64) (hG : Determined sys name G) :
    r.ht.dups = eqPairs ((keysFor ls fl.ni f).map fun k => valueOf G k (BitVec.ofInt 64 seed)) := by
  cases ho : fl.oa with
  | false => exact (h.table.filled ho G hG).dups
  | true => exact (h.table.openFilled ho G hG).dups

/-- The keys of tests H, I and L are different, and of one length. -/
theorem keys_short (ls : List (List U8)) (ni : Int) (f : Flag) (hf : f = .H ∨ (f = .I ∧ ni ≤ 2 ^ 32) ∨ f = .L) :
    (keysFor ls ni f).Nodup ∧ ∀ k ∈ keysFor ls ni f, k.length = if f = .H then 6 else if f = .I then 4 else 3 := by
  rcases hf with rfl | ⟨rfl, h⟩ | rfl
  · have hl : ∀ w ∈ combos alphabets, w.length = 6 ∧ ∀ b ∈ w, b.toNat < 128 := by
      intro w hw
      rw [Lemmas.Ht.mem_combos] at hw
      refine ⟨hw.length_eq, ?_⟩
      have ha : ∀ s ∈ alphabets, ∀ b ∈ s, b.toNat < 128 := by decide
      generalize alphabets = al at hw ha
      induction hw with
      | nil => intro b hb; exact nomatch hb
      | @cons a s w al h1 h2 ih =>
        intro b hb
        rcases List.mem_cons.1 hb with rfl | hb
        · exact ha s (by simp) _ h1
        · exact ih (fun s hs => ha s (by simp [hs])) b hb
    have hsp : ∀ w ∈ combos alphabets, spell w = w := by
      intro w hw
      have h2 := (hl w hw).2
      clear hw
      unfold spell
      induction w with
      | nil => rfl
      | cons a w ih =>
        rw [List.flatMap_cons, ih fun b hb => h2 b (by simp [hb])]
        unfold utf8
        rw [if_pos (h2 a (by simp))]
        rfl
    show ((combos alphabets).map spell).Nodup ∧ ∀ k ∈ (combos alphabets).map spell, _
    rw [List.map_congr_left (g := id) hsp, List.map_id]
    exact ⟨Lemmas.Ht.nodup_combos (by decide), fun k hk => (hl k hk).1⟩
  · refine ⟨(C70_testI_distinct ni).2 h, fun k hk => ?_⟩
    obtain ⟨i, _, rfl⟩ := List.mem_map.1 hk
    exact leBytes_length 4 i
  · constructor
    · refine List.Nodup.map_on ?_ List.nodup_range
      intro x hx y hy h
      rw [List.mem_range] at hx hy
      have h1 := congrArg leNat (List.reverse_injective h)
      rw [leNat_leBytes, leNat_leBytes] at h1
      omega
    · intro k hk
      obtain ⟨i, _, rfl⟩ := List.mem_map.1 hk
      simp [beBytes, leBytes_length]

/-- Counting in a list of numbers and counting a set of byte strings. -/
theorem count_bytes (G : List U8 → Prop) [DecidablePred G] : (List.range (2 ^ 32)).countP (fun i => decide (G (leBytes 4 i))) = {u | u.length = 4 ∧ G u}.ncard := by
  have h1 : (List.range (2 ^ 32)).countP (fun i => decide (G (leBytes 4 i))) = ((Finset.range (2 ^ 32)).filter fun i => G (leBytes 4 i)).card := by
    rw [List.countP_eq_length_filter]
    rfl
  have h2 : {u | u.length = 4 ∧ G u} = leBytes 4 '' ((Finset.range (2 ^ 32)).filter fun i => G (leBytes 4 i)) := by
    ext u
    simp only [Set.mem_ofPred_eq, Set.mem_image, Finset.mem_coe, Finset.mem_filter, Finset.mem_range]
    constructor
    · rintro ⟨hl, hg⟩
      refine ⟨leNat u, ⟨?_, ?_⟩, ?_⟩
      · have := leNat_lt u
        rw [hl] at this
        exact this
      · rw [← hl, leBytes_leNat]; exact hg
      · rw [← hl, leBytes_leNat]
    · rintro ⟨i, ⟨_, hg⟩, rfl⟩
      exact ⟨leBytes_length _ _, hg⟩
  rw [h1, h2, Set.InjOn.ncard_image, Set.ncard_coe_finset]
  intro x hx y hy h
  simp only [Finset.mem_coe, Finset.mem_filter, Finset.mem_range] at hx hy
  have := (leBytes4_inj x y).1 h
  rwa [Nat.mod_eq_of_lt hx.1, Nat.mod_eq_of_lt hy.1] at this

/-- The values of `Hashf` on the 2^32 keys of four bytes, modulo a power of two. -/
theorem even_values (e : Model.Hashf.Ext) (he : Ok e) (name : String) (hname : name = "murmur332" ∨ name = "gomap32") (s : U64) (k b : Nat) (hk : k ≤ 32) (hb : b < 2 ^ k) :
    (List.range (2 ^ 32)).countP (fun i => decide ((valueOf (outcome e [] name) (leBytes 4 i) s).toNat % 2 ^ k = b)) = 2 ^ (32 - k) := by
  rw [count_bytes (fun u => (valueOf (outcome e [] name) u s).toNat % 2 ^ k = b)]
  have hw : ∀ h : U32, (Spec.Hashf.wide h).toNat = h.toNat := by
    intro h
    have := h.isLt
    simp only [Spec.Hashf.wide, BitVec.toNat_ofNat]
    omega
  rcases hname with rfl | rfl
  · rw [← (C116_even [] [] [] [] 0#32 0#64 rfl rfl rfl k b hb).1 hk]
    congr 1
    ext u
    obtain ⟨v, h1, h2⟩ := outcome_murmur332 e he u s
    simp only [Set.mem_ofPred_eq, List.nil_append, List.append_nil, valueOf, h1, h2, hw, Except.ok.injEq, exists_eq_left']
  · rw [← (C116_even [] [] [] [] (Spec.Hashf.low s) 0#64 rfl rfl rfl k b hb).2.1 hk]
    congr 1
    ext u
    simp only [Set.mem_ofPred_eq, List.nil_append]
    refine and_congr_right fun hl => ?_
    obtain ⟨v, h1, h2⟩ := outcome_gomap32 e he u s (by rintro rfl; exact nomatch hl)
    simp only [valueOf, h1, h2, hw, Except.ok.injEq, exists_eq_left']

end program

section runs
variable (e : Model.Hashf.Ext) (he : Ok e) (nextPrime : Int → Int) (files : String → Option Model.Ht.File) (rnd : Nat → U64) (cr : Option (List U8))
  (fl : Flags) (w : List (String × List U8 × U64))
include he

/-- What is known of each run of a test, in a run of the program that completes or panics later. -/
theorem described (hcr : ∀ b, cr = some b → b.length = 8) (seed : Int) (hs : seedFor (hashfSys e nextPrime files rnd cr) fl = some seed) (content : String → List (List U8))
    (hp : PrimeSizes (hashfSys e nextPrime files rnd cr) fl) (hx : 0 ≤ fl.extra) (hx' : fl.extra ≤ 11)
    (hfile : ∀ file ∈ filesOf fl, file ≠ "" → GoodFile (hashfSys e nextPrime files rnd cr) file (content file)) (hpos : AllPossible fl fl.n (plan fl))
    (lbl : String) (f : Flag) (name file : String) (r : Result) (hm : .run lbl f name file r ∈ (main (hashfSys e nextPrime files rnd cr) fl w).events) :
    ∃ lines n ls, Describes (hashfSys e nextPrime files rnd cr) fl name seed lines n ls f r := by
  have key : ∀ l es, Follows (hashfSys e nextPrime files rnd cr) fl seed content fl.n l es → .run lbl f name file r ∈ es →
      ∃ lines n ls, Describes (hashfSys e nextPrime files rnd cr) fl name seed lines n ls f r := by
    intro l es h1 h2
    obtain ⟨m, s, _, h3⟩ := follows_mem h1 _ h2
    cases s with
    | test file' f' hash' =>
      obtain ⟨r', h4, h5⟩ := h3
      injection h4 with h4 h6 h7 h8 h9
      subst h6 h7 h8 h9
      exact ⟨_, _, _, h5⟩
    | read file' => obtain ⟨ht, h4, _⟩ := h3; exact nomatch h4
    | smhasher h => exact nomatch h3
    | bench h => exact nomatch h3
    | hardcoded => exact nomatch h3
  obtain ⟨es, ⟨h1, st, h2⟩ | ⟨pre, s, post, err, _, h1, _, h2⟩⟩ := C99_total (hashfSys e nextPrime files rnd cr) fl w hcr seed hs content hp hx hx' hfile
    (fun hash _ => C99_hashf_decided e he nextPrime files rnd cr hash) hpos
  · rw [h2] at hm; exact key _ es h1 hm
  · rw [h2] at hm; exact key _ es h1 hm

/-- C117. The test program, with the hash functions of package hashf and any flags for which `C99_total` holds: every run of test I (up to
2^32 integers) or L under `murmur332`, `gomap32` or `gomap64`, and every run of test H under `gomap64`, reports no duplicates, whatever
the seed and the kind of table; and in test L every key has its own hash. -/
theorem C117_no_duplicates (hcr : ∀ b, cr = some b → b.length = 8) (seed : Int) (hs : seedFor (hashfSys e nextPrime files rnd cr) fl = some seed) (content : String → List (List U8))
    (hp : PrimeSizes (hashfSys e nextPrime files rnd cr) fl) (hx : 0 ≤ fl.extra) (hx' : fl.extra ≤ 11)
    (hfile : ∀ file ∈ filesOf fl, file ≠ "" → GoodFile (hashfSys e nextPrime files rnd cr) file (content file)) (hpos : AllPossible fl fl.n (plan fl))
    (lbl : String) (f : Flag) (name file : String) (r : Result) (hm : .run lbl f name file r ∈ (main (hashfSys e nextPrime files rnd cr) fl w).events)
    (b : Nat) (hname : (name, b) ∈ oneToOne) (hf : (f = .H ∧ name = "gomap64") ∨ (f = .I ∧ fl.ni ≤ 2 ^ 32) ∨ f = .L) :
    r.ht.dups = 0 ∧ r.dups2 = 0 := by
  obtain ⟨lines, n, ls, hd⟩ := described e he nextPrime files rnd cr fl w hcr seed hs content hp hx hx' hfile hpos lbl f name file r hm
  have hc : name ≠ "nullhash" ∧ name ≠ "nullhashF64ns" := by
    simp only [oneToOne, List.mem_cons, Prod.mk.injEq, List.not_mem_nil, or_false] at hname
    rcases hname with ⟨rfl, rfl⟩ | ⟨rfl, rfl⟩ | ⟨rfl, rfl⟩ <;> decide
  have hG := C99_hashf_determined e he nextPrime files rnd cr name hc.1 hc.2
  obtain ⟨hnd, hlen⟩ := keys_short ls fl.ni f (hf.imp_left And.left)
  have hb : (if f = .H then 6 else if f = .I then 4 else 3) ≤ b := by
    simp only [oneToOne, List.mem_cons, Prod.mk.injEq, List.not_mem_nil, or_false] at hname
    rcases hname with ⟨rfl, rfl⟩ | ⟨rfl, rfl⟩ | ⟨rfl, rfl⟩
    · rcases hf with ⟨rfl, h⟩ | ⟨rfl, h⟩ | rfl
      · exact absurd h (by decide)
      · decide
      · decide
    · rcases hf with ⟨rfl, h⟩ | ⟨rfl, h⟩ | rfl
      · exact absurd h (by decide)
      · decide
      · decide
    · rcases hf with ⟨rfl, h⟩ | ⟨rfl, h⟩ | rfl <;> decide
  have hinj : ((keysFor ls fl.ni f).map fun k => valueOf (outcome e [] name) k (BitVec.ofInt 64 seed)).Nodup := by
    refine List.Nodup.map_on ?_ hnd
    intro x hx y hy h
    exact value_inj e he name b hname _ x y ((hlen x hx).trans (hlen y hy).symm) (by rw [hlen x hx]; exact hb) h
  refine ⟨by rw [dups_of hd _ hG]; exact eqPairs_nodup _ hinj, ?_⟩
  rw [hd.dups2 _ hG]
  split
  · rw [List.toFinset_card_of_nodup hinj, List.length_map, Nat.sub_self]
  · rfl

/-- C117. Over all 2^32 integers (`-ni 4294967296`) `murmur332` and `gomap32` are perfectly even: in every run of test M whose `n` is a power of two,
all bins are equal, and in every run of test I into a chaining table of `2^k` buckets (no `-p`) every chain has length `2^(32-k)`. -/
theorem C117_even (hcr : ∀ b, cr = some b → b.length = 8) (seed : Int) (hs : seedFor (hashfSys e nextPrime files rnd cr) fl = some seed) (content : String → List (List U8))
    (hp : PrimeSizes (hashfSys e nextPrime files rnd cr) fl) (hx : 0 ≤ fl.extra) (hx' : fl.extra ≤ 11)
    (hfile : ∀ file ∈ filesOf fl, file ≠ "" → GoodFile (hashfSys e nextPrime files rnd cr) file (content file)) (hpos : AllPossible fl fl.n (plan fl))
    (lbl : String) (f : Flag) (name file : String) (r : Result) (hm : .run lbl f name file r ∈ (main (hashfSys e nextPrime files rnd cr) fl w).events)
    (hname : name = "murmur332" ∨ name = "gomap32") (hni : fl.ni = 2 ^ 32) (k : Nat) (hk : k ≤ 32) :
    (f = .M → r.hist.length = 2 ^ k → r.hist = List.replicate (2 ^ k) (2 ^ (32 - k))) ∧
    (f = .I → fl.oa = false → fl.prime = false → r.ht.buckets.length = 2 ^ k → ∀ c ∈ r.ht.buckets, c.length = 2 ^ (32 - k)) := by
  obtain ⟨lines, n, ls, hd⟩ := described e he nextPrime files rnd cr fl w hcr seed hs content hp hx hx' hfile hpos lbl f name file r hm
  have hc : name ≠ "nullhash" ∧ name ≠ "nullhashF64ns" := by
    rcases hname with rfl | rfl <;> decide
  have hG := C99_hashf_determined e he nextPrime files rnd cr name hc.1 hc.2
  have hn32 : fl.ni.toNat = 2 ^ 32 := by rw [hni]; rfl
  constructor
  · rintro rfl hl
    have h1 := hd.hist _ hG
    rw [if_pos rfl] at h1
    have hn : n.toNat = 2 ^ k := by rw [← hl, h1]; simp
    rw [h1, hn, hn32, List.eq_replicate_iff]
    refine ⟨by simp, fun x hx => ?_⟩
    obtain ⟨b, hb, rfl⟩ := List.mem_map.1 hx
    rw [List.mem_range] at hb
    exact even_values e he name hname _ k b hk hb
  · rintro rfl ho hpr hl c hc
    have h1 := (hd.table.filled ho _ hG).buckets
    have h2 := hd.table.length
    rw [← h2, hl, hpr] at h1
    rw [h1] at hc
    obtain ⟨b, hb, rfl⟩ := List.mem_map.1 hc
    rw [List.mem_range] at hb
    rw [← List.countP_eq_length_filter]
    show ((List.range fl.ni.toNat).map (leBytes 4)).countP _ = _
    rw [hn32, List.countP_map, ← even_values e he name hname (BitVec.ofInt 64 seed) k b hk hb]
    apply List.countP_congr
    intro i _
    simp only [Function.comp_apply, decide_eq_true_eq, homeOf, Bool.false_eq_true, if_false, Nat.and_two_pow_sub_one_eq_mod]

/-- C117. Beyond that the integers of test I repeat: each run, with any hash function but the two counters, reports at least one duplicate for
every integer from 2^32 on; and exactly one each under the three functions, up to 2^33. -/
theorem C117_repeats (hcr : ∀ b, cr = some b → b.length = 8) (seed : Int) (hs : seedFor (hashfSys e nextPrime files rnd cr) fl = some seed) (content : String → List (List U8))
    (hp : PrimeSizes (hashfSys e nextPrime files rnd cr) fl) (hx : 0 ≤ fl.extra) (hx' : fl.extra ≤ 11)
    (hfile : ∀ file ∈ filesOf fl, file ≠ "" → GoodFile (hashfSys e nextPrime files rnd cr) file (content file)) (hpos : AllPossible fl fl.n (plan fl))
    (lbl : String) (name file : String) (r : Result) (hm : .run lbl .I name file r ∈ (main (hashfSys e nextPrime files rnd cr) fl w).events)
    (h1 : name ≠ "nullhash") (h2 : name ≠ "nullhashF64ns") (j : Nat) (hj : fl.ni = 2 ^ 32 + j) :
    j ≤ r.ht.dups ∧ (name ∈ oneToOne.map Prod.fst → j ≤ 2 ^ 32 → r.ht.dups = j) := by
  obtain ⟨lines, n, ls, hd⟩ := described e he nextPrime files rnd cr fl w hcr seed hs content hp hx hx' hfile hpos lbl .I name file r hm
  have hG := C99_hashf_determined e he nextPrime files rnd cr name h1 h2
  have hni : fl.ni.toNat = 2 ^ 32 + j := by rw [hj]; omega
  have hdup := dups_of hd _ hG
  rw [show keysFor ls fl.ni .I = (List.range fl.ni.toNat).map (leBytes 4) from rfl, hni, List.map_map] at hdup
  have hper : ∀ i, leBytes 4 (2 ^ 32 + i) = leBytes 4 i := fun i => (leBytes4_inj _ _).2 (by simp)
  have hf : ∀ i, ((fun k => valueOf (outcome e [] name) k (BitVec.ofInt 64 seed)) ∘ leBytes 4) (2 ^ 32 + i) =
      ((fun k => valueOf (outcome e [] name) k (BitVec.ofInt 64 seed)) ∘ leBytes 4) i := by
    intro i
    simp only [Function.comp_apply, hper]
  refine ⟨by rw [hdup]; exact eqPairs_period (2 ^ 32) (by norm_num) _ hf j, fun hn hj' => ?_⟩
  rw [hdup]
  refine eqPairs_period_inj (2 ^ 32) _ hf ?_ j hj'
  intro a ha b hb hab
  obtain ⟨⟨x, c⟩, hc, rfl⟩ := List.mem_map.1 hn
  have h4 : 4 ≤ c := by
    simp only [oneToOne, List.mem_cons, Prod.mk.injEq, List.not_mem_nil, or_false] at hc
    rcases hc with ⟨_, rfl⟩ | ⟨_, rfl⟩ | ⟨_, rfl⟩ <;> decide
  have h5 := value_inj e he x c hc _ _ _ ((leBytes_length 4 a).trans (leBytes_length 4 b).symm) (by rw [leBytes_length]; exact h4) hab
  rwa [leBytes4_inj, Nat.mod_eq_of_lt ha, Nat.mod_eq_of_lt hb] at h5

end runs


/-- The command line `-hf=murmur332 -I -L -M -ni=4294967296 -n=65536`. -/
def allIntegers : Flags := { exampleFlags with file := "", args := [], hf := "murmur332", ni := 2 ^ 32, n := 65536, dru := false, t0 := false, on := fun f => f = .I ∨ f = .L ∨ f = .M }

theorem allIntegers_plan : plan allIntegers = [.test "" .I "murmur332", .test "" .L "murmur332", .test "" .M "murmur332"] := by decide

/-- The hypotheses of the theorems of C117 hold of this command line, and its events do contain runs of tests I, L and M, with 2^16 buckets and bins. -/
theorem C117_reached (nextPrime : Int → Int) (files : String → Option Model.Ht.File) (rnd : Nat → U64) (w : List (String × List U8 × U64)) :
    let sys := hashfSys exampleExt nextPrime files rnd none
    PrimeSizes sys allIntegers ∧ (∃ seed, seedFor sys allIntegers = some seed) ∧ AllPossible allIntegers allIntegers.n (plan allIntegers) ∧
    (∀ file ∈ filesOf allIntegers, file = "") ∧
    (∃ r, .run "TestI" .I "murmur332" "" r ∈ (main sys allIntegers w).events ∧ r.ht.buckets.length = 2 ^ 16) ∧
    (∃ r, .run "TestL" .L "murmur332" "" r ∈ (main sys allIntegers w).events) ∧
    (∃ r, .run "TestL" .M "murmur332" "" r ∈ (main sys allIntegers w).events ∧ r.hist.length = 2 ^ 16) := by
  intro sys
  have hh : ∀ s ks, Hashes sys "murmur332" s ks := fun s ks => C99_hashf_hashes exampleExt exampleExt_ok nextPrime files rnd none "murmur332" (by decide) s ks fun k _ => by
    rintro (⟨h, _⟩ | ⟨h, _⟩ | ⟨h, _⟩ | ⟨h, _⟩ | ⟨h, _⟩) <;> revert h <;> decide
  have hp : PrimeSizes sys allIntegers := primeSizes_of rfl
  have hs : seedFor sys allIntegers = some 7 := by
    have : seedFor sys allIntegers = some (BitVec.ofInt 64 allIntegers.s).toInt := rfl
    rw [this]
    decide
  have hfo : ∀ file ∈ filesOf allIntegers, file = "" := by decide
  obtain ⟨es, st, h1, h2⟩ := C99_results sys allIntegers w (fun b h => nomatch h) 7 hs (fun _ => []) hp (by decide) (by decide) (fun file h h' => absurd (hfo file h) h') (by
    rw [allIntegers_plan]
    exact ⟨⟨(fun h => (nomatch h)), (fun h => (nomatch h)), fun _ => by decide, (fun h => (nomatch h)), hh _ _, (fun h => (nomatch h)), (fun h => (nomatch h))⟩,
      ⟨(fun h => (nomatch h)), (fun h => (nomatch h)), (fun h => (nomatch h)), (fun h => (nomatch h)), hh _ _, (fun h => (nomatch h)), (fun h => (nomatch h))⟩,
      ⟨(fun h => (nomatch h)), (fun h => (nomatch h)), (fun h => (nomatch h)), fun _ => by decide, hh _ _, (fun h => (nomatch h)), (fun h => (nomatch h))⟩, trivial⟩)
  refine ⟨hp, ⟨7, hs⟩, by rw [allIntegers_plan]; exact ⟨⟨(fun h => (nomatch h)), fun _ => by decide, (fun h => (nomatch h))⟩, ⟨(fun h => (nomatch h)), (fun h => (nomatch h)), (fun h => (nomatch h))⟩, ⟨(fun h => (nomatch h)), (fun h => (nomatch h)), fun _ => by decide⟩, trivial⟩, hfo, ?_, ?_, ?_⟩
  · obtain ⟨x, h3, r, rfl, h4⟩ := follows_get sys allIntegers 0 _ h2 (by rw [allIntegers_plan]; rfl)
    refine ⟨r, by rw [h1]; exact List.mem_of_getElem? h3, ?_⟩
    rw [h4.table.length]
    rw [allIntegers_plan]
    show room sys allIntegers 65536 = _
    rw [room_of rfl]
    show slots 0 65536 = _
    unfold slots
    rw [if_neg (by decide)]
    have : Nat.clog 2 65536 = 16 := by rw [show (65536 : Nat) = 2 ^ 16 from rfl, Nat.clog_pow 2 16 (by decide)]
    rw [show (65536 : Int).toNat % 2 ^ 32 = 65536 from rfl, this]
    rfl
  · obtain ⟨x, h3, r, rfl, h4⟩ := follows_get sys allIntegers 1 _ h2 (by rw [allIntegers_plan]; rfl)
    exact ⟨r, by rw [h1]; exact List.mem_of_getElem? h3⟩
  · obtain ⟨x, h3, r, rfl, h4⟩ := follows_get sys allIntegers 2 _ h2 (by rw [allIntegers_plan]; rfl)
    refine ⟨r, by rw [h1]; exact List.mem_of_getElem? h3, ?_⟩
    rw [h4.hist _ (C99_hashf_determined exampleExt exampleExt_ok nextPrime files rnd none "murmur332" (by decide) (by decide)), if_pos rfl, allIntegers_plan]
    rw [List.length_map, List.length_range]
    rfl

end Verif.Props
