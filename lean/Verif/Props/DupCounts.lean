import Verif.Props.NoDups
import Mathlib.Algebra.Order.Chebyshev

/-!
# C142: what the two duplicate counts say about each other
-/

namespace Verif.Props.DupCounts
open Verif Verif.Spec.HtMain Verif.Spec.Ht Verif.Spec.HashTable
open Verif.Model.HtMain (Flag Flags Sys Result main)
open Verif.Spec.Hashf (Ok resultAfter outcome)

section counting
variable {α : Type} [DecidableEq α]

theorem countP_eq (l : List α) (x : α) : l.countP (fun y => y = x) = l.count x := by
  unfold List.count
  congr 1

/-- How much one value can repeat. -/
theorem count_le (x : α) : ∀ l : List α, l.count x + l.toFinset.card ≤ l.length + 1 := by
  intro l
  induction l with
  | nil => simp
  | cons a l ih =>
    rw [List.toFinset_cons, List.length_cons]
    by_cases h : a = x
    · subst h
      rw [List.count_cons_self]
      by_cases hm : a ∈ l
      · rw [Finset.insert_eq_of_mem (List.mem_toFinset.2 hm)]; omega
      · rw [List.count_eq_zero_of_not_mem hm] 
        have := Finset.card_insert_le a l.toFinset
        have := List.toFinset_card_le l
        omega
    · rw [List.count_cons_of_ne h]
      have := Finset.card_insert_le a l.toFinset
      omega

theorem card_cons (a : α) (l : List α) : (a :: l).toFinset.card = l.toFinset.card + if a ∈ l then 0 else 1 := by
  rw [List.toFinset_cons]
  by_cases hm : a ∈ l
  · rw [Finset.insert_eq_of_mem (List.mem_toFinset.2 hm), if_pos hm]; rfl
  · rw [Finset.card_insert_of_notMem (by simpa using hm), if_neg hm]

theorem lower : ∀ l : List α, l.length ≤ eqPairs l + l.toFinset.card := by
  intro l
  induction l with
  | nil => simp
  | cons a l ih =>
    rw [eqPairs, card_cons, countP_eq, List.length_cons]
    by_cases hm : a ∈ l
    · have := List.count_pos_iff.2 hm
      omega
    · rw [if_neg hm]; omega

theorem upper : ∀ l : List α, 2 * eqPairs l ≤ (l.length - l.toFinset.card) * (l.length - l.toFinset.card + 1) := by
  intro l
  induction l with
  | nil => simp [eqPairs]
  | cons a l ih =>
    have hc := count_le a l
    have hl := List.toFinset_card_le l
    rw [eqPairs, card_cons, countP_eq, List.length_cons]
    by_cases hm : a ∈ l
    · rw [if_pos hm]
      generalize hd : l.length - l.toFinset.card = d at ih
      have e : l.length + 1 - (l.toFinset.card + 0) = d + 1 := by omega
      rw [e]
      have : l.count a ≤ d + 1 := by omega
      nlinarith
    · rw [if_neg hm, List.count_eq_zero_of_not_mem hm]
      have e : l.length + 1 - (l.toFinset.card + 1) = l.length - l.toFinset.card := by omega
      rw [e]; omega

theorem equal_iff : ∀ l : List α, eqPairs l + l.toFinset.card = l.length ↔ ∀ x, l.count x ≤ 2 := by
  intro l
  induction l with
  | nil => simp [eqPairs]
  | cons a l ih =>
    have h0 := lower l
    rw [eqPairs, card_cons, countP_eq, List.length_cons]
    have key : (l.count a + eqPairs l + (l.toFinset.card + if a ∈ l then 0 else 1) = l.length + 1) ↔
        (eqPairs l + l.toFinset.card = l.length ∧ l.count a ≤ 1) := by
      by_cases hm : a ∈ l
      · have := List.count_pos_iff.2 hm
        rw [if_pos hm]; omega
      · have := List.count_eq_zero_of_not_mem hm
        rw [if_neg hm]; omega
    rw [key, ih]
    constructor
    · rintro ⟨h1, h2⟩ x
      by_cases hx : a = x
      · subst hx; rw [List.count_cons_self]; omega
      · rw [List.count_cons_of_ne hx]; exact h1 x
    · intro h
      refine ⟨fun x => ?_, ?_⟩
      · exact le_trans (List.count_le_count_cons) (h x)
      · have := h a
        rw [List.count_cons_self] at this
        omega

theorem sum_squares : ∀ l : List α, ∑ v ∈ l.toFinset, l.count v ^ 2 = l.length + 2 * eqPairs l := by
  intro l
  induction l with
  | nil => simp [eqPairs]
  | cons a l ih =>
    rw [eqPairs, countP_eq, List.length_cons, List.toFinset_cons]
    have h1 : ∑ v ∈ insert a l.toFinset, (a :: l).count v ^ 2 = ∑ v ∈ insert a l.toFinset, l.count v ^ 2 + (2 * l.count a + 1) := by
      rw [← Finset.add_sum_erase _ _ (Finset.mem_insert_self a l.toFinset), ← Finset.add_sum_erase _ (fun v => l.count v ^ 2) (Finset.mem_insert_self a l.toFinset),
        List.count_cons_self, Finset.sum_congr rfl (g := fun v => l.count v ^ 2) (fun v hv => by rw [List.count_cons_of_ne (Ne.symm (Finset.ne_of_mem_erase hv))])]
      ring
    rw [h1]
    have h2 : ∑ v ∈ insert a l.toFinset, l.count v ^ 2 = ∑ v ∈ l.toFinset, l.count v ^ 2 := by
      by_cases hm : a ∈ l
      · rw [Finset.insert_eq_of_mem (List.mem_toFinset.2 hm)]
      · rw [Finset.sum_insert (by simpa using hm), List.count_eq_zero_of_not_mem hm]; simp
    rw [h2, ih]
    ring

theorem pigeon (l : List α) (m : Nat) (h : l.toFinset.card ≤ m) : l.length * l.length ≤ l.length * m + 2 * m * eqPairs l := by
  have h1 := sq_sum_le_card_mul_sum_sq (s := l.toFinset) (f := fun v => l.count v)
  rw [sum_squares, List.sum_toFinset_count_eq_length] at h1
  have h2 : l.toFinset.card * (l.length + 2 * eqPairs l) ≤ m * (l.length + 2 * eqPairs l) := Nat.mul_le_mul_right _ h
  nlinarith

theorem three {β : Type} (f : β → α) (l : List β) (hl : l.Nodup) :
    (∀ v, (l.map f).count v ≤ 2) ↔ ∀ x ∈ l, ∀ y ∈ l, ∀ z ∈ l, x ≠ y → y ≠ z → x ≠ z → ¬ (f x = f y ∧ f y = f z) := by
  classical
  have hc : ∀ v, (l.map f).count v = (l.filter fun k => decide (f k = v)).length := by
    intro v
    rw [← countP_eq, List.countP_map, List.countP_eq_length_filter]; rfl
  constructor
  · rintro h x hx y hy z hz hxy hyz hxz ⟨e1, e2⟩
    have := h (f x)
    rw [hc] at this
    have hs : [x, y, z].Subperm (l.filter fun k => decide (f k = f x)) := by
      apply List.Nodup.subperm
      · simp [hxy, hyz, hxz]
      · intro a ha
        rw [List.mem_filter]
        simp only [List.mem_cons, List.not_mem_nil, or_false] at ha
        rcases ha with rfl | rfl | rfl
        · exact ⟨hx, by simp⟩
        · exact ⟨hy, by simp [e1]⟩
        · exact ⟨hz, by simp [e1, e2]⟩
    have := hs.length_le
    simp only [List.length_cons, List.length_nil] at this
    omega
  · intro h v
    rw [hc]
    by_contra hn
    have hnd : (l.filter fun k => decide (f k = v)).Nodup := hl.filter _
    have hmem : ∀ a ∈ (l.filter fun k => decide (f k = v)), a ∈ l ∧ f a = v := by
      intro a ha; rw [List.mem_filter] at ha; exact ⟨ha.1, of_decide_eq_true ha.2⟩
    match hq : l.filter fun k => decide (f k = v) with
    | [] => rw [hq] at hn; simp at hn
    | [_] => rw [hq] at hn; simp at hn
    | [_, _] => rw [hq] at hn; simp at hn
    | x :: y :: z :: t =>
      rw [hq] at hnd hmem
      simp only [List.nodup_cons, List.mem_cons, not_or] at hnd
      have hx := hmem x (by simp)
      have hy := hmem y (by simp)
      have hz := hmem z (by simp)
      exact h x hx.1 y hy.1 z hz.1 hnd.1.1 hnd.2.1.1 hnd.1.2.1 ⟨hx.2.trans hy.2.symm, hy.2.trans hz.2.symm⟩

end counting

section runs
variable (e : Model.Hashf.Ext) (he : Ok e) (nextPrime : Int → Int) (files : String → Option Model.Ht.File) (rnd : Nat → U64) (cr : Option (List U8))
  (fl : Flags) (w : List (String × List U8 × U64))
include he

/-- C142. Every run of test L, under every name but the two counters: `Dups2` (keys minus different hashes) is at most `Dups` (pairs of keys with
the same hash), `Dups` at most the pairs among `Dups2 + 1` keys, and they are equal exactly if no three different keys share a hash. -/
theorem C142_testL (hcr : ∀ b, cr = some b → b.length = 8) (seed : Int) (hs : seedFor (hashfSys e nextPrime files rnd cr) fl = some seed) (content : String → List (List U8))
    (hp : PrimeSizes (hashfSys e nextPrime files rnd cr) fl) (hx : 0 ≤ fl.extra) (hx' : fl.extra ≤ 11)
    (hfile : ∀ file ∈ filesOf fl, file ≠ "" → GoodFile (hashfSys e nextPrime files rnd cr) file (content file)) (hpos : AllPossible fl fl.n (plan fl))
    (lbl : String) (name file : String) (r : Result) (hm : .run lbl .L name file r ∈ (main (hashfSys e nextPrime files rnd cr) fl w).events)
    (h1 : name ≠ "nullhash") (h2 : name ≠ "nullhashF64ns") :
    let hash := fun k => valueOf (outcome e [] name) k (BitVec.ofInt 64 seed)
    r.dups2 ≤ r.ht.dups ∧ 2 * r.ht.dups ≤ r.dups2 * (r.dups2 + 1) ∧
    (r.ht.dups = r.dups2 ↔ ¬ ∃ x y z : List U8, x.length = 3 ∧ y.length = 3 ∧ z.length = 3 ∧ x ≠ y ∧ y ≠ z ∧ x ≠ z ∧ hash x = hash y ∧ hash y = hash z) := by
  intro hash
  obtain ⟨lines, n, ls, hd⟩ := described e he nextPrime files rnd cr fl w hcr seed hs content hp hx hx' hfile hpos lbl .L name file r hm
  have hG := C99_hashf_determined e he nextPrime files rnd cr name h1 h2
  have e1 : r.ht.dups = eqPairs ((keysFor ls fl.ni .L).map hash) := dups_of hd _ hG
  have e2 : r.dups2 = ((keysFor ls fl.ni .L).map hash).length - ((keysFor ls fl.ni .L).map hash).toFinset.card := by
    rw [hd.dups2 _ hG, if_pos rfl, List.length_map]
  have hk := keys_short ls fl.ni .L (Or.inr (Or.inr rfl))
  have hall : ∀ k, k ∈ keysFor ls fl.ni .L ↔ k.length = 3 := by
    intro k
    refine ⟨fun h => hk.2 k h, fun h => ?_⟩
    show k ∈ (List.range (2 ^ 24)).map (beBytes 3)
    rw [List.mem_map]
    refine ⟨beNat k, ?_, ?_⟩
    · rw [List.mem_range]
      have := leNat_lt k.reverse
      rw [List.length_reverse, h] at this
      exact this
    · have := leBytes_leNat k.reverse
      rw [List.length_reverse, h] at this
      show (leBytes 3 (leNat k.reverse)).reverse = k
      rw [this, List.reverse_reverse]
  have hlen := List.toFinset_card_le ((keysFor ls fl.ni .L).map hash)
  have hlow := lower ((keysFor ls fl.ni .L).map hash)
  have h3 : (r.ht.dups = r.dups2) ↔ eqPairs ((keysFor ls fl.ni .L).map hash) + ((keysFor ls fl.ni .L).map hash).toFinset.card = ((keysFor ls fl.ni .L).map hash).length := by
    rw [e1, e2]; omega
  refine ⟨by rw [e1, e2]; omega, ?_, ?_⟩
  · rw [e1, e2]
    exact upper _
  · rw [h3, equal_iff, three hash _ hk.1]
    constructor
    · rintro h ⟨x, y, z, hx, hy, hz, a, b, c, d⟩
      exact h x ((hall x).2 hx) y ((hall y).2 hy) z ((hall z).2 hz) a b c d
    · intro h x hx y hy z hz a b c d
      exact h ⟨x, y, z, (hall x).1 hx, (hall y).1 hy, (hall z).1 hz, a, b, c, d⟩

/-- C142. Every run of a test that fills a table with `n` keys under a name declared to be 32 bits wide reports at least `n (n - 2^32) / 2^33` duplicates. -/
theorem C142_pigeonhole (hcr : ∀ b, cr = some b → b.length = 8) (seed : Int) (hs : seedFor (hashfSys e nextPrime files rnd cr) fl = some seed) (content : String → List (List U8))
    (hp : PrimeSizes (hashfSys e nextPrime files rnd cr) fl) (hx : 0 ≤ fl.extra) (hx' : fl.extra ≤ 11)
    (hfile : ∀ file ∈ filesOf fl, file ≠ "" → GoodFile (hashfSys e nextPrime files rnd cr) file (content file)) (hpos : AllPossible fl fl.n (plan fl))
    (lbl : String) (f : Flag) (name file : String) (r : Result) (hm : .run lbl f name file r ∈ (main (hashfSys e nextPrime files rnd cr) fl w).events)
    (title : String) (crypto : Bool) (hw : (name, title, 32, crypto) ∈ Model.Hashf.HashFunctions) :
    r.ht.inserts * r.ht.inserts ≤ r.ht.inserts * 2 ^ 32 + 2 ^ 33 * r.ht.dups := by
  obtain ⟨lines, n, ls, hd⟩ := described e he nextPrime files rnd cr fl w hcr seed hs content hp hx hx' hfile hpos lbl f name file r hm
  have hc : name ≠ "nullhash" ∧ name ≠ "nullhashF64ns" := by
    constructor
    · rintro rfl; revert hw; simp [Model.Hashf.HashFunctions]
    · rintro rfl; revert hw; simp [Model.Hashf.HashFunctions]
  have hG := C99_hashf_determined e he nextPrime files rnd cr name hc.1 hc.2
  have e1 := dups_of hd _ hG
  have e2 : r.ht.inserts = (keysFor ls fl.ni f).length := by
    cases ho : fl.oa with
    | false => exact (hd.table.counted ho).inserts
    | true => exact (hd.table.opened ho).inserts
  have hcard : ((keysFor ls fl.ni f).map fun k => valueOf (outcome e [] name) k (BitVec.ofInt 64 seed)).toFinset.card ≤ 2 ^ 32 := by
    rw [← Finset.card_image_of_injective _ (f := BitVec.toNat) (fun a b h => BitVec.eq_of_toNat_eq h), ← Finset.card_range (2 ^ 32)]
    apply Finset.card_le_card
    intro v hv
    obtain ⟨u, hu, rfl⟩ := Finset.mem_image.1 hv
    rw [List.mem_toFinset] at hu
    obtain ⟨k, _, rfl⟩ := List.mem_map.1 hu
    rw [Finset.mem_range]
    unfold valueOf
    cases hv : outcome e [] name k (BitVec.ofInt 64 seed) with
    | error _ => show (0 : Nat) < _; norm_num
    | ok v => exact C76_width e he [] name title crypto hw k (BitVec.ofInt 64 seed) v (by rw [C81_history e he]; exact hv)
  have := pigeon _ _ hcard
  rw [List.length_map, ← e1, ← e2] at this
  rw [show 2 * 2 ^ 32 = 2 ^ 33 from rfl] at this
  exact this

end runs

/-- Adler-32 as RFC 1950 defines it. -/
def adler (k : List U8) : Nat :=
  let p := k.foldl (fun (p : Nat × Nat) b => ((p.1 + b.toNat) % 65521, (p.2 + (p.1 + b.toNat) % 65521) % 65521)) (1, 0)
  p.2 * 65536 + p.1

/-- On three bytes both halves are small. -/
theorem adler_short (k : List U8) (h : k.length = 3) : ∃ a b, a < 766 ∧ b < 1531 ∧ adler k = (b + 3) * 65536 + (a + 1) := by
  match k, h with
  | [x, y, z], _ =>
    have hx := x.isLt
    have hy := y.isLt
    have hz := z.isLt
    refine ⟨x.toNat + y.toNat + z.toNat, 3 * x.toNat + 2 * y.toNat + z.toNat, by omega, by omega, ?_⟩
    simp only [adler, List.foldl]
    rw [Nat.mod_eq_of_lt (a := 1 + x.toNat) (by omega), Nat.mod_eq_of_lt (a := 0 + (1 + x.toNat)) (by omega), Nat.mod_eq_of_lt (a := 1 + x.toNat + y.toNat) (by omega),
      Nat.mod_eq_of_lt (a := 0 + (1 + x.toNat) + (1 + x.toNat + y.toNat)) (by omega), Nat.mod_eq_of_lt (a := 1 + x.toNat + y.toNat + z.toNat) (by omega), Nat.mod_eq_of_lt (by omega)]
    omega

theorem box (p q : Nat) (s : Finset Nat) (h : ∀ v ∈ s, ∃ a b, a < p ∧ b < q ∧ v = (b + 3) * 65536 + (a + 1)) : s.card ≤ p * q := by
  have hsub : s ⊆ (Finset.range p ×ˢ Finset.range q).image fun x => (x.2 + 3) * 65536 + (x.1 + 1) := by
    intro v hv
    obtain ⟨a, b, ha, hb, h4⟩ := h v hv
    rw [h4, Finset.mem_image]
    exact ⟨(a, b), by rw [Finset.mem_product, Finset.mem_range, Finset.mem_range]; exact ⟨ha, hb⟩, rfl⟩
  refine (Finset.card_le_card hsub).trans (Finset.card_image_le.trans ?_)
  rw [Finset.card_product, Finset.card_range, Finset.card_range]

/-- C142. If the Adler-32 of Go's library is that of RFC 1950, every run of test L under `adler32` reports at least 111 million duplicates in `Dups`,
and 15.6 million in `Dups2`. -/
theorem C142_adler32 (e : Model.Hashf.Ext) (he : Ok e) (nextPrime : Int → Int) (files : String → Option Model.Ht.File) (rnd : Nat → U64) (cr : Option (List U8))
    (fl : Flags) (w : List (String × List U8 × U64)) (hcr : ∀ b, cr = some b → b.length = 8) (seed : Int) (hs : seedFor (hashfSys e nextPrime files rnd cr) fl = some seed) (content : String → List (List U8))
    (hp : PrimeSizes (hashfSys e nextPrime files rnd cr) fl) (hx : 0 ≤ fl.extra) (hx' : fl.extra ≤ 11)
    (hfile : ∀ file ∈ filesOf fl, file ≠ "" → GoodFile (hashfSys e nextPrime files rnd cr) file (content file)) (hpos : AllPossible fl fl.n (plan fl))
    (lbl : String) (file : String) (r : Result) (hm : .run lbl .L "adler32" file r ∈ (main (hashfSys e nextPrime files rnd cr) fl w).events)
    (hadler : ∀ k, (e.adler32 k).toNat = adler k) : 111000000 ≤ r.ht.dups ∧ 15600000 ≤ r.dups2 := by
  obtain ⟨lines, n, ls, hd⟩ := described e he nextPrime files rnd cr fl w hcr seed hs content hp hx hx' hfile hpos lbl .L "adler32" file r hm
  have hG := C99_hashf_determined e he nextPrime files rnd cr "adler32" (by decide) (by decide)
  have e1 := dups_of hd _ hG
  have e2 := hd.dups2 _ hG
  rw [if_pos rfl] at e2
  have hk := keys_short ls fl.ni .L (Or.inr (Or.inr rfl))
  have hlen : (keysFor ls fl.ni .L).length = 2 ^ 24 := by
    show ((List.range (2 ^ 24)).map (beBytes 3)).length = _
    rw [List.length_map, List.length_range]
  have hval : ∀ k, k.length = 3 → (valueOf (outcome e [] "adler32") k (BitVec.ofInt 64 seed)).toNat = adler k := by
    intro k _
    have : outcome e [] "adler32" k (BitVec.ofInt 64 seed) = .ok (Spec.Hashf.wide (e.adler32 k)) := by
      rw [← C81_history e he]
      exact value e he [] k _ 6 rfl rfl
    have h1 := (e.adler32 k).isLt
    simp only [valueOf, this, Spec.Hashf.wide, BitVec.toNat_ofNat]
    rw [hadler] at h1 ⊢
    omega
  have hk2 : ∀ k ∈ keysFor ls fl.ni .L, k.length = 3 := hk.2
  have hcard : ((keysFor ls fl.ni .L).map fun k => valueOf (outcome e [] "adler32") k (BitVec.ofInt 64 seed)).toFinset.card ≤ 766 * 1531 := by
    rw [← Finset.card_image_of_injective _ (f := BitVec.toNat) (fun a b h => BitVec.eq_of_toNat_eq h)]
    refine box 766 1531 _ fun v hv => ?_
    rw [Finset.mem_image] at hv
    obtain ⟨u, hu, hv⟩ := hv
    rw [List.mem_toFinset, List.mem_map] at hu
    obtain ⟨k, hk', hk3⟩ := hu
    have h3 := hk2 k hk'
    rw [← hv, ← hk3, hval k h3]
    exact adler_short k h3
  have h5 := pigeon _ _ hcard
  rw [List.length_map, ← e1, hlen] at h5
  rw [hlen] at e2
  constructor
  · omega
  · omega

/-- The hypotheses hold: there is a command line with runs of test L and I under a name 32 bits wide. -/
example (nextPrime : Int → Int) (files : String → Option Model.Ht.File) (rnd : Nat → U64) (w : List (String × List U8 × U64)) :
    (∃ r, .run "TestL" .L "murmur332" "" r ∈ (main (hashfSys exampleExt nextPrime files rnd none) allIntegers w).events) ∧
    ("murmur332", "murmur332", 32, false) ∈ Model.Hashf.HashFunctions :=
  ⟨(C117_reached nextPrime files rnd w).2.2.2.2.2.1, by simp [Model.Hashf.HashFunctions]⟩

/-- "Wikipedia" has the published checksum. -/
example : adler [0x57#8, 0x69#8, 0x6B#8, 0x69#8, 0x70#8, 0x65#8, 0x64#8, 0x69#8, 0x61#8] = 0x11E60398 := by decide

theorem adler_lt (k : List U8) : adler k < 2 ^ 32 := by
  have : ∀ (k : List U8) (p : Nat × Nat), p.1 < 65521 → p.2 < 65521 →
      let q := k.foldl (fun (p : Nat × Nat) b => ((p.1 + b.toNat) % 65521, (p.2 + (p.1 + b.toNat) % 65521) % 65521)) p
      q.1 < 65521 ∧ q.2 < 65521 := by
    intro k
    induction k with
    | nil => intro p h1 h2; exact ⟨h1, h2⟩
    | cons b k ih => intro p h1 h2; exact ih _ (Nat.mod_lt _ (by norm_num)) (Nat.mod_lt _ (by norm_num))
  have h := this k (1, 0) (by norm_num) (by norm_num)
  simp only [adler]
  omega

/-- An environment with the Adler-32 of RFC 1950. -/
def adlerExt : Model.Hashf.Ext := { exampleExt with adler32 := fun k => BitVec.ofNat 32 (adler k) }

example (k : List U8) : (adlerExt.adler32 k).toNat = adler k := by
  have := adler_lt k
  show (BitVec.ofNat 32 (adler k)).toNat = _
  rw [BitVec.toNat_ofNat]
  omega

/-- The command line `-hf=adler32 -L`. -/
def adlerL : Flags := { allIntegers with hf := "adler32", on := fun f => f = .L }

theorem adlerL_plan : plan adlerL = [.test "" .L "adler32"] := by decide

/-- The hypotheses of `C142_adler32` hold of this command line, and its events do contain a run of test L. -/
example (nextPrime : Int → Int) (files : String → Option Model.Ht.File) (rnd : Nat → U64) (w : List (String × List U8 × U64)) :
    let sys := hashfSys adlerExt nextPrime files rnd none
    Ok adlerExt ∧ PrimeSizes sys adlerL ∧ (∃ seed, seedFor sys adlerL = some seed) ∧ AllPossible adlerL adlerL.n (plan adlerL) ∧
    (∀ file ∈ filesOf adlerL, file = "") ∧ ∃ r, .run "TestL" .L "adler32" "" r ∈ (main sys adlerL w).events := by
  intro sys
  have hok : Ok adlerExt := ⟨exampleExt_ok.1, exampleExt_ok.2, exampleExt_ok.3, exampleExt_ok.4⟩
  have hh : ∀ s ks, Hashes sys "adler32" s ks := fun s ks => C99_hashf_hashes adlerExt hok nextPrime files rnd none "adler32" (by decide) s ks fun k _ => by
    rintro (⟨h, _⟩ | ⟨h, _⟩ | ⟨h, _⟩ | ⟨h, _⟩ | ⟨h, _⟩) <;> revert h <;> decide
  have hp : PrimeSizes sys adlerL := primeSizes_of rfl
  have hs : seedFor sys adlerL = some 7 := by
    have : seedFor sys adlerL = some (BitVec.ofInt 64 adlerL.s).toInt := rfl
    rw [this]
    decide
  have hfo : ∀ file ∈ filesOf adlerL, file = "" := by decide
  obtain ⟨es, st, h1, h2⟩ := C99_results sys adlerL w (fun b h => nomatch h) 7 hs (fun _ => []) hp (by decide) (by decide) (fun file h h' => absurd (hfo file h) h') (by
    rw [adlerL_plan]
    exact ⟨⟨(fun h => (nomatch h)), (fun h => (nomatch h)), (fun h => (nomatch h)), (fun h => (nomatch h)), hh _ _, (fun h => (nomatch h)), (fun h => (nomatch h))⟩, trivial⟩)
  refine ⟨hok, hp, ⟨7, hs⟩, by rw [adlerL_plan]; exact ⟨⟨(fun h => (nomatch h)), (fun h => (nomatch h)), (fun h => (nomatch h))⟩, trivial⟩, hfo, ?_⟩
  obtain ⟨x, h3, r, rfl, h4⟩ := follows_get sys adlerL 0 _ h2 (by rw [adlerL_plan]; rfl)
  exact ⟨r, by rw [h1]; exact List.mem_of_getElem? h3⟩

/-- All three parts can be seen on lists of hash values: two pairs, a triple, and a mixture. -/
example : eqPairs [1, 2, 1, 2] = 2 ∧ 4 - [1, 2, 1, 2].toFinset.card = 2 ∧ eqPairs [1, 1, 1] = 3 ∧ 3 - [1, 1, 1].toFinset.card = 2 ∧
    eqPairs [1, 1, 1, 2, 2] = 4 ∧ 5 - [1, 1, 1, 2, 2].toFinset.card = 3 := by decide

end Verif.Props.DupCounts
