import Verif.Props.MetroSteer
import Verif.Props.Small
import Mathlib.Combinatorics.Pigeonhole

/-!
# C126: every name can be flooded, and for which names one list of keys does it for every seed
-/

namespace Verif.Props
open Verif
open Verif.Spec.Hashf (resultAfter Ok names counters)
open Verif.Model.Hashf (Ext)
open Verif.Spec.HtMain (valueOf)

/-- Among the byte strings of length `len` some `256^(len - 8)` have the same 64-bit value. -/
theorem pigeonhole (len n : Nat) (h8 : 8 ≤ len) (hn : n ≤ 256 ^ (len - 8)) (f : List U8 → U64) :
    ∃ ks : List (List U8), ks.Nodup ∧ ks.length = n ∧ (∀ k ∈ ks, k.length = len) ∧ ∃ h, ∀ k ∈ ks, f k = h := by
  obtain ⟨v, _, hv⟩ := Finset.exists_le_card_fiber_of_mul_le_card_of_maps_to (s := Finset.range (256 ^ len)) (t := Finset.range (2 ^ 64))
    (f := fun i => (f (leBytes len i)).toNat) (n := n) (fun i _ => Finset.mem_range.2 (f (leBytes len i)).isLt) ⟨0, by simp⟩ (by
      rw [Finset.card_range, Finset.card_range]
      calc 2 ^ 64 * n ≤ 2 ^ 64 * 256 ^ (len - 8) := Nat.mul_le_mul_left _ hn
        _ = 256 ^ 8 * 256 ^ (len - 8) := by norm_num
        _ = 256 ^ len := by rw [← Nat.pow_add]; congr 1; omega)
  obtain ⟨s, hs, hc⟩ := Finset.exists_subset_card_eq hv
  refine ⟨s.toList.map (leBytes len), ?_, by rw [List.length_map, Finset.length_toList, hc], ?_, BitVec.ofNat 64 v, ?_⟩
  · apply List.Nodup.map_on _ s.nodup_toList
    intro i hi j hj h
    have bound : ∀ x ∈ s.toList, x < 256 ^ len := fun x hx => Finset.mem_range.1 (Finset.mem_filter.1 (hs (Finset.mem_toList.1 hx))).1
    have h2 := congrArg leNat h
    rw [leNat_leBytes, leNat_leBytes, Nat.mod_eq_of_lt (bound i hi), Nat.mod_eq_of_lt (bound j hj)] at h2
    exact h2
  · intro k hk
    obtain ⟨i, _, rfl⟩ := List.mem_map.1 hk
    exact leBytes_length _ _
  · intro k hk
    obtain ⟨i, hi, rfl⟩ := List.mem_map.1 hk
    have := (Finset.mem_filter.1 (hs (Finset.mem_toList.1 hi))).2
    rw [← this, BitVec.ofNat_toNat, BitVec.setWidth_eq]

/-- C126. Under every name but the two counters, for every seed and every length of at least 8 bytes, up to `256^(len - 8)` different keys of that length have one hash; under the
names that ignore the seed they then have it for every seed. -/
theorem C126_all_names (e : Ext) (he : Ok e) (name : String) (hname : name ∈ names) (hc : name ∉ counters) (len n : Nat) (h8 : 8 ≤ len) (hn : n ≤ 256 ^ (len - 8)) (seed : U64) :
    ∃ ks : List (List U8), ks.Nodup ∧ ks.length = n ∧ (∀ k ∈ ks, k.length = len) ∧
      ∃ h, ∀ k ∈ ks, ∀ hist, resultAfter e hist name k seed = .ok h ∧ (name ∈ seedless → ∀ s, resultAfter e hist name k s = .ok h) := by
  obtain ⟨ks, h1, h2, h3, h, h4⟩ := pigeonhole len n h8 hn (valueOf (resultAfter e [] name) · seed)
  refine ⟨ks, h1, h2, h3, h, fun k hk hist => ?_⟩
  have hl : 8 ≤ k.length := by rw [h3 k hk]; exact h8
  have hs : ¬ tooShort name k := by
    unfold tooShort
    rintro (⟨_, h⟩ | ⟨_, h⟩ | ⟨_, h⟩ | ⟨_, h⟩ | ⟨_, h⟩)
    · omega
    · omega
    · omega
    · rw [h] at hl; simp at hl
    · rw [h] at hl; simp at hl
  obtain ⟨v, hv⟩ := (C78_short_key e he [] name k seed hname).2 hs
  have hn1 : name ≠ "nullhash" := fun h => hc (by rw [h]; decide)
  have hn2 : name ≠ "nullhashF64ns" := fun h => hc (by rw [h]; decide)
  have hvh : v = h := by
    have := h4 k hk
    simpa only [valueOf, hv] using this
  have hr : resultAfter e hist name k seed = .ok h := by rw [C81_independent e he hist [] name k seed hn1 hn2, hv, hvh]
  exact ⟨hr, fun hsl s => (C80_ignored e he hist name hsl k s seed).trans hr⟩

/-- C126. So no name protects a chaining table of any size, whatever its seed; and under a name that ignores the seed one and the same list of keys floods every table. -/
theorem C126_flood (e : Ext) (he : Ok e) (name : String) (hname : name ∈ names) (hc : name ∉ counters) (len n : Nat) (h8 : 8 ≤ len) (h2 : 2 ≤ n) (hn : n ≤ 256 ^ (len - 8)) (seed : U64) :
    ∃ ks : List (List U8), ks.Nodup ∧ ks.length = n ∧ (∀ k ∈ ks, k.length = len) ∧
      ∀ (np : Int → Int) (size tseed extra : Int) (pd prime : Bool) (ht0 : HashTable.HT (List U8)),
        HashTable.newHashTable np size tseed extra pd false prime = .ok ht0 → 0 < ht0.buckets.length → (ht0.seed = seed ∨ name ∈ seedless) →
        ∃ ht, HashTable.insertAll (HashTable.pureEnv (valueOf (resultAfter e [] name)) (fun _ => true)) () ht0 ks = .ok ((), ht) ∧
          (∃ i : Nat, ht.buckets[i]? = some ks ∧ ∀ j : Nat, j ≠ i → ∀ c, ht.buckets[j]? = some c → c = []) ∧
          2 * ht.dups = n * (n - 1) ∧ ht.heads = 1 ∧ ht.nbuckets = n - 1 ∧ ht.longestChain = n := by
  obtain ⟨ks, h1, hl, h3, h, h4⟩ := C126_all_names e he name hname hc len n h8 hn seed
  refine ⟨ks, h1, hl, h3, fun np size tseed extra pd prime ht0 hnew hpos hs => flood_of _ np size tseed extra pd prime ht0 hnew hpos n h2 ks hl h fun k hk => ?_⟩
  rcases hs with hs | hs
  · simp only [valueOf, hs, (h4 k hk []).1]
  · simp only [valueOf, (h4 k hk []).2 hs]

/-- `a` twice, `b` twice, ... -/
def doubled (bs : List (List U8)) : List U8 := (bs.map fun b => b ++ b).flatten

theorem doubled_crapwow (bs : List (List U8)) (hb : ∀ b ∈ bs, b.length = 8) (y : List U8) (seed : U32) :
    Model.CrapWow.CrapWow (doubled bs ++ y) seed = Model.CrapWow.CrapWow (List.replicate (16 * bs.length) 0#8 ++ y) seed := by
  have key : ∀ (bs : List (List U8)), (∀ b ∈ bs, b.length = 8) → ∀ p : List (List U8), (∀ b ∈ p, b.length = 8) →
      Model.CrapWow.CrapWow (p.flatten ++ (doubled bs ++ y)) seed = Model.CrapWow.CrapWow (p.flatten ++ (List.replicate (16 * bs.length) 0#8 ++ y)) seed := by
    intro bs
    induction bs with
    | nil => intro _ p _; rfl
    | cons a bs ih =>
      intro hb p hp
      have ha : a.length = 8 := hb a (List.mem_cons_self ..)
      have hz : (List.replicate 8 (0#8 : U8)).length = 8 := List.length_replicate
      have e1 : p.flatten ++ (doubled (a :: bs) ++ y) = (p ++ [a, a]).flatten ++ (doubled bs ++ y) := by simp [doubled]
      have e2 : ([a, a] ++ p).flatten ++ (doubled bs ++ y) = a ++ a ++ (p.flatten ++ (doubled bs ++ y)) := by simp
      have e3 : List.replicate 8 0#8 ++ List.replicate 8 0#8 ++ (p.flatten ++ (doubled bs ++ y)) = ([List.replicate 8 0#8, List.replicate 8 0#8] ++ p).flatten ++ (doubled bs ++ y) := by simp
      have hp2 : ∀ b ∈ [List.replicate 8 0#8, List.replicate 8 0#8] ++ p, b.length = 8 := by
        intro b h
        rcases List.mem_append.1 h with h | h
        · simp only [List.mem_cons, List.not_mem_nil, or_false, or_self] at h
          rw [h, hz]
        · exact hp b h
      have hp1 : ∀ b ∈ p ++ [a, a], b.length = 8 := by
        intro b h
        rcases List.mem_append.1 h with h | h
        · exact hp b h
        · simp only [List.mem_cons, List.not_mem_nil, or_false, or_self] at h
          rw [h, ha]
      rw [e1, C52_order_violated (p ++ [a, a]) ([a, a] ++ p) _ seed hp1 List.perm_append_comm, e2,
        C52_pairs_cancel a (List.replicate 8 0#8) (p.flatten ++ (doubled bs ++ y)) seed ha hz, e3, ih (fun b h => hb b (List.mem_cons_of_mem _ h)) _ hp2]
      have hz2 : ∀ b ∈ p ++ [List.replicate 8 0#8, List.replicate 8 0#8], b.length = 8 := by
        intro b h
        rcases List.mem_append.1 h with h | h
        · exact hp b h
        · simp only [List.mem_cons, List.not_mem_nil, or_false, or_self] at h
          rw [h, hz]
      rw [C52_order_violated _ (p ++ [List.replicate 8 0#8, List.replicate 8 0#8]) _ seed hp2 List.perm_append_comm]
      congr 1
      rw [List.length_cons, show 16 * (bs.length + 1) = 8 + (8 + 16 * bs.length) by omega, List.replicate_add, List.replicate_add]
      simp
  exact key bs hb [] (by simp)

/-- C126. The seed of `CrapWow` does not help: doubling every block of 8 bytes gives `256^(8 m)` keys of `16 m` bytes that collide for every seed, whatever is appended to all of them. -/
theorem C126_crapwow (e : Ext) (he : Ok e) (m n : Nat) (hn : n ≤ 256 ^ (8 * m)) :
    ∃ ks : List (List U8), ks.Nodup ∧ ks.length = n ∧ (∀ k ∈ ks, k.length = 16 * m) ∧
      ∀ (y : List U8) (seed : U64), ∃ h, ∀ k ∈ ks, ∀ hist, resultAfter e hist "CrapWow" (k ++ y) seed = .ok h := by
  have hb : ∀ i, (blocks 8 (leBytes (8 * m) i)).length = m ∧ (∀ b ∈ blocks 8 (leBytes (8 * m) i), b.length = 8) ∧ (blocks 8 (leBytes (8 * m) i)).flatten = leBytes (8 * m) i := fun i => by
    have hl : (leBytes (8 * m) i).length = 8 * m := leBytes_length _ _
    refine ⟨by rw [blocks_length, hl]; omega, fun b hb => blocks_mem_length (by decide) hb, ?_⟩
    have := blocks_flatten (n := 8) (by decide) (leBytes (8 * m) i)
    rwa [show tailOf 8 (leBytes (8 * m) i) = [] by unfold tailOf; exact List.drop_of_length_le (by omega), List.append_nil] at this
  have hd : ∀ bs : List (List U8), (∀ b ∈ bs, b.length = 8) → (doubled bs).length = 16 * bs.length := by
    intro bs
    induction bs with
    | nil => intro _; rfl
    | cons a bs ih =>
      intro h
      have h1 := ih fun b hb => h b (List.mem_cons_of_mem _ hb)
      have ha := h a (List.mem_cons_self ..)
      unfold doubled at h1 ⊢
      rw [List.map_cons, List.flatten_cons, List.length_append, h1, List.length_append, ha, List.length_cons]
      omega
  have dinj : ∀ bs cs : List (List U8), (∀ b ∈ bs, b.length = 8) → (∀ b ∈ cs, b.length = 8) → bs.length = cs.length → doubled bs = doubled cs → bs = cs := by
    intro bs
    induction bs with
    | nil => intro cs _ _ hl _; exact (List.length_eq_zero_iff.1 hl.symm).symm
    | cons a bs ih =>
      intro cs h1 h2 hl h
      cases cs with
      | nil => simp at hl
      | cons c cs =>
        have ha := h1 a (List.mem_cons_self ..)
        have hc := h2 c (List.mem_cons_self ..)
        simp only [doubled, List.map_cons, List.flatten_cons] at h
        have h3 := List.append_inj h (by rw [List.length_append, List.length_append, ha, hc])
        have h4 := List.append_inj h3.1 (ha.trans hc.symm)
        rw [h4.1, ih cs (fun b hb => h1 b (List.mem_cons_of_mem _ hb)) (fun b hb => h2 b (List.mem_cons_of_mem _ hb)) (by simpa using hl) h3.2]
  refine ⟨(List.range n).map fun i => doubled (blocks 8 (leBytes (8 * m) i)), ?_, by simp, ?_, ?_⟩
  · apply List.Nodup.map_on _ List.nodup_range
    intro i hi j hj h
    rw [List.mem_range] at hi hj
    have h1 := congrArg List.flatten (dinj _ _ (hb i).2.1 (hb j).2.1 ((hb i).1.trans (hb j).1.symm) h)
    rw [(hb i).2.2, (hb j).2.2] at h1
    have h2 := congrArg leNat h1
    rw [leNat_leBytes, leNat_leBytes, Nat.mod_eq_of_lt (by omega), Nat.mod_eq_of_lt (by omega)] at h2
    exact h2
  · intro k hk
    obtain ⟨i, _, rfl⟩ := List.mem_map.1 hk
    rw [hd _ (hb i).2.1, (hb i).1]
  · intro y seed
    refine ⟨Spec.Hashf.wide (Spec.CrapWow.crapwow (List.replicate (16 * m) 0#8 ++ y) (Spec.Hashf.low seed)), fun k hk hist => ?_⟩
    obtain ⟨i, _, rfl⟩ := List.mem_map.1 hk
    refine value e he hist _ seed 8 rfl ?_
    have h1 := doubled_crapwow (blocks 8 (leBytes (8 * m) i)) (hb i).2.1 y (Spec.Hashf.low seed)
    rw [C52_sum, C52_sum, (hb i).1] at h1
    exact congrArg (fun v => some (Spec.Hashf.wide v)) (Except.ok.inj h1)

/-- C126. Under `perfecthash` and `aeshash32I` only the first 4 bytes matter, under `aeshash64I` only the first 8: keys that agree on them collide for every seed. -/
theorem C126_prefix (e : Ext) (he : Ok e) (k k' : List U8) (seed : U64) (hist : List (String × List U8 × U64)) :
    (4 ≤ k.length → 4 ≤ k'.length → k.take 4 = k'.take 4 →
      resultAfter e hist "perfecthash" k seed = resultAfter e hist "perfecthash" k' seed ∧ resultAfter e hist "aeshash32I" k seed = resultAfter e hist "aeshash32I" k' seed) ∧
    (8 ≤ k.length → 8 ≤ k'.length → k.take 8 = k'.take 8 → resultAfter e hist "aeshash64I" k seed = resultAfter e hist "aeshash64I" k' seed) := by
  refine ⟨fun h1 h2 h => ⟨?_, ?_⟩, fun h1 h2 h => ?_⟩
  · rw [value e he hist k seed 0 rfl (if_neg (by omega)), value e he hist k' seed 0 rfl (if_neg (by omega)), h]
  · rw [value e he hist k seed 4 rfl (if_neg (by omega)), value e he hist k' seed 4 rfl (if_neg (by omega)), h]
  · rw [value e he hist k seed 5 rfl (if_neg (by omega)), value e he hist k' seed 5 rfl (if_neg (by omega)), h]

/-- C126_flood applies to blake2b with a thousand keys of 10 bytes: one list for every seed. -/
example : "blake2b" ∈ names ∧ "blake2b" ∉ counters ∧ "blake2b" ∈ seedless ∧ 8 ≤ 10 ∧ 2 ≤ 1000 ∧ 1000 ≤ 256 ^ (10 - 8) ∧ Ok exampleExt ∧
    ∃ ht0 : HashTable.HT (List U8), HashTable.newHashTable id 16 5 0 false false false = .ok ht0 ∧ 0 < ht0.buckets.length :=
  ⟨by decide, by decide, by decide, by decide, by decide, by decide, exampleExt_ok, _, rfl, by decide⟩

/-- Two keys that collide under CrapWow for every seed, and stay so with bytes appended. -/
example : ∃ k k' : List U8, k ≠ k' ∧ ∀ (y : List U8) (seed : U64), resultAfter exampleExt [] "CrapWow" (k ++ y) seed = resultAfter exampleExt [] "CrapWow" (k' ++ y) seed := by
  obtain ⟨ks, h1, h2, _, h4⟩ := C126_crapwow exampleExt exampleExt_ok 1 2 (by norm_num)
  match ks, h1, h2, h4 with
  | [k, k'], h1, _, h4 =>
    refine ⟨k, k', by simpa using h1, fun y seed => ?_⟩
    obtain ⟨h, hh⟩ := h4 y seed
    rw [hh k (by simp) [], hh k' (by simp) []]

end Verif.Props
