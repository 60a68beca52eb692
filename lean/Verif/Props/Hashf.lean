import Verif.Lemmas.Hashf2

/-!
# C76-C81, C92: package hashf

`resultAfter e hist name k seed` is what `Hashf(k, seed)` does with `Hf2 = name` after an arbitrary history `hist` of calls with
arbitrary names; `e` stands for the functions outside the repository, of which only `Ok e` (digests of at least eight bytes) is assumed.
-/

namespace Verif.Props
open Verif Verif.Model.Hashf
open Verif.Spec.Hashf (Ok resultAfter outcome table counters names low wide pack firstEight)

/-- C81. After any history each name computes the function of key and seed the specification lists for it; the two counters
return the number of calls made to them so far. -/
theorem C81_history (e : Ext) (he : Ok e) (hist : List (String × List U8 × U64)) (name : String) (k : List U8) (seed : U64) :
    resultAfter e hist name k seed = outcome e hist name k seed := by
  unfold resultAfter
  rw [Lemmas.Hashf.session_get e he (hist ++ [(name, k, seed)]) init [] hist.length (name, k, seed) Lemmas.Hashf.init_at (by simp)]
  simp

/-- C81. So `Hashf` does not depend on earlier calls, except under the names `nullhash` and `nullhashF64ns`. -/
theorem C81_independent (e : Ext) (he : Ok e) (h1 h2 : List (String × List U8 × U64)) (name : String) (k : List U8) (seed : U64)
    (hn : name ≠ "nullhash") (hf : name ≠ "nullhashF64ns") : resultAfter e h1 name k seed = resultAfter e h2 name k seed := by
  have : name ∉ counters := by simp [counters, hn, hf]
  rw [C81_history e he, C81_history e he]
  unfold outcome
  rw [if_neg this, if_neg this]

/-- C81. Under `nullhash` and `nullhashF64ns` the same call made twice gives two different results. -/
theorem C81_nullhash_violated (e : Ext) (he : Ok e) (hist : List (String × List U8 × U64)) (name : String) (k : List U8) (seed : U64)
    (hn : name = "nullhash" ∨ name = "nullhashF64ns") :
    resultAfter e (hist ++ [(name, k, seed)]) name k seed ≠ resultAfter e hist name k seed := by
  have hc : name ∈ counters := by rcases hn with rfl | rfl <;> decide
  rw [C81_history e he, C81_history e he]
  unfold outcome
  rw [if_pos hc, if_pos hc, Lemmas.Hashf.count_next]
  intro h
  injection h with h
  rw [BitVec.ofNat_add] at h
  have := add_left_inj' (BitVec.ofNat 64 ((hist.filter fun c => c.1 = name).length + 1)) (h.trans (BitVec.add_zero _).symm)
  exact absurd this (by decide)

/-- A concrete `Ext` for the examples. -/
def exampleExt : Ext := ⟨fun k s => s + BitVec.ofNat 64 k.length, fun x s => x + s, fun k => BitVec.ofNat 32 k.length, fun _ => List.replicate 28 7#8,
  fun _ => List.replicate 64 7#8, fun _ => List.replicate 32 7#8, fun _ => List.replicate 20 7#8⟩

theorem exampleExt_ok : Ok exampleExt := ⟨fun _ => by simp [exampleExt], fun _ => by simp [exampleExt], fun _ => by simp [exampleExt], fun _ => by simp [exampleExt]⟩

/-- A mixed session computed by the model: the murmur object is reused, the counter counts its own calls, unknown names panic. -/
example : session exampleExt init [("murmur332", [1#8], 0#64), ("nullhash", [], 0#64), ("murmur332", [1#8, 2#8, 3#8, 4#8, 5#8], 9#64), ("skein256", [], 0#64),
      ("murmur332", [1#8], 7#64), ("nullhash", [5#8], 1#64), ("perfecthash", [1#8, 2#8], 0#64), ("perfecthash", [1#8, 2#8, 3#8, 4#8, 5#8], 0#64)] =
    [.ok 3831157163#64, .ok 1#64, .ok 2727459272#64, .error (.explicit "hashf"), .ok 3831157163#64, .ok 2#64, .error .index, .ok 0x04030201#64] := by
  decide +kernel


/-! ## Looking a name up in the specification -/

theorem lookup_of_get {α : Type} : ∀ (l : List (String × α)), (l.map (·.1)).Nodup → ∀ (i : Nat) (x : String × α), l[i]? = some x → l.lookup x.1 = some x.2
  | [], _, i, x, h => by simp at h
  | (n, f) :: t, hn, 0, x, h => by
    simp only [List.getElem?_cons_zero, Option.some.injEq] at h
    subst h
    simp [List.lookup]
  | (n, f) :: t, hn, i + 1, x, h => by
    simp only [List.getElem?_cons_succ] at h
    simp only [List.map_cons, List.nodup_cons] at hn
    have hx : x.1 ∈ t.map (·.1) := List.mem_map.2 ⟨x, List.mem_of_getElem? h, rfl⟩
    have hne : (x.1 == n) = false := by
      rw [beq_eq_false_iff_ne]
      rintro rfl
      exact hn.1 hx
    rw [List.lookup, hne]
    exact lookup_of_get t hn.2 i x h

theorem table_names (e : Ext) : (table e).map (·.1) = names.drop 2 := rfl

theorem get_not_counter (e : Ext) (i : Nat) (x : String × (List U8 → U64 → Option U64)) (h : (table e)[i]? = some x) : x.1 ∉ counters := by
  have hx : x.1 ∈ names.drop 2 := table_names e ▸ List.mem_map.2 ⟨x, List.mem_of_getElem? h, rfl⟩
  have : ∀ y ∈ names.drop 2, y ∉ counters := by decide
  exact this _ hx

theorem value (e : Ext) (he : Ok e) (hist : List (String × List U8 × U64)) (k : List U8) (seed : U64) (i : Nat)
    {name : String} {f : List U8 → U64 → Option U64} {v : U64} (h : (table e)[i]? = some (name, f)) (hv : f k seed = some v) :
    resultAfter e hist name k seed = .ok v := by
  rw [C81_history e he]
  unfold outcome
  rw [if_neg (get_not_counter e i _ h), lookup_of_get (table e) (by rw [table_names]; decide) i _ h]
  dsimp only
  rw [hv]

theorem value_none (e : Ext) (he : Ok e) (hist : List (String × List U8 × U64)) (k : List U8) (seed : U64) (i : Nat)
    {name : String} {f : List U8 → U64 → Option U64} (h : (table e)[i]? = some (name, f)) (hv : f k seed = none) :
    resultAfter e hist name k seed = .error .index := by
  rw [C81_history e he]
  unfold outcome
  rw [if_neg (get_not_counter e i _ h), lookup_of_get (table e) (by rw [table_names]; decide) i _ h]
  dsimp only
  rw [hv]

/-! ## C76 -/

theorem wide_lt (x : U32) : (wide x).toNat < 2 ^ 32 := by
  unfold wide
  have := x.isLt
  rw [BitVec.toNat_ofNat, Nat.mod_eq_of_lt (by omega)]
  exact this

/-- C76. Whatever was called before, a hash function that `HashFunctions` declares to be 32 bits wide returns a value below 2^32. -/
theorem C76_width (e : Ext) (he : Ok e) (hist : List (String × List U8 × U64)) (key name : String) (crypto : Bool)
    (h : (key, name, 32, crypto) ∈ HashFunctions) (k : List U8) (seed v : U64) (hv : resultAfter e hist key k seed = .ok v) : v.toNat < 2 ^ 32 := by
  have hk : key ∈ (HashFunctions.filter fun x => x.2.2.1 = 32).map (·.1) :=
    List.mem_map.2 ⟨_, List.mem_filter.2 ⟨h, by simp⟩, rfl⟩
  have hl : (HashFunctions.filter fun x => x.2.2.1 = 32).map (·.1) =
    ["spooky32", "j332c", "j332b", "j232", "j264l", "j264h", "j264xor", "sbox", "gomap32", "murmur332", "FarmHash32", "CrapWow", "adler32"] := by decide
  rw [hl] at hk
  have fin : ∀ (i : Nat) (f : List U8 → U64 → Option U64) (w : U64), (table e)[i]? = some (key, f) → f k seed = some w → w.toNat < 2 ^ 32 → v.toNat < 2 ^ 32 := by
    intro i f w hi hf hw
    rw [value e he hist k seed i hi hf] at hv
    injection hv with hv
    exact hv ▸ hw
  simp only [List.mem_cons, List.not_mem_nil, or_false] at hk
  rcases hk with rfl | rfl | rfl | rfl | rfl | rfl | rfl | rfl | rfl | rfl | rfl | rfl | rfl
  · exact fin 18 _ _ rfl rfl (wide_lt _)
  · exact fin 11 _ _ rfl rfl (wide_lt _)
  · exact fin 12 _ _ rfl rfl (wide_lt _)
  · exact fin 13 _ _ rfl rfl (wide_lt _)
  · refine fin 15 _ _ rfl rfl ?_
    rw [BitVec.toNat_ofNat]
    exact lt_of_le_of_lt (Nat.mod_le _ _) (Nat.mod_lt _ (by norm_num))
  · refine fin 16 _ _ rfl rfl ?_
    rw [BitVec.toNat_ofNat]
    refine lt_of_le_of_lt (Nat.mod_le _ _) ?_
    have := (Spec.Jenkins.hash264 k seed).isLt
    omega
  · exact fin 17 _ _ rfl rfl (wide_lt _)
  · exact fin 7 _ _ rfl rfl (wide_lt _)
  · by_cases hk : k = []
    · rw [value_none e he hist k seed 2 rfl (by simp [hk])] at hv
      cases hv
    · exact fin 2 _ _ rfl (if_neg hk) (wide_lt _)
  · exact fin 23 _ _ rfl rfl (wide_lt _)
  · exact fin 27 _ _ rfl rfl (wide_lt _)
  · exact fin 8 _ _ rfl rfl (wide_lt _)
  · exact fin 6 _ _ rfl rfl (wide_lt _)

/-- The declared width is not the actual one the other way around: `perfecthash` is declared 64 bits wide but returns 32-bit values. -/
theorem C76_perfecthash_narrow (e : Ext) (he : Ok e) (hist : List (String × List U8 × U64)) (k : List U8) (seed v : U64)
    (hv : resultAfter e hist "perfecthash" k seed = .ok v) : entry "perfecthash" = ("perfecthash", 64, true) ∧ v.toNat < 2 ^ 32 := by
  refine ⟨by decide, ?_⟩
  by_cases hk : k.length < 4
  · rw [value_none e he hist k seed 0 rfl (by simp [hk])] at hv
    cases hv
  · rw [value e he hist k seed 0 rfl (if_neg hk)] at hv
    injection hv with hv
    subst hv
    have hb := leNat_lt (k.take 4)
    have h4 : (k.take 4).length = 4 := by simp; omega
    rw [h4] at hb
    rw [BitVec.toNat_ofNat]
    exact lt_of_le_of_lt (Nat.mod_le _ _) (lt_of_lt_of_le hb (by norm_num))

/-- Non-vacuity: a 32-bit entry and a call that returns. -/
example : ("sbox", "sbox", 32, false) ∈ HashFunctions ∧ ∃ v, resultAfter exampleExt [] "sbox" [1#8, 2#8] 5#64 = .ok v :=
  ⟨by decide, _, value exampleExt exampleExt_ok [] _ _ 7 rfl rfl⟩

/-! ## C77 -/

/-- C77. `j364` is the high word `j332b` and the low word `j332c`. -/
theorem C77_j364 (e : Ext) (he : Ok e) (hist : List (String × List U8 × U64)) (k : List U8) (seed : U64) :
    ∃ b c : Nat, b < 2 ^ 32 ∧ c < 2 ^ 32 ∧ resultAfter e hist "j332b" k seed = .ok (BitVec.ofNat 64 b) ∧
      resultAfter e hist "j332c" k seed = .ok (BitVec.ofNat 64 c) ∧ resultAfter e hist "j364" k seed = .ok (BitVec.ofNat 64 (2 ^ 32 * b + c)) :=
  ⟨_, _, (Spec.Hashf.look3 k (low seed)).2.isLt, (Spec.Hashf.look3 k (low seed)).1.isLt, value e he hist k seed 12 rfl rfl, value e he hist k seed 11 rfl rfl,
    value e he hist k seed 10 rfl rfl⟩

/-- C77. `j264l`, `j264h` and `j264xor` are the low half, the high half and the xor of the halves of `j264`. -/
theorem C77_j264 (e : Ext) (he : Ok e) (hist : List (String × List U8 × U64)) (k : List U8) (seed : U64) :
    ∃ h : U64, resultAfter e hist "j264" k seed = .ok h ∧ resultAfter e hist "j264l" k seed = .ok (BitVec.ofNat 64 (h.toNat % 2 ^ 32)) ∧
      resultAfter e hist "j264h" k seed = .ok (BitVec.ofNat 64 (h.toNat / 2 ^ 32)) ∧
      resultAfter e hist "j264xor" k seed = .ok (BitVec.ofNat 64 (h.toNat % 2 ^ 32) ^^^ BitVec.ofNat 64 (h.toNat / 2 ^ 32)) := by
  refine ⟨Spec.Jenkins.hash264 k seed, value e he hist k seed 14 rfl rfl, value e he hist k seed 15 rfl rfl, value e he hist k seed 16 rfl rfl, ?_⟩
  refine value e he hist k seed 17 rfl (congrArg some ?_)
  generalize Spec.Jenkins.hash264 k seed = h
  unfold wide
  apply BitVec.eq_of_toNat_eq
  have := h.isLt
  have h2 := Nat.xor_lt_two_pow (Nat.mod_lt h.toNat (y := 2 ^ 32) (by norm_num)) (show h.toNat / 2 ^ 32 < 2 ^ 32 by omega)
  simp only [BitVec.toNat_ofNat, BitVec.toNat_xor, BitVec.toNat_setWidth, BitVec.toNat_ushiftRight, Nat.shiftRight_eq_div_pow]
  rw [Nat.mod_eq_of_lt (show h.toNat / 2 ^ 32 < 2 ^ 32 by omega), Nat.mod_eq_of_lt (lt_trans h2 (by norm_num)),
    Nat.mod_eq_of_lt (show h.toNat % 2 ^ 32 < 2 ^ 64 by omega), Nat.mod_eq_of_lt (show h.toNat / 2 ^ 32 < 2 ^ 64 by omega)]

/-- C77. The 128-bit functions: `spooky64` is `spooky128h`, and each `xor` variant is the exclusive or of its two halves. -/
theorem C77_xor (e : Ext) (he : Ok e) (hist : List (String × List U8 × U64)) (k : List U8) (seed : U64) :
    resultAfter e hist "spooky64" k seed = resultAfter e hist "spooky128h" k seed ∧
    ∀ x ∈ [("spooky128h", "spooky128l", "spooky128xor"), ("FarmHash128-high", "FarmHash128-low", "FarmHash128-xor"),
        ("MetroHash128-1h", "MetroHash128-1l", "MetroHash128-1xor"), ("MetroHash128-2h", "MetroHash128-2l", "MetroHash128-2xor")],
      ∃ a b : U64, resultAfter e hist x.1 k seed = .ok a ∧ resultAfter e hist x.2.1 k seed = .ok b ∧ resultAfter e hist x.2.2 k seed = .ok (a ^^^ b) := by
  refine ⟨(value e he hist k seed 19 rfl rfl).trans (value e he hist k seed 20 rfl rfl).symm, ?_⟩
  intro x hx
  simp only [List.mem_cons, List.not_mem_nil, or_false] at hx
  rcases hx with rfl | rfl | rfl | rfl
  · exact ⟨_, _, value e he hist k seed 20 rfl rfl, value e he hist k seed 21 rfl rfl, value e he hist k seed 22 rfl rfl⟩
  · exact ⟨_, _, value e he hist k seed 29 rfl rfl, value e he hist k seed 30 rfl rfl, value e he hist k seed 31 rfl rfl⟩
  · exact ⟨_, _, value e he hist k seed 34 rfl rfl, value e he hist k seed 35 rfl rfl, value e he hist k seed 36 rfl rfl⟩
  · exact ⟨_, _, value e he hist k seed 37 rfl rfl, value e he hist k seed 38 rfl rfl, value e he hist k seed 39 rfl rfl⟩

/-! ## C78 -/

theorem lookup_isSome {α : Type} (name : String) : ∀ l : List (String × α), name ∈ l.map (·.1) ↔ (l.lookup name).isSome
  | [] => by simp
  | (n, f) :: t => by
    rw [List.lookup, List.map_cons, List.mem_cons, lookup_isSome name t]
    by_cases h : name = n
    · subst h; simp
    · rw [beq_eq_false_iff_ne.2 h]
      simp [h]

/-- C78. `Hashf` panics with `hashf` exactly on the names outside the list. -/
theorem C78_unknown_name (e : Ext) (he : Ok e) (hist : List (String × List U8 × U64)) (name : String) (k : List U8) (seed : U64) :
    resultAfter e hist name k seed = .error (.explicit "hashf") ↔ name ∉ names := by
  have hn : names = counters ++ (table e).map (·.1) := rfl
  rw [C81_history e he, hn, List.mem_append, not_or, lookup_isSome]
  unfold outcome
  by_cases hc : name ∈ counters
  · rw [if_pos hc]
    exact ⟨fun h => (nomatch h), fun h => absurd hc h.1⟩
  · rw [if_neg hc]
    cases hl : (table e).lookup name with
    | none => simp [hc]
    | some f => cases hf : f k seed <;> simp [hf]

/-- The keys that are too short for a name. -/
def tooShort (name : String) (k : List U8) : Prop :=
  (name = "perfecthash" ∧ k.length < 4) ∨ (name = "aeshash32I" ∧ k.length < 4) ∨ (name = "aeshash64I" ∧ k.length < 8) ∨
    (name = "gomap32" ∧ k = []) ∨ (name = "gomap64" ∧ k = [])

/-- C78. The only other panics are the index panics of five names on keys that are too short; in particular a call under any other
known name always returns. -/
theorem C78_short_key (e : Ext) (he : Ok e) (hist : List (String × List U8 × U64)) (name : String) (k : List U8) (seed : U64) (hn : name ∈ names) :
    (tooShort name k → resultAfter e hist name k seed = .error .index) ∧ (¬ tooShort name k → ∃ v, resultAfter e hist name k seed = .ok v) := by
  have hn' : names = counters ++ names.drop 2 := rfl
  rw [hn', List.mem_append] at hn
  rcases hn with hc | ht
  · constructor
    · intro h
      simp only [counters, List.mem_cons, List.not_mem_nil, or_false] at hc
      rcases hc with rfl | rfl <;> simp [tooShort] at h
    · intro _
      rw [C81_history e he]
      unfold outcome
      rw [if_pos hc]
      exact ⟨_, rfl⟩
  · rw [← table_names e] at ht
    obtain ⟨x, hx, rfl⟩ := List.mem_map.1 ht
    obtain ⟨i, hi⟩ := List.mem_iff_getElem?.1 hx
    have key : ∀ P : Prop, (P → x.2 k seed = none) → (¬ P → ∃ v, x.2 k seed = some v) → (tooShort x.1 k ↔ P) →
        (tooShort x.1 k → resultAfter e hist x.1 k seed = .error .index) ∧ (¬ tooShort x.1 k → ∃ v, resultAfter e hist x.1 k seed = .ok v) := by
      intro P h1 h2 h3
      constructor
      · intro h
        exact value_none e he hist k seed i hi (h1 (h3.1 h))
      · intro h
        obtain ⟨v, hv⟩ := h2 fun hp => h (h3.2 hp)
        exact ⟨v, value e he hist k seed i hi hv⟩
    have all : ∀ v : U64, x.2 k seed = some v → ¬ tooShort x.1 k →
        (tooShort x.1 k → resultAfter e hist x.1 k seed = .error .index) ∧ (¬ tooShort x.1 k → ∃ v, resultAfter e hist x.1 k seed = .ok v) :=
      fun v hv ht => key False False.elim (fun _ => ⟨v, hv⟩) (iff_false_intro ht)
    clear ht hn'
    simp only [table, List.mem_cons, List.not_mem_nil, or_false] at hx
    iterate 47 (rcases hx with rfl | hx; first
      | exact all _ rfl (by simp [tooShort])
      | exact key (k.length < 4) (fun h => if_pos h) (fun h => ⟨_, if_neg h⟩) (by simp [tooShort])
      | exact key (k.length < 8) (fun h => if_pos h) (fun h => ⟨_, if_neg h⟩) (by simp [tooShort])
      | exact key (k = []) (fun h => if_pos h) (fun h => ⟨_, if_neg h⟩) (by simp [tooShort]))
    subst hx
    exact all _ rfl (by simp [tooShort])

/-- C78. Of the names in `TestHashFunctions` exactly `skein256` is unknown to `Hashf`; of the keys of `HashFunctions` exactly four are. -/
theorem C78_unknown_listed : TestHashFunctions.filter (fun n => decide (n ∉ names)) = ["skein256"] ∧
    (HashFunctions.map (·.1)).filter (fun n => decide (n ∉ names)) = ["FarmHash128", "MetroHash128-1", "MetroHash128-2", "keccak160"] := by
  decide

/-- C78. So running every listed test hash panics, whatever the key and seed and whatever was hashed before. -/
theorem C78_violated (e : Ext) (he : Ok e) (hist : List (String × List U8 × U64)) (k : List U8) (seed : U64) :
    ∃ name ∈ TestHashFunctions, resultAfter e hist name k seed = .error (.explicit "hashf") :=
  ⟨"skein256", by decide, (C78_unknown_name e he hist _ k seed).2 (by decide)⟩

/-- Non-vacuity: a known name with a key that is too short, and one with a key that is long enough. -/
example : "aeshash64I" ∈ names ∧ tooShort "aeshash64I" [1#8] ∧ "gomap64" ∈ names ∧ ¬ tooShort "gomap64" [1#8] := by
  refine ⟨by decide, ?_, by decide, ?_⟩ <;> simp [tooShort]

/-! ## C79 -/

/-- C79. `Fingerprint128` returns `(lo, hi)`; `FarmHash128-high` returns the first, low word and `FarmHash128-low` the second, high word. -/
theorem C79_swapped (e : Ext) (he : Ok e) (hist : List (String × List U8 × U64)) (k : List U8) (seed : U64) :
    ∃ lo hi : U64, Model.Farm.Fingerprint128 k = .ok (lo, hi) ∧ resultAfter e hist "FarmHash128-high" k seed = .ok lo ∧
      resultAfter e hist "FarmHash128-low" k seed = .ok hi :=
  ⟨_, _, Lemmas.Hashf.farm128 k, value e he hist k seed 29 rfl rfl, value e he hist k seed 30 rfl rfl⟩

/-- C79. There is a key on which `FarmHash128-low` does not return the low word. -/
theorem C79_violated (e : Ext) (he : Ok e) (hist : List (String × List U8 × U64)) (seed : U64) :
    ∃ (k : List U8) (lo hi : U64), Model.Farm.Fingerprint128 k = .ok (lo, hi) ∧ resultAfter e hist "FarmHash128-low" k seed ≠ .ok lo ∧
      resultAfter e hist "FarmHash128-high" k seed ≠ .ok hi := by
  obtain ⟨lo, hi, h, hh, hl⟩ := C79_swapped e he hist [97#8, 98#8, 99#8, 100#8, 101#8, 102#8] seed
  have hne : lo ≠ hi := by
    rw [Lemmas.Hashf.farm128] at h
    injection h with h
    have : (Spec.Farm.hash128 [97#8, 98#8, 99#8, 100#8, 101#8, 102#8]).1 ≠ (Spec.Farm.hash128 [97#8, 98#8, 99#8, 100#8, 101#8, 102#8]).2 := by decide +kernel
    rw [h] at this
    exact this
  refine ⟨_, lo, hi, h, ?_, ?_⟩
  · rw [hl]; intro h; injection h with h; exact hne h.symm
  · rw [hh]; intro h; injection h with h; exact hne h

/-! ## C80 -/

/-- The names under which the seed plays no role. -/
def seedless : List String := ["perfecthash", "nullhash", "nullhashF64ns", "adler32", "MaHash8v64", "murmur332", "murmur364", "siphash64", "FarmHash32", "FarmHash64",
  "FarmHash128-high", "FarmHash128-low", "FarmHash128-xor", "keccak224", "keccakpg643", "keccakpg644", "keccakpg648", "keccakpg160", "whirlpool", "blake2b", "sha1"]

/-- The names under which only the low 32 bits of the seed play a role. -/
def seed32 : List String := ["gomap32", "sbox", "CrapWow", "j364", "j332c", "j332b", "j232", "spooky32", "MetroHash64-1", "MetroHash64-2",
  "MetroHash128-1h", "MetroHash128-1l", "MetroHash128-1xor", "MetroHash128-2h", "MetroHash128-2l", "MetroHash128-2xor"]

/-- The names under which all of the seed plays a role (apart from the aeshash names, whose code is not in the repository). -/
def seed64 : List String := ["gomap64", "j264", "j264l", "j264h", "j264xor", "spooky64", "spooky128h", "spooky128l", "spooky128xor", "siphash64pg"]

/-- The three lists and the aeshash names are all the names. -/
theorem C80_all_names (name : String) : name ∈ names ↔ name ∈ seedless ∨ name ∈ seed32 ∨ name ∈ seed64 ∨ name ∈ ["aeshash64", "aeshash32I", "aeshash64I"] := by
  simp only [← List.mem_append]
  have h1 : ∀ x ∈ names, x ∈ seedless ++ (seed32 ++ (seed64 ++ ["aeshash64", "aeshash32I", "aeshash64I"])) := by decide
  have h2 : ∀ x ∈ seedless ++ (seed32 ++ (seed64 ++ ["aeshash64", "aeshash32I", "aeshash64I"])), x ∈ names := by decide
  exact ⟨h1 name, h2 name⟩

/-- C80. Under the names of `seedless` the seed is ignored. -/
theorem C80_ignored (e : Ext) (he : Ok e) (hist : List (String × List U8 × U64)) (name : String) (hn : name ∈ seedless) (k : List U8) (s s' : U64) :
    resultAfter e hist name k s = resultAfter e hist name k s' := by
  rw [C81_history e he, C81_history e he]
  simp only [seedless, List.mem_cons, List.not_mem_nil, or_false] at hn
  unfold outcome
  rcases hn with rfl | rfl | rfl | rfl | rfl | rfl | rfl | rfl | rfl | rfl | rfl | rfl | rfl | rfl | rfl | rfl | rfl | rfl | rfl | rfl | rfl <;> rfl

/-- C80. Under the names of `seed32` the high half of the seed is ignored. -/
theorem C80_low_half (e : Ext) (he : Ok e) (hist : List (String × List U8 × U64)) (name : String) (hn : name ∈ seed32) (k : List U8) (s s' : U64)
    (h : s.toNat % 2 ^ 32 = s'.toNat % 2 ^ 32) : resultAfter e hist name k s = resultAfter e hist name k s' := by
  have hl : low s = low s' := BitVec.eq_of_toNat_eq (by simpa [low] using h)
  rw [C81_history e he, C81_history e he]
  have key : ∀ (i : Nat) (f : List U8 → U64 → Option U64), (table e)[i]? = some (name, f) → f k s = f k s' → outcome e hist name k s = outcome e hist name k s' := by
    intro i f hi hf
    unfold outcome
    rw [lookup_of_get (table e) (by rw [table_names]; decide) i _ hi]
    dsimp only
    rw [hf]
  simp only [seed32, List.mem_cons, List.not_mem_nil, or_false] at hn
  rcases hn with rfl | rfl | rfl | rfl | rfl | rfl | rfl | rfl | rfl | rfl | rfl | rfl | rfl | rfl | rfl | rfl
  · exact key 2 _ rfl (by rw [hl])
  · exact key 7 _ rfl (by rw [hl])
  · exact key 8 _ rfl (by rw [hl])
  · exact key 10 _ rfl (by rw [hl])
  · exact key 11 _ rfl (by rw [hl])
  · exact key 12 _ rfl (by rw [hl])
  · exact key 13 _ rfl (by rw [hl])
  · exact key 18 _ rfl (by rw [hl])
  · exact key 32 _ rfl (by rw [hl])
  · exact key 33 _ rfl (by rw [hl])
  · exact key 34 _ rfl (by rw [hl])
  · exact key 35 _ rfl (by rw [hl])
  · exact key 36 _ rfl (by rw [hl])
  · exact key 37 _ rfl (by rw [hl])
  · exact key 38 _ rfl (by rw [hl])
  · exact key 39 _ rfl (by rw [hl])

theorem differ (e : Ext) (he : Ok e) (hist : List (String × List U8 × U64)) (i : Nat) {name : String} {f : List U8 → U64 → Option U64} {v v' : U64} {k : List U8} {s s' : U64}
    (hi : (table e)[i]? = some (name, f)) (h : f k s = some v) (h' : f k s' = some v') (hne : v ≠ v') :
    resultAfter e hist name k s ≠ resultAfter e hist name k s' := by
  rw [value e he hist k s i hi h, value e he hist k s' i hi h']
  intro h
  injection h with h
  exact hne h

/-- C80. Under the names of `seed32` the low half of the seed is used. -/
theorem C80_low_half_used (e : Ext) (he : Ok e) (hist : List (String × List U8 × U64)) (name : String) (hn : name ∈ seed32) :
    ∃ (k : List U8) (s s' : U64), resultAfter e hist name k s ≠ resultAfter e hist name k s' := by
  refine ⟨[1#8], 0#64, 1#64, ?_⟩
  simp only [seed32, List.mem_cons, List.not_mem_nil, or_false] at hn
  rcases hn with rfl | rfl | rfl | rfl | rfl | rfl | rfl | rfl | rfl | rfl | rfl | rfl | rfl | rfl | rfl | rfl
  · exact differ e he hist 2 rfl (if_neg (by simp)) (if_neg (by simp)) (by decide +kernel)
  · exact differ e he hist 7 rfl rfl rfl (by decide +kernel)
  · exact differ e he hist 8 rfl rfl rfl (by decide +kernel)
  · exact differ e he hist 10 rfl rfl rfl (by decide +kernel)
  · exact differ e he hist 11 rfl rfl rfl (by decide +kernel)
  · exact differ e he hist 12 rfl rfl rfl (by decide +kernel)
  · exact differ e he hist 13 rfl rfl rfl (by decide +kernel)
  · exact differ e he hist 18 rfl rfl rfl (by decide +kernel)
  · exact differ e he hist 32 rfl rfl rfl (by decide +kernel)
  · exact differ e he hist 33 rfl rfl rfl (by decide +kernel)
  · exact differ e he hist 34 rfl rfl rfl (by decide +kernel)
  · exact differ e he hist 35 rfl rfl rfl (by decide +kernel)
  · exact differ e he hist 36 rfl rfl rfl (by decide +kernel)
  · exact differ e he hist 37 rfl rfl rfl (by decide +kernel)
  · exact differ e he hist 38 rfl rfl rfl (by decide +kernel)
  · exact differ e he hist 39 rfl rfl rfl (by decide +kernel)

/-- C80. Under the names of `seed64` the high half of the seed is used too. -/
theorem C80_high_half_used (e : Ext) (he : Ok e) (hist : List (String × List U8 × U64)) (name : String) (hn : name ∈ seed64) :
    ∃ (k : List U8) (s s' : U64), s.toNat % 2 ^ 32 = s'.toNat % 2 ^ 32 ∧ resultAfter e hist name k s ≠ resultAfter e hist name k s' := by
  refine ⟨[1#8], 0#64, 0x100000000#64, by decide, ?_⟩
  simp only [seed64, List.mem_cons, List.not_mem_nil, or_false] at hn
  rcases hn with rfl | rfl | rfl | rfl | rfl | rfl | rfl | rfl | rfl | rfl
  · exact differ e he hist 1 rfl (if_neg (by simp)) (if_neg (by simp)) (by decide +kernel)
  · exact differ e he hist 14 rfl rfl rfl (by decide +kernel)
  · exact differ e he hist 15 rfl rfl rfl (by decide +kernel)
  · exact differ e he hist 16 rfl rfl rfl (by decide +kernel)
  · exact differ e he hist 17 rfl rfl rfl (by decide +kernel)
  · exact differ e he hist 19 rfl rfl rfl (by decide +kernel)
  · exact differ e he hist 20 rfl rfl rfl (by decide +kernel)
  · exact differ e he hist 21 rfl rfl rfl (by decide +kernel)
  · exact differ e he hist 22 rfl rfl rfl (by decide +kernel)
  · exact differ e he hist 26 rfl rfl rfl (by decide +kernel)

/-- C80. `siphash64pg` is SipHash-2-4 keyed with the seed twice, and `siphash64` is what it gives with seed 0. -/
theorem C80_siphash (e : Ext) (he : Ok e) (hist : List (String × List U8 × U64)) (k : List U8) (s : U64) :
    resultAfter e hist "siphash64pg" k s = .ok (Spec.SipHash.hash64 2 4 s s k) ∧
    resultAfter e hist "siphash64" k s = resultAfter e hist "siphash64pg" k 0#64 :=
  ⟨value e he hist k s 26 rfl rfl, (value e he hist k s 25 rfl rfl).trans (value e he hist k 0#64 26 rfl rfl).symm⟩

/-- C80. So for 21 of the names there is no key under which the seed matters. -/
theorem C80_violated (e : Ext) (he : Ok e) (hist : List (String × List U8 × U64)) :
    ¬ ∀ name ∈ names, ∃ (k : List U8) (s s' : U64), resultAfter e hist name k s ≠ resultAfter e hist name k s' := by
  intro h
  obtain ⟨k, s, s', hne⟩ := h "siphash64" (by decide)
  exact hne (C80_ignored e he hist _ (by decide) k s s')

/-! ## C92 -/

/-- C92. What `-h32`, `-h64` and `-c` select from `TestHashFunctions`. -/
theorem C92_selected :
    selected false true false TestHashFunctions = ["murmur332", "j332c", "j332b", "j232", "j264l", "j264h", "j264xor", "spooky32", "sbox", "gomap32", "FarmHash32"] ∧
    selected false false true TestHashFunctions = ["nullhash", "aeshash64", "gomap64", "j364", "j264", "murmur364", "siphash64", "siphash64pg", "MaHash8v64",
      "spooky64", "spooky128h", "spooky128l", "spooky128xor", "FarmHash64", "MetroHash64-1", "MetroHash64-2", "sha1", "keccakpg643", "keccak224", "whirlpool", "blake2b"] ∧
    selected true false false TestHashFunctions = ["nullhash", "aeshash64", "siphash64", "siphash64pg", "sha1", "keccakpg643", "keccak224", "whirlpool", "blake2b"] ∧
    selected false false false TestHashFunctions = TestHashFunctions ∧ selected false true true TestHashFunctions = [] := by
  decide

/-- C92. Every selected name is listed and, under any flag, has an entry in `HashFunctions` that meets the flags, for any list. -/
theorem C92_selected_iff (c h32 h64 : Bool) (hf : List String) (name : String) :
    name ∈ selected c h32 h64 hf ↔ name ∈ hf ∧ (c = true → (entry name).2.2 = true) ∧ (h32 = true → (entry name).2.1 = 32) ∧ (h64 = true → (entry name).2.1 = 64) := by
  unfold selected
  rw [List.mem_filter]
  cases c <;> cases h32 <;> cases h64 <;> simp [and_assoc]

/-- C92. The nine 128-bit halves have no entry of their own, so as soon as a flag is given they are never run. -/
theorem C92_halves_skipped (c h32 h64 : Bool) (hflag : c || h32 || h64) (name : String) (hn : name ∈ ["FarmHash128-low", "FarmHash128-high", "FarmHash128-xor",
    "MetroHash128-1l", "MetroHash128-1h", "MetroHash128-1xor", "MetroHash128-2l", "MetroHash128-2h", "MetroHash128-2xor"]) :
    name ∈ TestHashFunctions ∧ name ∉ selected c h32 h64 TestHashFunctions := by
  have h1 : ∀ n ∈ ["FarmHash128-low", "FarmHash128-high", "FarmHash128-xor",
    "MetroHash128-1l", "MetroHash128-1h", "MetroHash128-1xor", "MetroHash128-2l", "MetroHash128-2h", "MetroHash128-2xor"], n ∈ TestHashFunctions ∧ entry n = ("", 0, false) := by decide
  obtain ⟨ha, hb⟩ := h1 name hn
  refine ⟨ha, ?_⟩
  rw [C92_selected_iff, hb]
  rintro ⟨-, h⟩
  revert h hflag
  cases c <;> cases h32 <;> cases h64 <;> simp

/-- C92. Without flags the run of all test hashes reaches `skein256`, panics, and never gets to the two names after it; with any
flag it does not panic on an unknown name. -/
theorem C92_run (e : Ext) (he : Ok e) (c h32 h64 : Bool) (hist : List (String × List U8 × U64)) (k : List U8) (seed : U64) :
    TestHashFunctions = TestHashFunctions.take 42 ++ ["skein256", "whirlpool", "blake2b"] ∧
    (∀ name ∈ TestHashFunctions.take 42, resultAfter e hist name k seed ≠ .error (.explicit "hashf")) ∧
    resultAfter e hist "skein256" k seed = .error (.explicit "hashf") ∧
    ((c || h32 || h64) = true → ∀ name ∈ selected c h32 h64 TestHashFunctions, resultAfter e hist name k seed ≠ .error (.explicit "hashf")) := by
  refine ⟨by decide, ?_, (C78_unknown_name e he hist _ k seed).2 (by decide), ?_⟩
  · intro name hn h
    have : ∀ n ∈ TestHashFunctions.take 42, n ∈ names := by decide
    exact (C78_unknown_name e he hist _ k seed).1 h (this name hn)
  · intro hflag name hn h
    have h2 := (C78_unknown_name e he hist _ k seed).1 h
    have h3 : ∀ n ∈ TestHashFunctions, n ∉ names → entry n = ("", 0, false) := by decide
    rw [C92_selected_iff, ] at hn
    obtain ⟨h4, h5⟩ := hn
    rw [h3 name h4 h2] at h5
    revert h5 hflag
    cases c <;> cases h32 <;> cases h64 <;> simp

end Verif.Props
