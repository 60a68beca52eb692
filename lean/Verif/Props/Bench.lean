import Verif.Model.Bench
import Verif.Spec.Bench
import Verif.Props.Ht
import Verif.Props.HtMain2
import Verif.Props.Spooky

/-!
# C102: what the benchmarks hash
-/

namespace Verif.Props
open Verif Verif.Spec.Bench Verif.Model.Bench
open Verif.Spec.Hashf (names Ok)
open Verif.Spec.HtMain (hashfSys)
open Verif.Model.Hashf (Ext)

namespace Bench
variable {ω : Type}

theorem hashfLoop_eq (hashf : ω → List U8 → U64 → Go (U64 × ω)) (key : List U8) (k : Nat) : ∀ w,
    hashfLoop hashf key k w = (List.replicate k key).foldlM (fun w x => (hashf w x 0).map Prod.snd) w := by
  induction k with
  | zero => intro w; rfl
  | succ k ih =>
    intro w
    rw [List.replicate_succ, List.foldlM_cons]
    show (hashf w key 0).bind _ = ((hashf w key 0).map Prod.snd).bind _
    cases hashf w key 0 with
    | error e => rfl
    | ok r => exact ih r.2

theorem tenth (n : Int) : (n.tdiv 10).toNat = n.toNat / 10 := by
  rcases Int.le_total 0 n with h | h
  · rw [Int.tdiv_eq_ediv_of_nonneg h]; omega
  · obtain ⟨m, rfl⟩ : ∃ m : Nat, n = -(m : Int) := ⟨n.natAbs, by omega⟩
    rw [Int.neg_tdiv, Int.tdiv_eq_ediv_of_nonneg (by omega)]; omega

/-- The counts, key size by key size. -/
def cnt : List Nat → Int → List (Nat × Int)
  | [], _ => []
  | k :: ks, n => (k, if k = 512 then n.tdiv 10 else n) :: cnt ks (if k = 512 then n.tdiv 10 else n)

theorem cnt_eq (n : Int) : cnt keySizes n = report n := by
  simp [cnt, keySizes, report, sizes]

theorem report_keys (n : Int) (f : Nat → Nat → List (List U8)) : (report n).flatMap (fun p => f p.1 p.2.toNat) = sizes.flatMap fun s => f s (rounds n s) := by
  unfold report
  rw [List.flatMap_map]
  congr 1
  funext s
  dsimp only
  unfold rounds
  split
  · rfl
  · rw [tenth]

theorem sizesLoop_none (hashf : ω → List U8 → U64 → Go (U64 × ω)) (ks : List Nat) (buf : List U8) : ∀ n w, sizesLoop none hashf ks n (w, buf) =
    (((cnt ks n).flatMap fun p => List.replicate p.2.toNat (buf.take p.1)).foldlM (fun w x => (hashf w x 0).map Prod.snd) w).map fun w => (w, cnt ks n) := by
  induction ks with
  | nil => intro n w; rfl
  | cons k ks ih =>
    intro n w
    unfold sizesLoop
    dsimp only
    rw [cnt, List.flatMap_cons, List.foldlM_append, hashfLoop_eq]
    dsimp only
    generalize (if k = 512 then n.tdiv 10 else n) = n'
    cases (List.replicate n'.toNat (buf.take k)).foldlM (fun w x => (hashf w x 0).map Prod.snd) w with
    | error e => rfl
    | ok w' =>
      simp only [Go.bind_ok, Go.pure_ok]
      rw [ih]
      generalize (((cnt ks n').flatMap _).foldlM _ w' : Go ω) = r
      cases r <;> rfl

theorem take_zeros {s : Nat} (h : s ≤ 16384) : (List.replicate 16384 0#8).take s = List.replicate s 0#8 := by
  rw [List.take_replicate]; congr 1; omega

end Bench
open Bench

section
variable {ω : Type}

/-- C102. Without an object (the only way the program calls it) the benchmark hashes, with seed 0 and for any hash function with any state, key
size by key size always the same key of zeros: `n` times, from 512 bytes on a tenth of that. A panic of the hash function ends it. -/
theorem C102_generic (hashf : ω → List U8 → U64 → Go (U64 × ω)) (w : ω) (n : Int) :
    benchmark32g none hashf w n = ((zeroKeys n).foldlM (fun w x => (hashf w x 0).map Prod.snd) w).map fun w => (w, report n) := by
  unfold benchmark32g
  rw [sizesLoop_none, cnt_eq, report_keys n (fun s c => List.replicate c ((List.replicate 16384 0#8).take s))]
  have : (sizes.flatMap fun s => List.replicate (rounds n s) ((List.replicate 16384 0#8).take s)) = zeroKeys n := by
    unfold zeroKeys
    refine List.flatMap_congr fun s hs => ?_
    rw [take_zeros]
    have hall : ∀ s ∈ sizes, s ≤ 16384 := by decide
    exact hall s hs
  rw [this]

/-- C102. So it hashes `5n + 3(n/10)` keys, but only eight different ones. -/
theorem C102_counts (n : Int) : (zeroKeys n).length = 5 * n.toNat + 3 * (n.toNat / 10) ∧
    ∀ k ∈ zeroKeys n, ∃ s ∈ sizes, k = List.replicate s 0#8 := by
  constructor
  · have h : ∀ s, (List.replicate (rounds n s) (List.replicate s 0#8)).length = rounds n s := fun s => List.length_replicate
    unfold zeroKeys
    rw [List.length_flatMap]
    simp only [h, sizes, List.map_cons, List.map_nil, List.sum_cons, List.sum_nil, rounds]
    norm_num
    omega
  · intro k hk
    obtain ⟨s, hs, hk⟩ := List.mem_flatMap.1 hk
    exact ⟨s, hs, List.eq_of_mem_replicate hk⟩

/-- C102. The hard-coded benchmark hashes the same keys in the same order with Spooky's `Hash64` and seed 0. -/
theorem C102_hardcoded (spooky : ω → List U8 → U64 → Go ω) (w : ω) (n : Int) :
    benchmark32s spooky w n = ((zeroKeys n).foldlM (fun w x => spooky w x 0) w).map fun w => (w, report n) := by
  have h : ∀ ks n w buf, sizesLoopS spooky ks n w buf = sizesLoop none (fun w k s => do let w ← spooky w k s; pure (0#64, w)) ks n (w, buf) := by
    intro ks
    induction ks with
    | nil => intro n w buf; rfl
    | cons k ks ih =>
      intro n w buf
      unfold sizesLoopS sizesLoop
      dsimp only
      generalize hashfLoop _ _ _ w = r
      cases r with
      | error e => rfl
      | ok w' => simp only [Go.bind_ok, Go.pure_ok]; rw [ih]; rfl
  unfold benchmark32s
  rw [h]
  have := C102_generic (fun w k s => do let w ← spooky w k s; pure (0#64, w)) w n
  unfold benchmark32g at this
  rw [this]
  congr 2
  funext w x
  cases spooky w x 0 <;> rfl

/-- C102. It never panics. -/
theorem C102_hardcoded_total (n : Int) :
    ∃ hs, benchmark32s (fun (hs : List U64) k s => (Model.Spooky.Hash64 k s).map (hs ++ [·])) [] n = .ok (hs, report n) ∧
      hs = (zeroKeys n).map fun k => (Spec.Spooky.spooky128 k 0 0).1 := by
  rw [C102_hardcoded]
  have h : ∀ (l : List (List U8)) (hs : List U64), l.foldlM (fun hs k => (Model.Spooky.Hash64 k 0).map (hs ++ [·])) hs =
      (.ok (hs ++ l.map fun k => (Spec.Spooky.spooky128 k 0 0).1) : Go (List U64)) := by
    intro l
    induction l with
    | nil => intro hs; rw [List.map_nil, List.append_nil]; rfl
    | cons k l ih =>
      intro hs
      rw [List.foldlM_cons, (C41_widths k 0 0).2.1]
      show (Except.ok _ >>= _) = _
      rw [Go.bind_ok, ih, List.map_cons, List.append_assoc]; rfl
  rw [h]
  exact ⟨_, rfl, rfl⟩

namespace Bench

theorem leBytes_append (a b x : Nat) : leBytes (a + b) x = leBytes a x ++ leBytes b (x / 256 ^ a) := by
  induction a generalizing x with
  | zero => simp [leBytes]
  | succ a ih =>
    rw [show a + 1 + b = (a + b) + 1 by omega, leBytes, ih, leBytes, List.cons_append, Nat.div_div_eq_div_mul, pow_succ']

theorem leBytes8 (i : Nat) : leBytes 8 i = [byteAt i 0, byteAt i 8, byteAt i 16, byteAt i 24, byteAt i 32, byteAt i 40, byteAt i 48, byteAt i 56] := by
  simp only [leBytes, byteAt, Nat.shiftRight_eq_div_pow, Nat.div_div_eq_div_mul, Nat.pow_zero, Nat.div_one]

theorem leBytes4' (i : Nat) : leBytes 4 i = [byteAt i 0, byteAt i 8, byteAt i 16, byteAt i 24] := by
  simp only [leBytes, byteAt, Nat.shiftRight_eq_div_pow, Nat.div_div_eq_div_mul, Nat.pow_zero, Nat.div_one]

/-- Only the first eight bytes of the buffer are ever written. -/
def Clean (buf : List U8) : Prop := ∃ front : List U8, front.length = 8 ∧ buf = front ++ List.replicate 16376 0#8

theorem clean_step {buf : List U8} (h : Clean buf) {s i : Nat} (hs : s = 4 ∨ 8 ≤ s ∧ s ≤ 16384) (hi : i < 2 ^ 64) :
    ∃ buf', put buf s (if s != 4 then [byteAt i 0, byteAt i 8, byteAt i 16, byteAt i 24, byteAt i 32, byteAt i 40, byteAt i 48, byteAt i 56]
      else [byteAt i 0, byteAt i 8, byteAt i 16, byteAt i 24]) = .ok buf' ∧ Clean buf' ∧ buf'.take s = intKey s i := by
  obtain ⟨front, hf, rfl⟩ := h
  have hlen : (front ++ List.replicate 16376 0#8).length = 16384 := by rw [List.length_append, hf, List.length_replicate]
  rcases hs with rfl | ⟨hs, hs'⟩
  · rw [if_neg (by decide), ← leBytes4']
    refine ⟨leBytes 4 i ++ (front ++ List.replicate 16376 0#8).drop 4, ?_, ⟨leBytes 4 i ++ front.drop 4, ?_, ?_⟩, ?_⟩
    · unfold put
      rw [leBytes_length, hlen, if_pos (by omega)]
    · rw [List.length_append, leBytes_length, List.length_drop, hf]
    · rw [List.drop_append_of_le_length (by omega), List.append_assoc]
    · rw [List.take_append_of_le_length (by rw [leBytes_length]), List.take_of_length_le (by rw [leBytes_length])]; rfl
  · have h4 : (s != 4) = true := by simp; omega
    rw [if_pos h4, ← leBytes8]
    refine ⟨leBytes 8 i ++ List.replicate 16376 0#8, ?_, ⟨leBytes 8 i, leBytes_length _ _, rfl⟩, ?_⟩
    · unfold put
      rw [leBytes_length, hlen, if_pos ⟨hs, hs'⟩, List.drop_append_of_le_length (by omega), List.drop_of_length_le (by omega), List.nil_append]
    · unfold intKey
      rw [List.take_append, leBytes_length, List.take_of_length_le (by rw [leBytes_length]; exact hs), List.take_replicate]
      conv_rhs => rw [show s = 8 + (s - 8) by omega]
      rw [leBytes_append, Nat.div_eq_of_lt (show i < 256 ^ 8 from hi), Lemmas.Ht.leBytes_zero]
      congr 2
      omega

theorem objLoop_eq (write : ω → List U8 → Go ω) {s : Nat} (hs : s = 4 ∨ 8 ≤ s ∧ s ≤ 16384) (c : Nat) : ∀ i w buf, Clean buf → i + c ≤ 2 ^ 64 →
    (∃ e, objLoop write s (s != 4) i c (w, buf) = .error e ∧ ((List.range' i c).map (intKey s)).foldlM write w = .error e) ∨
    ∃ w' buf', Clean buf' ∧ objLoop write s (s != 4) i c (w, buf) = .ok (w', buf') ∧ ((List.range' i c).map (intKey s)).foldlM write w = .ok w' := by
  induction c with
  | zero => intro i w buf hb _; exact Or.inr ⟨w, buf, hb, rfl, rfl⟩
  | succ c ih =>
    intro i w buf hb hi
    obtain ⟨buf', h1, h2, h3⟩ := clean_step hb hs (show i < 2 ^ 64 by omega)
    unfold objLoop
    dsimp only
    rw [h1, Go.bind_ok, h3, List.range'_succ, List.map_cons, List.foldlM_cons]
    cases hw : write w (intKey s i) with
    | error e => exact Or.inl ⟨e, rfl, rfl⟩
    | ok w' => rw [Go.bind_ok, Go.bind_ok]; exact ih (i + 1) w' buf' h2 (by omega)

theorem sizesLoop_some (write : ω → List U8 → Go ω) (hashf : ω → List U8 → U64 → Go (U64 × ω)) (ks : List Nat) (hks : ∀ s ∈ ks, s = 4 ∨ 8 ≤ s ∧ s ≤ 16384) :
    ∀ n w buf, n < 2 ^ 63 → Clean buf → sizesLoop (some write) hashf ks n (w, buf) =
    (((cnt ks n).flatMap fun p => (List.range p.2.toNat).map (intKey p.1)).foldlM write w).map fun w => (w, cnt ks n) := by
  induction ks with
  | nil => intro n w buf _ _; rfl
  | cons k ks ih =>
    intro n w buf hn hb
    unfold sizesLoop
    dsimp only
    rw [cnt, List.flatMap_cons, List.foldlM_append]
    dsimp only
    have hn' : (if k = 512 then n.tdiv 10 else n) < 2 ^ 63 := by
      split
      · have := tenth n
        omega
      · exact hn
    generalize (if k = 512 then n.tdiv 10 else n) = n' at hn'
    rw [List.range_eq_range']
    rcases objLoop_eq write (hks k (by simp)) n'.toNat 0 w buf hb (by omega) with ⟨e, h1, h2⟩ | ⟨w', buf', hb', h1, h2⟩
    · rw [h1, h2]; rfl
    · rw [h1, h2]
      simp only [Go.bind_ok, Go.pure_ok]
      rw [ih (fun s hs => hks s (List.mem_cons_of_mem _ hs)) n' w' buf' hn' hb']
      generalize (((cnt ks n').flatMap _).foldlM _ w' : Go ω) = r
      cases r <;> rfl

end Bench

/-- C102. With an object it would hash the integers from 0 on, in little-endian order, filled up with zeros to the key size. -/
theorem C102_object (write : ω → List U8 → Go ω) (hashf : ω → List U8 → U64 → Go (U64 × ω)) (w : ω) (n : Int) (hn : n < 2 ^ 63) :
    benchmark32g (some write) hashf w n = ((intKeys n).foldlM write w).map fun w => (w, report n) := by
  unfold benchmark32g
  rw [sizesLoop_some write hashf keySizes (by decide) n w _ hn ⟨List.replicate 8 0#8, List.length_replicate, (List.replicate_append_replicate ..).symm⟩,
    cnt_eq, report_keys n (fun s c => (List.range c).map (intKey s))]
  rfl

/-- C102_object at work: an object that counts the bytes written to it. -/
example : benchmark32g (ω := Nat) (some fun w b => .ok (w + b.length)) (fun w _ _ => .ok (0, w)) 0 2 =
    ((intKeys 2).foldlM (fun w b => .ok (w + b.length)) 0 : Go Nat).map fun w => (w, report 2) :=
  C102_object _ _ 0 2 (by norm_num)

/-- C102. These keys are different from each other, unless there are more than 2^32 of four bytes. -/
theorem C102_object_distinct (n : Int) (hn : n < 2 ^ 63) (s : Nat) (hs : s ∈ sizes) : (intKeysOf n s).Nodup ↔ (s = 4 → n ≤ 2 ^ 32) := by
  have hinj : ∀ i j, intKey s i = intKey s j → i % 256 ^ s = j % 256 ^ s := by
    intro i j h
    have := congrArg leNat h
    unfold intKey at this
    rwa [leNat_leBytes, leNat_leBytes] at this
  have hr : rounds n s < 2 ^ 63 := by unfold rounds; split <;> omega
  have hcases : s = 4 ∨ 8 ≤ s := by
    have : ∀ s ∈ sizes, s = 4 ∨ 8 ≤ s := by decide
    exact this s hs
  have key : ∀ b, b ≤ 256 ^ s → rounds n s ≤ b → (intKeysOf n s).Nodup := by
    intro b hb hrb
    refine List.Nodup.map_on ?_ List.nodup_range
    intro i hi j hj h
    rw [List.mem_range] at hi hj
    have := hinj i j h
    rwa [Nat.mod_eq_of_lt (by omega), Nat.mod_eq_of_lt (by omega)] at this
  rcases hcases with rfl | h8
  · have hr4 : rounds n 4 = n.toNat := rfl
    constructor
    · intro h _
      by_contra hgt
      unfold intKeysOf at h
      rw [hr4] at h
      have h0 : (0 : Nat) ∈ List.range n.toNat := by rw [List.mem_range]; omega
      have h1 : (2 ^ 32 : Nat) ∈ List.range n.toNat := by rw [List.mem_range]; omega
      have := List.inj_on_of_nodup_map h h0 h1 ((leBytes4_inj 0 (2 ^ 32)).2 (by norm_num))
      exact absurd this (by norm_num)
    · intro h
      refine key (2 ^ 32) (by norm_num) ?_
      rw [hr4]
      have := h rfl
      omega
  · refine ⟨fun _ h => by omega, fun _ => key (2 ^ 64) ?_ (by omega)⟩
    calc 2 ^ 64 = 256 ^ 8 := by norm_num
      _ ≤ 256 ^ s := Nat.pow_le_pow_right (by norm_num) h8

end

/-- C102_object_distinct at work: 1000 keys of four bytes are distinct, 2³² + 1 are not. -/
example : (intKeysOf 1000 4).Nodup ∧ ¬ (intKeysOf (2 ^ 32 + 1) 4).Nodup :=
  ⟨(C102_object_distinct 1000 (by norm_num) 4 (by decide)).2 (by norm_num),
    fun h => absurd ((C102_object_distinct (2 ^ 32 + 1) (by norm_num) 4 (by decide)).1 h rfl) (by norm_num)⟩

namespace Bench

theorem fold_first {ω : Type} (f : ω → List U8 → Go ω) (w : ω) (ks : List (List U8)) (k : List U8) (err : Fault) (h : f w k = .error err) :
    (k :: ks).foldlM f w = .error err := by
  rw [List.foldlM_cons, h]; rfl

theorem zeroKeys_cons {n : Int} (hn : 0 < n) : ∃ ks, zeroKeys n = List.replicate 4 0#8 :: ks := by
  obtain ⟨m, hm⟩ : ∃ m, n.toNat = m + 1 := ⟨n.toNat - 1, by omega⟩
  have h4 : rounds n 4 = m + 1 := hm
  unfold zeroKeys
  show ∃ ks, (4 :: [8, 16, 32, 64, 512, 1024, 4096]).flatMap _ = _
  rw [List.flatMap_cons, h4, List.replicate_succ]
  exact ⟨_, rfl⟩

end Bench

section
variable (e : Ext) (he : Ok e) (nextPrime : Int → Int) (files : String → Option Model.Ht.File) (rnd : Nat → U64) (cr : Option (List U8))
include he

namespace Bench

theorem fold_hashf (name : String) (ks : List (List U8)) : ∀ hist, (∀ k ∈ ks, name ∈ names ∧ ¬ tooShort name k) →
    ks.foldlM (fun w x => ((hashfSys e nextPrime files rnd cr).hash w name x 0).map Prod.snd) hist = (.ok (hist ++ ks.map fun k => (name, k, 0)) : Go _) := by
  induction ks with
  | nil => intro hist _; rw [List.map_nil, List.append_nil]; rfl
  | cons k ks ih =>
    intro hist h
    obtain ⟨v, hv⟩ := (C78_short_key e he hist name k 0 (h k (by simp)).1).2 (h k (by simp)).2
    have : (hashfSys e nextPrime files rnd cr).hash hist name k 0 = .ok (v, hist ++ [(name, k, 0)]) := by
      show (Spec.Hashf.resultAfter e hist name k 0).map _ = _
      rw [hv]; rfl
    rw [List.foldlM_cons, this]
    show (Except.ok _ >>= _) = _
    rw [Go.bind_ok]
    dsimp only
    rw [ih _ fun k hk => h k (List.mem_cons_of_mem _ hk), List.append_assoc]; rfl

end Bench

/-- C102. The names that can be benchmarked with package hashf. -/
def benchable (name : String) : Prop := name ∈ names ∧ name ≠ "aeshash64I"

/-- C102. With package hashf, after any earlier calls and for positive `n`: an unknown name panics, `aeshash64I` (which needs eight bytes) panics at
the first key, all others hash all keys. -/
theorem C102_hashf (hist : List (String × List U8 × U64)) (name : String) (n : Int) (hn : 0 < n) :
    (name ∉ names → benchmark32g none (fun w k s => (hashfSys e nextPrime files rnd cr).hash w name k s) hist n = .error (.explicit "hashf")) ∧
    (name = "aeshash64I" → benchmark32g none (fun w k s => (hashfSys e nextPrime files rnd cr).hash w name k s) hist n = .error .index) ∧
    (benchable name → benchmark32g none (fun w k s => (hashfSys e nextPrime files rnd cr).hash w name k s) hist n =
      .ok (hist ++ (zeroKeys n).map fun k => (name, k, 0), report n)) := by
  rw [C102_generic]
  obtain ⟨ks, hks⟩ := zeroKeys_cons hn
  refine ⟨fun h => ?_, fun h => ?_, fun h => ?_⟩
  · rw [hks, fold_first _ hist ks _ (.explicit "hashf")]; · rfl
    show ((Spec.Hashf.resultAfter e hist name _ 0).map _).map _ = _
    rw [(C78_unknown_name e he hist name _ 0).2 h]; rfl
  · subst h
    rw [hks, fold_first _ hist ks _ .index]; · rfl
    show ((Spec.Hashf.resultAfter e hist _ _ 0).map _).map _ = _
    rw [(C78_short_key e he hist "aeshash64I" _ 0 (by decide)).1 (by simp [tooShort])]; rfl
  · rw [fold_hashf e he nextPrime files rnd cr name _ hist]
    · rfl
    · intro k hk
      obtain ⟨s, hs, rfl⟩ := (C102_counts n).2 k hk
      have h4 : 4 ≤ s := by
        have : ∀ s ∈ sizes, 4 ≤ s := by decide
        exact this s hs
      have hne : List.replicate s (0#8 : U8) ≠ [] := by
        intro h0
        have := congrArg List.length h0
        rw [List.length_replicate] at this
        simp at this
        omega
      refine ⟨h.1, ?_⟩
      rintro (⟨_, h'⟩ | ⟨_, h'⟩ | ⟨h', _⟩ | ⟨_, h'⟩ | ⟨_, h'⟩)
      · rw [List.length_replicate] at h'; omega
      · rw [List.length_replicate] at h'; omega
      · exact h.2 h'
      · exact hne h'
      · exact hne h'

/-- C102. A list of names is benchmarked to the end exactly if each can be; otherwise the first that cannot be ends the program. -/
theorem C102_all (n : Int) (hn : 0 < n) (l : List String) (hist : List (String × List U8 × U64)) :
    ((∀ name ∈ l, benchable name) ↔ ∃ w, benchAll (hashfSys e nextPrime files rnd cr).hash n l hist = .ok w) ∧
    ((∀ name ∈ l, benchable name) → benchAll (hashfSys e nextPrime files rnd cr).hash n l hist =
      .ok (hist ++ l.flatMap fun name => (zeroKeys n).map fun k => (name, k, 0))) := by
  induction l generalizing hist with
  | nil => exact ⟨⟨fun _ => ⟨hist, rfl⟩, fun _ name h => (nomatch h)⟩, fun _ => by rw [List.flatMap_nil, List.append_nil]; rfl⟩
  | cons a l ih =>
    obtain ⟨h1, h2, h3⟩ := C102_hashf e he nextPrime files rnd cr hist a n hn
    unfold benchAll
    by_cases ha : benchable a
    · rw [h3 ha]
      simp only [Go.bind_ok]
      obtain ⟨i1, i2⟩ := ih (hist ++ (zeroKeys n).map fun k => (a, k, 0))
      refine ⟨⟨fun h => i1.1 fun name hm => h name (List.mem_cons_of_mem _ hm), fun h name hm => ?_⟩, fun h => ?_⟩
      · rcases List.mem_cons.1 hm with rfl | hm
        · exact ha
        · exact i1.2 h name hm
      · rw [i2 fun name hm => h name (List.mem_cons_of_mem _ hm), List.append_assoc, List.flatMap_cons]
    · have herr : ∃ err, benchmark32g none (fun w k s => (hashfSys e nextPrime files rnd cr).hash w a k s) hist n = .error err := by
        by_cases hm : a ∈ names
        · exact ⟨_, h2 (by by_contra h; exact ha ⟨hm, h⟩)⟩
        · exact ⟨_, h1 hm⟩
      obtain ⟨err, herr⟩ := herr
      rw [herr]
      refine ⟨⟨fun h => absurd (h a (by simp)) ha, fun ⟨w, h⟩ => nomatch h⟩, fun h => absurd (h a (by simp)) ha⟩

/-- C102. The expected "`ht -b` benchmarks all hash functions" is refuted: it panics, after 42 of the 45. -/
theorem C102_all_violated (n : Int) (hn : 0 < n) (hist : List (String × List U8 × U64)) :
    (∃ w, benchAll (hashfSys e nextPrime files rnd cr).hash n (Model.Hashf.TestHashFunctions.take 42) hist = .ok w) ∧
    ¬ ∃ w, benchAll (hashfSys e nextPrime files rnd cr).hash n (Model.Hashf.TestHashFunctions.take 43) hist = .ok w := by
  constructor
  · refine (C102_all e he nextPrime files rnd cr n hn _ hist).1.1 fun name hm => ?_
    have : ∀ name ∈ Model.Hashf.TestHashFunctions.take 42, name ∈ names ∧ name ≠ "aeshash64I" := by decide +kernel
    exact this name hm
  · intro h
    have := (C102_all e he nextPrime files rnd cr n hn _ hist).1.2 h "skein256" (by decide)
    exact absurd this.1 (by decide)

end

/-- The keys of `-b -n 20`: twenty of each size, two of each from 512 bytes on. -/
example : (zeroKeys 20).length = 106 ∧ report 20 = [(4, 20), (8, 20), (16, 20), (32, 20), (64, 20), (512, 2), (1024, 2), (4096, 2)] :=
  ⟨(C102_counts 20).1, by decide⟩

example : benchable "j364" ∧ ¬ benchable "aeshash64I" ∧ ¬ benchable "skein256" := by
  refine ⟨⟨by decide, by decide⟩, fun h => h.2 rfl, fun h => absurd h.1 (by decide)⟩

end Verif.Props
