import Verif.Lemmas.Print
import Verif.Props.HashTable

/-! # C105: what `Print` prints -/

namespace Verif.Props
open Verif Verif.HashTable Verif.Spec.HashTable Verif.Model.Print Verif.Spec.Print Verif.Lemmas.Print
open Verif.Model.RBetween (fl)
open Verif.Lemmas.RBetween (fl_self isFloat_nat)

variable {κ : Type}

namespace Print

theorem shows_cvt (d : Nat) (hd : d < 2 ^ 63) : Shows d (cvt (seconds d)).1 (cvt (seconds d)).2 := by
  obtain ⟨h1, h2, h3⟩ := cvt_seconds d hd
  unfold Shows unitFor
  by_cases a : 10 ^ 9 ≤ d
  · obtain ⟨v, e, _, n⟩ := h1 a
    rw [e, if_pos a]
    exact ⟨rfl, by convert n using 2; norm_num⟩
  · by_cases b : 10 ^ 6 ≤ d
    · obtain ⟨v, e, _, _, n⟩ := h2 b (by omega)
      rw [e, if_neg a, if_pos b]
      exact ⟨rfl, by convert n using 2; norm_num⟩
    · obtain ⟨v, e, _, n⟩ := h3 (by omega)
      rw [e, if_neg a, if_neg b]
      exact ⟨rfl, by convert n using 2; norm_num⟩

theorem fold_exact (bs : List (List κ)) : ∀ a : Nat, a + (bs.map fun b => b.length * (b.length + 1)).sum ≤ 2 ^ 53 →
    bs.foldl (fun (n : ℚ) v => if v.isEmpty then n else let count := ofNat v.length; fl (n + fl (count * fl (count + 1)))) (a : ℚ) =
      ((a + (bs.map fun b => b.length * (b.length + 1)).sum : Nat) : ℚ) := by
  induction bs with
  | nil => intro a _; simp
  | cons b bs ih =>
    intro a h
    rw [List.map_cons, List.sum_cons] at h
    rw [List.foldl_cons, List.map_cons, List.sum_cons]
    cases b with
    | nil =>
      simp only [List.isEmpty_nil, if_true]
      rw [ih a (by simpa using h)]
      simp
    | cons x xs =>
      simp only [List.isEmpty_cons, Bool.false_eq_true, if_false]
      have hl : 1 ≤ (x :: xs).length := by simp
      generalize (x :: xs).length = c at *
      have hc : c + 1 ≤ c * (c + 1) := Nat.le_mul_of_pos_left _ hl
      have e1 : ofNat c = c := ofNat_exact (by omega)
      have e2 : fl ((c : ℚ) + 1) = ((c + 1 : Nat) : ℚ) := by
        rw [show (c : ℚ) + 1 = ((c + 1 : Nat) : ℚ) by push_cast; ring]; exact fl_self (isFloat_nat (by omega))
      have e3 : fl ((c : ℚ) * ((c + 1 : Nat) : ℚ)) = ((c * (c + 1) : Nat) : ℚ) := by
        rw [show (c : ℚ) * ((c + 1 : Nat) : ℚ) = ((c * (c + 1) : Nat) : ℚ) by push_cast; ring]; exact fl_self (isFloat_nat (by omega))
      have e4 : fl ((a : ℚ) + ((c * (c + 1) : Nat) : ℚ)) = ((a + c * (c + 1) : Nat) : ℚ) := by
        rw [show (a : ℚ) + ((c * (c + 1) : Nat) : ℚ) = ((a + c * (c + 1) : Nat) : ℚ) by push_cast; ring]; exact fl_self (isFloat_nat (by omega))
      rw [e1, e2, e3, e4, ih (a + c * (c + 1)) (by omega), Nat.add_assoc]

theorem sum_sq_le (l : List Nat) : (l.map fun c => c * (c + 1)).sum ≤ l.sum * (l.sum + 1) := by
  induction l with
  | nil => simp
  | cons c l ih =>
    rw [List.map_cons, List.sum_cons, List.sum_cons]
    nlinarith [Nat.zero_le (c * l.sum)]

/-- The quality as computed in `float64` from any table of this size and these counts. -/
theorem quality_near (ht : HT κ) (hlen : ht.buckets.length = ht.size.toNat) (hsz : ht.size.toNat * 24 ≤ 2 ^ 48) (hpos : 0 < ht.size.toNat)
    (hins : ht.inserts = (ht.buckets.map List.length).sum) (hne : ht.inserts ≠ 0) (hsmall : ht.inserts < 2 ^ 26) :
    ∃ q, Model.Print.hashQuality ht = .num q ∧ Near 4 (dragon (ht.buckets.map List.length)) q := by
  have hsum : (ht.buckets.map fun b => b.length * (b.length + 1)).sum ≤ ht.inserts * (ht.inserts + 1) := by
    have := sum_sq_le (ht.buckets.map List.length)
    rw [List.map_map, ← hins] at this
    exact this
  have hb : ht.inserts * (ht.inserts + 1) ≤ 2 ^ 26 * 2 ^ 26 := Nat.mul_le_mul (by omega) (by omega)
  have hsum' : (ht.buckets.map fun b => b.length * (b.length + 1)).sum ≤ 2 ^ 53 := by omega
  unfold Model.Print.hashQuality
  rw [if_neg hne]
  have e0 := fold_exact ht.buckets 0 (by omega)
  rw [Nat.zero_add] at e0
  rw [show ((0 : Nat) : ℚ) = 0 by norm_num] at e0
  dsimp only
  rw [e0, ofNat_exact (show ht.size.toNat ≤ 2 ^ 53 by omega), ofNat_exact (show ht.inserts ≤ 2 ^ 53 by omega)]
  have e1 : fl (2 * (ht.size.toNat : ℚ)) = ((2 * ht.size.toNat : Nat) : ℚ) := by
    rw [show 2 * (ht.size.toNat : ℚ) = ((2 * ht.size.toNat : Nat) : ℚ) by push_cast; ring]; exact fl_self (isFloat_nat (by omega))
  have e2 : fl ((ht.inserts : ℚ) + ((2 * ht.size.toNat : Nat) : ℚ)) = ((ht.inserts + 2 * ht.size.toNat : Nat) : ℚ) := by
    rw [show (ht.inserts : ℚ) + ((2 * ht.size.toNat : Nat) : ℚ) = ((ht.inserts + 2 * ht.size.toNat : Nat) : ℚ) by push_cast; ring]; exact fl_self (isFloat_nat (by omega))
  have e3 : fl (((ht.inserts + 2 * ht.size.toNat : Nat) : ℚ) - 1) = ((ht.inserts + 2 * ht.size.toNat - 1 : Nat) : ℚ) := by
    have : ((ht.inserts + 2 * ht.size.toNat : Nat) : ℚ) - 1 = ((ht.inserts + 2 * ht.size.toNat - 1 : Nat) : ℚ) := by
      rw [Nat.cast_sub (by omega)]; simp
    rw [this]; exact fl_self (isFloat_nat (by omega))
  rw [e1, e2, e3]
  generalize hS : (ht.buckets.map fun b => b.length * (b.length + 1)).sum = S at *
  have hd : (0 : ℚ) < (ht.inserts : ℚ) * ((ht.inserts + 2 * ht.size.toNat - 1 : Nat) : ℚ) := by
    apply mul_pos
    · exact_mod_cast (by omega : 0 < ht.inserts)
    · exact_mod_cast (by omega : 0 < ht.inserts + 2 * ht.size.toNat - 1)
  have n1 : Near 1 ((S : ℚ) * ht.size.toNat) (fl ((S : ℚ) * ht.size.toNat)) := near_fl (n := 0) (by positivity) (by omega) (near_refl 0 (by positivity))
  have n2 := near_fl (n := 0) hd.le (by omega) (near_refl 0 hd.le)
  obtain ⟨q1, n3⟩ := near_div (by positivity) hd (by omega) (by omega) n1 n2
  refine ⟨_, by unfold Flt.div; rw [if_neg q1.ne'], ?_⟩
  have n4 := near_fl (by positivity) (by omega) n3
  have e4 : dragon (ht.buckets.map List.length) = (S : ℚ) * ht.size.toNat / ((ht.inserts : ℚ) * ((ht.inserts + 2 * ht.size.toNat - 1 : Nat) : ℚ)) := by
    unfold dragon
    rw [List.map_map, List.length_map, ← hins, hlen]
    have : (ht.buckets.map ((fun c => c * (c + 1)) ∘ List.length)).sum = S := hS
    rw [this, Nat.cast_sub (by omega)]
    push_cast
    ring
  rw [e4]
  exact near_mono (by omega) (by positivity) n4

theorem toInt_size (x : U64) (h : x.toNat * 24 ≤ 2 ^ 48) : x.toInt = (x.toNat : Int) := by
  rw [BitVec.toInt_eq_toNat_of_lt (by omega)]

theorem size_small {np : Int → Int} {size seed extra : Int} {pd oa prime : Bool} {ht : HT κ} (h : newHashTable np size seed extra pd oa prime = .ok ht) : ht.size.toNat * 24 ≤ 2 ^ 48 := by
  unfold newHashTable at h
  dsimp only at h
  split at h
  · rename_i hs
    cases Except.ok.inj h
    exact hs
  · exact nomatch h

theorem sum_lengths {bs : List (List κ)} : (bs.map List.length).sum = bs.flatten.length := by
  rw [List.length_flatten]

theorem sumSlots_le (f : Nat → κ → Nat) (hf : ∀ i k, f i k ≤ 1) (bs : List (List κ)) : sumSlots f bs ≤ bs.flatten.length := by
  unfold sumSlots
  suffices h : ∀ n, ((bs.zipIdx n).map fun p => (p.1.map (f p.2)).sum).sum ≤ bs.flatten.length from h 0
  induction bs with
  | nil => intro n; simp
  | cons b bs ih =>
    intro n
    rw [List.zipIdx_cons, List.map_cons, List.sum_cons, List.flatten_cons, List.length_append]
    have h1 : (b.map (f n)).sum ≤ b.length := by
      clear ih
      induction b with
      | nil => simp
      | cons x b ih =>
        rw [List.map_cons, List.sum_cons, List.length_cons]
        have := hf n x
        omega
    have := ih (n + 1)
    dsimp only
    omega

end Print
open Print

/-- C105. The time of every table is shown in the right unit: seconds from one second on, milliseconds from one millisecond on, and microseconds below, with a
relative error of at most 2^-50, for every duration a `Duration` can hold. -/
theorem C105_time (ht : HT κ) (dups2 : Int) (dur : Nat) (hd : dur < 2 ^ 63) : ∃ l v unit, print ht dups2 dur = l ++ [("time", .time v unit)] ∧ Shows dur v unit := by
  have h := shows_cvt dur hd
  unfold print
  by_cases ho : ht.oa = true
  · simp only [ho, if_true]
    exact ⟨[_, _, _, _, _, _, _], _, _, rfl, h⟩
  · simp only [ho]
    exact ⟨[_, _, _, _, _, _, _, _], _, _, rfl, h⟩

/-- C105. Chaining: after inserting any keys (fewer than 2^26) with any hash function, `Print` shows the table's size, the number of keys, the number of buckets in use, the
number of keys that found their bucket in use, the longest chain (0 if no bucket has two keys), the pairs of keys with equal hashes, the field `Dups2`, and the quality of the distribution. -/
theorem C105_chain (H : κ → U64 → U64) (np : Int → Int) (size seed extra : Int) (pd prime : Bool) (ht0 : HT κ) (ks : List κ) (dups2 : Int) (dur : Nat) (hd : dur < 2 ^ 63)
    (hnew : newHashTable np size seed extra pd false prime = .ok ht0) (hpos : 0 < ht0.buckets.length) (hks : ks ≠ []) (hsmall : ks.length < 2 ^ 26) :
    ∃ ht q v unit, insertAll (pureEnv H (fun _ => true)) () ht0 ks = .ok ((), ht) ∧
      (print ht dups2 dur = [("size", .int ht0.buckets.length), ("inserts", .int ks.length), ("heads", .int (occupied ht.buckets)), ("newBuckets", .int (ks.length - occupied ht.buckets : Nat)),
        ("LongestChain", .int (if longest ht.buckets ≤ 1 then 0 else longest ht.buckets : Nat)), ("dups", .int (eqPairs (ks.map fun k => H k ht0.seed))), ("dups2", .int dups2),
        ("q", .float (.num q)), ("time", .time v unit)]) ∧
      ht.buckets = ((List.range ht0.buckets.length).map fun i => ks.filter fun k => homeOf prime ht0.buckets.length (H k ht0.seed) = i) ∧
      Near 4 (dragon (ht.buckets.map List.length)) q ∧ Shows dur v unit := by
  obtain ⟨ht, h1, hc⟩ := C04_chain_contents H np size seed extra pd prime ht0 ks hnew hpos
  obtain ⟨_, ht', h1', s1, s2, s3, s4, s5, s6⟩ := C05_chain_stats (pureEnv H (fun _ => true)) (fun _ => rfl) np size seed extra pd prime ht0 () ks hnew hpos
  rw [h1] at h1'
  cases h1'
  obtain ⟨ht', h1', s7⟩ := C06_chain_dups H np size seed extra pd prime ht0 ks hnew hpos
  rw [h1] at h1'
  cases h1'
  obtain ⟨hsz, hwf, hoa⟩ : ht.size.toNat = ht0.buckets.length ∧ ht.buckets.length = ht.size.toNat ∧ ht.oa = false := by
    rcases insertAll_same (e := pureEnv H (fun _ => true)) (fun _ => rfl) ks () ht0 (newHashTable_wf hnew hpos) _ h1 with ⟨_, _, ha, hb⟩ | ⟨_, hb⟩
    · cases ha
      refine ⟨by rw [hb.size, (newHashTable_wf hnew hpos).len], hb.wf.len, ?_⟩
      rw [hb.oa, (newHashTable_ok hnew).2.2.1]
    · cases hb
  have hs0 : ht0.size.toNat = ht0.buckets.length := (newHashTable_wf hnew hpos).len.symm
  have hlim : ht.size.toNat * 24 ≤ 2 ^ 48 := by rw [hsz, ← hs0]; exact size_small hnew
  have hins : ht.inserts = (ht.buckets.map List.length).sum := by
    obtain ⟨ht'', g1, g2⟩ := chain_main H (fun _ => true) np size seed extra pd prime ht0 ks (fun _ _ => rfl) hnew hpos
    rw [h1] at g1
    cases g1
    rw [s1, hc, List.map_map]
    have hhome : ∀ k ∈ ks, homeOf prime ht0.buckets.length (H k ht0.seed) < ht0.buckets.length := by
      intro k _
      unfold homeOf
      split
      · exact Nat.mod_lt _ hpos
      · exact lt_of_le_of_lt Nat.and_le_right (by omega)
    generalize ht0.buckets.length = m at *
    generalize homeOf prime m = g at *
    clear * - hhome
    induction ks with
    | nil =>
      symm
      apply List.sum_eq_zero
      intro x hx
      obtain ⟨i, _, rfl⟩ := List.mem_map.1 hx
      rfl
    | cons k ks ih =>
      have ih' := ih (fun x hx => hhome x (List.mem_cons_of_mem _ hx))
      have hk := hhome k (List.mem_cons_self ..)
      rw [List.length_cons, ih']
      have : ∀ i, (List.length ∘ fun i => (k :: ks).filter fun k => decide (g (H k ht0.seed) = i)) i =
          (if g (H k ht0.seed) = i then 1 else 0) + (List.length ∘ fun i => ks.filter fun k => decide (g (H k ht0.seed) = i)) i := by
        intro i
        simp only [Function.comp_apply, List.filter_cons]
        split <;> simp_all [Nat.add_comm]
      rw [List.map_congr_left (fun i _ => this i), List.sum_map_add]
      have h1 : ((List.range m).map fun i => if g (H k ht0.seed) = i then 1 else 0).sum = 1 := by
        generalize g (H k ht0.seed) = j at hk
        clear * - hk
        induction m with
        | zero => omega
        | succ m ih =>
          rw [List.range_succ, List.map_append, List.sum_append]
          by_cases hj : j = m
          · subst hj
            have : ((List.range j).map fun i => if j = i then 1 else 0).sum = 0 := by
              apply List.sum_eq_zero
              intro x hx
              obtain ⟨i, hi, rfl⟩ := List.mem_map.1 hx
              have := List.mem_range.1 hi
              rw [if_neg (by omega)]
            rw [this]; simp
          · rw [ih (by omega)]
            simp [hj]
      rw [h1]; omega
  have hne : ht.inserts ≠ 0 := by rw [s1]; exact fun h => hks (List.length_eq_zero_iff.1 h)
  obtain ⟨q, hq, hqn⟩ := quality_near ht hwf hlim (by omega) hins hne (by rw [s1]; exact hsmall)
  refine ⟨ht, q, (cvt (seconds dur)).1, (cvt (seconds dur)).2, h1, ?_, hc, hqn, shows_cvt dur hd⟩
  unfold print
  simp only [hoa, Bool.false_eq_true, if_false, hq, toInt_size _ hlim, hsz, s1, s4, s5, s6, s7]

/-- C105. Open addressing: after inserting any number of keys that fit, the ratios shown are `Cols` as a percentage of, and `Probes` divided by, the number of keys; the
latter is between 1 and 2. For an empty table both are NaN. -/
theorem C105_oa (H : κ → U64 → U64) (np : Int → Int) (size seed extra : Int) (pd prime : Bool) (ht0 : HT κ) (ks : List κ) (dups2 : Int) (dur : Nat) (hd : dur < 2 ^ 63)
    (hnew : newHashTable np size seed extra pd true prime = .ok ht0) (hpos : 0 < ht0.buckets.length) (hroom : ks.length ≤ ht0.buckets.length) :
    ∃ ht v unit cols probes cpi ppi, insertAll (pureEnv H (fun _ => true)) () ht0 ks = .ok ((), ht) ∧
      (print ht dups2 dur = [("size", .int ht0.buckets.length), ("inserts", .float (.num ks.length)), ("probes", .float (.num probes)), ("cols", .float (.num cols)),
        ("cpi", .float cpi), ("ppi", .float ppi), ("dups", .int (eqPairs (ks.map fun k => H k ht0.seed))), ("time", .time v unit)]) ∧
      Near 1 (ht.probes : ℚ) probes ∧ Near 1 (ht.cols : ℚ) cols ∧ Shows dur v unit ∧
      (ks = [] → cpi = .nan ∧ ppi = .nan) ∧
      (ks ≠ [] → ∃ c p, cpi = .num c ∧ ppi = .num p ∧ Near 4 (100 * ht.cols / ks.length) c ∧ Near 4 ((ht.probes : ℚ) / ks.length) p ∧ 1 ≤ p ∧ p ≤ 2) := by
  obtain ⟨ht, h1, s1, s2, s3, s4, s5, s6, s7, s8⟩ := C09_oa_stats H np size seed extra pd prime ht0 ks hnew hpos hroom
  obtain ⟨ht', h1', hdup⟩ := C06_oa_dups H np size seed extra pd prime ht0 ks hnew hpos hroom
  rw [h1] at h1'
  cases h1'
  obtain ⟨hsz, hwf, hoa⟩ : ht.size.toNat = ht0.buckets.length ∧ ht.buckets.length = ht.size.toNat ∧ ht.oa = true := by
    rcases insertAll_same (e := pureEnv H (fun _ => true)) (fun _ => rfl) ks () ht0 (newHashTable_wf hnew hpos) _ h1 with ⟨_, _, ha, hb⟩ | ⟨_, hb⟩
    · cases ha
      refine ⟨by rw [hb.size, (newHashTable_wf hnew hpos).len], hb.wf.len, ?_⟩
      rw [hb.oa, (newHashTable_ok hnew).2.2.1]
    · cases hb
  have hs0 : ht0.size.toNat = ht0.buckets.length := (newHashTable_wf hnew hpos).len.symm
  have hlim : ht.size.toNat * 24 ≤ 2 ^ 48 := by rw [hsz, ← hs0]; exact size_small hnew
  have hk : ks.length ≤ 2 ^ 50 := by omega
  have hocc : sumSlots (fun i k => if homeOf prime ht0.buckets.length (H k ht0.seed) = i then 0 else 1) ht.buckets ≤ ks.length := by
    obtain ⟨ht'', g1, g2⟩ := oa_main H (fun _ => true) np size seed extra pd prime ht0 ks (fun _ _ => rfl) hnew hroom hpos
    rw [h1] at g1
    cases g1
    rw [← g2.perm.length_eq]
    exact sumSlots_le _ (fun i k => by split <;> omega) ht.buckets
  have hpr : ht.probes ≤ 2 * ks.length := by omega
  refine ⟨ht, (cvt (seconds dur)).1, (cvt (seconds dur)).2, ofNat ht.cols, ofNat ht.probes, (Flt.div (ofNat ht.cols) (ofNat ks.length)).times100, Flt.div (ofNat ht.probes) (ofNat ks.length), h1, ?_,
    ofNat_near _, ofNat_near _, shows_cvt dur hd, ?_, ?_⟩
  · unfold print
    simp only [hoa, if_true, toInt_size _ hlim, hsz, s1, hdup]
    rw [ofNat_exact (show ks.length ≤ 2 ^ 53 by omega)]
  · rintro rfl
    have e0 : ht = ht0 := (congrArg Prod.snd (Except.ok.inj h1)).symm
    have e1 : ht.cols = 0 ∧ ht.probes = 0 := by
      rw [e0]; exact ⟨(C02_fields np size seed extra pd true prime ht0 hnew).1.2.1, (C02_fields np size seed extra pd true prime ht0 hnew).1.2.2.1⟩
    have e2 : ofNat 0 = 0 := ofNat_exact (n := 0) (by norm_num) |>.trans (by norm_num)
    rw [e1.1, e1.2, List.length_nil, e2]
    unfold Flt.div
    rw [if_pos rfl, if_pos rfl]
    exact ⟨rfl, rfl⟩
  · intro hne
    have hk0 : 0 < ks.length := List.length_pos_iff.2 hne
    have hq : (0 : ℚ) < ks.length := by exact_mod_cast hk0
    rw [ofNat_exact (show ks.length ≤ 2 ^ 53 by omega), ofNat_exact (show ht.probes ≤ 2 ^ 53 by omega)]
    unfold Flt.div
    rw [if_neg hq.ne', if_neg hq.ne']
    refine ⟨_, _, rfl, rfl, ?_, ?_, ?_, ?_⟩
    · have n1 := near_fl (by positivity) (by omega) (near_mul (c := 1 / (ks.length : ℚ)) (by positivity) (ofNat_near ht.cols))
      have n2 := near_fl (by positivity) (by omega) (near_mul (c := 100) (by norm_num) n1)
      have e1 : (ht.cols : ℚ) * (1 / ks.length) * 100 = 100 * ht.cols / ks.length := by ring
      rw [e1] at n2
      rw [show ofNat ht.cols / (ks.length : ℚ) = ofNat ht.cols * (1 / ks.length) by ring]
      exact near_mono (by omega) (by positivity) n2
    · exact near_mono (by omega) (by positivity) (near_fl (n := 0) (by positivity) (by omega) (near_refl 0 (by positivity)))
    · refine Lemmas.RBetween.le_fl (by positivity) (by simpa using isFloat_nat (n := 1) (by norm_num)) ?_
      rw [le_div_iff₀ hq, one_mul]
      exact_mod_cast (by omega : ks.length ≤ ht.probes)
    · refine Lemmas.RBetween.fl_le (by positivity) (by simpa using isFloat_nat (n := 2) (by norm_num)) ?_
      rw [div_le_iff₀ hq]
      exact_mod_cast hpr

/-- The hypotheses are met: a table of four buckets, four keys, a duration of 1.5 ms. -/
example : ∃ (ht0 ht : HT (List U8)) (q v : ℚ), newHashTable id 3 0 0 false false false = .ok ht0 ∧
    insertAll (pureEnv exH (fun _ => true)) () ht0 [[1], [5], [2], [1, 0]] = .ok ((), ht) ∧
    print ht 0 1500000 = [("size", .int 4), ("inserts", .int 4), ("heads", .int 2), ("newBuckets", .int 2), ("LongestChain", .int 3), ("dups", .int 1), ("dups2", .int 0),
      ("q", .float (.num q)), ("time", .time v "ms")] ∧ Near 4 (4 * 14 / (4 * 11)) q ∧ Near 4 (1500000 / 10 ^ 6) v := by
  obtain ⟨ht, q, v, u, h1, h2, h3, h4, h5, h6⟩ := C105_chain exH id 3 0 0 false false _ [[1], [5], [2], [1, 0]] 0 1500000 (by norm_num) rfl (by decide) (by decide) (by decide)
  have hb : ht.buckets = [[], [[1], [5], [1, 0]], [[2]], []] := by rw [h3]; decide
  refine ⟨_, ht, q, v, rfl, h1, ?_, ?_, ?_⟩
  · rw [h2, hb, h5]
    rfl
  · rw [hb] at h4
    norm_num [dragon] at h4
    norm_num
    exact h4
  · norm_num [unitFor] at h6
    norm_num
    exact h6

/-- And an empty table with open addressing: the ratios are not numbers. -/
example : ∃ (ht0 ht : HT (List U8)) (cpi : Flt), newHashTable id 3 0 0 false true false = .ok ht0 ∧ insertAll (pureEnv exH (fun _ => true)) () ht0 [] = .ok ((), ht) ∧
    ("cpi", Val.float cpi) ∈ print ht 0 0 ∧ cpi = .nan := by
  obtain ⟨ht, v, u, c, p, cpi, ppi, h1, h2, _, _, _, h3, _⟩ := C105_oa exH id 3 0 0 false false _ [] 0 0 (by norm_num) rfl (by decide) (by decide)
  refine ⟨_, ht, cpi, rfl, h1, ?_, (h3 rfl).1⟩
  rw [h2]
  simp

end Verif.Props
