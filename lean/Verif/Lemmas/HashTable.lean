import Verif.Lemmas.Basic
import Verif.Model.HashTable
import Verif.Spec.HashTable
import Verif.Spec.HashTableObs

namespace Verif.HashTable
open Verif Verif.Spec.HashTable

/-! ### NextLog2 -/

/-- Bisection invariant. -/
def LogInv (x0 k : Nat) (p : U32 × U32) : Prop :=
  2 ^ p.1.toNat * p.2.toNat ≤ x0 ∧ x0 < 2 ^ p.1.toNat * (p.2.toNat + 1) ∧ 0 < p.2.toNat ∧
    p.2.toNat < 2 ^ k ∧ p.1.toNat + k ≤ 32

def logStep (s : Nat) (p : U32 × U32) : U32 × U32 :=
  if p.2 >>> s ≠ 0 then (p.1 + BitVec.ofNat 32 s, p.2 >>> s) else p

theorem logStep_inv {x0 s : Nat} {p : U32 × U32} (hs : 0 < s) (hs' : s < 32)
    (h : LogInv x0 (2 * s) p) : LogInv x0 s (logStep s p) := by
  obtain ⟨h1, h2, h3, h4, h5⟩ := h
  have hy : (p.2 >>> s).toNat = p.2.toNat / 2 ^ s := by
    simp [BitVec.toNat_ushiftRight, Nat.shiftRight_eq_div_pow]
  have hpos : 0 < 2 ^ s := Nat.two_pow_pos s
  have hdm := Nat.div_add_mod p.2.toNat (2 ^ s)
  have hml := Nat.mod_lt p.2.toNat hpos
  unfold logStep
  by_cases hz : p.2 >>> s = 0
  · have : p.2.toNat / 2 ^ s = 0 := by rw [← hy, hz]; rfl
    rw [this] at hdm
    simp only [hz, ne_eq, not_true_eq_false, if_false]
    exact ⟨h1, h2, h3, by omega, by omega⟩
  · have hne : 0 < p.2.toNat / 2 ^ s := by
      rw [← hy]
      rcases Nat.eq_zero_or_pos (p.2 >>> s).toNat with h | h
      · exact absurd (BitVec.eq_of_toNat_eq (by simpa using h)) hz
      · exact h
    have hn : (p.1 + BitVec.ofNat 32 s).toNat = p.1.toNat + s := by
      rw [BitVec.toNat_add, BitVec.toNat_ofNat, Nat.mod_eq_of_lt (a := s) (by omega)]
      exact Nat.mod_eq_of_lt (by omega)
    simp only [hz, ne_eq, not_false_eq_true, if_true]
    refine ⟨?_, ?_, ?_, ?_, ?_⟩
    · show 2 ^ (p.1 + BitVec.ofNat 32 s).toNat * (p.2 >>> s).toNat ≤ x0
      rw [hn, hy, Nat.pow_add, Nat.mul_assoc]
      refine Nat.le_trans (Nat.mul_le_mul_left _ ?_) h1
      omega
    · show x0 < 2 ^ (p.1 + BitVec.ofNat 32 s).toNat * ((p.2 >>> s).toNat + 1)
      rw [hn, hy, Nat.pow_add, Nat.mul_assoc]
      refine Nat.lt_of_lt_of_le h2 (Nat.mul_le_mul_left _ ?_)
      rw [Nat.mul_add]; omega
    · show 0 < (p.2 >>> s).toNat
      rw [hy]; exact hne
    · show (p.2 >>> s).toNat < 2 ^ s
      rw [hy]
      apply Nat.div_lt_of_lt_mul
      rw [← Nat.pow_add]
      have : s + s = 2 * s := by omega
      rw [this]; exact h4
    · show (p.1 + BitVec.ofNat 32 s).toNat + s ≤ 32
      omega

theorem nextLog2_eq (x : U32) (hx : ¬ x ≤ 1) : nextLog2 x =
    let p := logStep 2 (logStep 4 (logStep 8 (logStep 16 (0, x - 1))))
    if p.2 >>> 1 ≠ 0 then p.1 + 2 else p.1 + p.2 := by
  simp only [nextLog2, hx, if_false, logStep]
  rfl

theorem nextLog2_bounds (x : U32) (hx : 2 ≤ x.toNat) :
    1 ≤ (nextLog2 x).toNat ∧ (nextLog2 x).toNat ≤ 32 ∧ x.toNat ≤ 2 ^ (nextLog2 x).toNat ∧
      2 ^ ((nextLog2 x).toNat - 1) < x.toNat := by
  have h1 : ¬ x ≤ 1 := by
    rw [BitVec.le_def]; simp; omega
  have hxm : (x - 1).toNat = x.toNat - 1 := by
    rw [BitVec.toNat_sub_of_le (by rw [BitVec.le_def]; simp; omega)]; rfl
  have hlt := x.isLt
  have i0 : LogInv (x.toNat - 1) 32 ((0 : U32), x - 1) := by
    refine ⟨?_, ?_, ?_, ?_, ?_⟩ <;> simp <;> omega
  have i := logStep_inv (s := 2) (by omega) (by omega) (logStep_inv (s := 4) (by omega) (by omega)
    (logStep_inv (s := 8) (by omega) (by omega) (logStep_inv (s := 16) (by omega) (by omega) i0)))
  rw [nextLog2_eq x h1]
  generalize logStep 2 (logStep 4 (logStep 8 (logStep 16 (0, x - 1)))) = p at i
  obtain ⟨n, y⟩ := p
  obtain ⟨a, b, c, d, e⟩ := i
  simp only at a b c d e ⊢
  have hy : (y >>> 1).toNat = y.toNat / 2 := by
    simp [BitVec.toNat_ushiftRight, Nat.shiftRight_eq_div_pow]
  by_cases hz : y >>> 1 = 0
  · have hy1 : y.toNat = 1 := by
      have : y.toNat / 2 = 0 := by rw [← hy, hz]; rfl
      omega
    have hn : (n + y).toNat = n.toNat + 1 := by
      rw [BitVec.toNat_add, hy1]; exact Nat.mod_eq_of_lt (by omega)
    simp only [hz, ne_eq, not_true_eq_false, if_false, hn]
    rw [hy1] at a b
    rw [Nat.pow_succ]
    simp only [Nat.add_sub_cancel]
    omega
  · have hne : 0 < y.toNat / 2 := by
      rw [← hy]
      rcases Nat.eq_zero_or_pos (y >>> 1).toNat with h | h
      · exact absurd (BitVec.eq_of_toNat_eq (by simpa using h)) hz
      · exact h
    have hn : (n + 2).toNat = n.toNat + 2 := by
      rw [BitVec.toNat_add]; exact Nat.mod_eq_of_lt (by simp; omega)
    simp only [hz, ne_eq, not_false_eq_true, if_true, hn]
    have hy3 : y.toNat = 2 ∨ y.toNat = 3 := by omega
    have e2 : n.toNat + 2 - 1 = n.toNat + 1 := by omega
    rw [e2, Nat.pow_succ, Nat.pow_succ]
    rcases hy3 with hy3 | hy3 <;> rw [hy3] at a b <;> omega

/-! ### Well-formed tables -/

variable {ω κ : Type}

def HT.home (ht : HT κ) (h : U64) : Nat := homeOf ht.prime ht.size.toNat h

theorem size_sub_one {s : U64} (h : 0 < s.toNat) : (s - 1).toNat = s.toNat - 1 := by
  rw [BitVec.toNat_sub_of_le (by rw [BitVec.le_def]; simp; omega)]; rfl

theorem homeOf_lt (prime : Bool) {n : Nat} (hn : 0 < n) (h : U64) : homeOf prime n h < n := by
  unfold homeOf
  split
  · exact Nat.mod_lt _ hn
  · have := Nat.and_le_right (n := h.toNat) (m := n - 1); omega

theorem WF.home_lt {ht : HT κ} (wf : WF ht) (h : U64) : ht.home h < ht.buckets.length := by
  rw [wf.len]; exact homeOf_lt _ wf.pos _

/-- `Insert` starts its loop at the home slot. -/
theorem insert_eq {e : Env ω κ} {w : ω} {ht : HT κ} {k : κ} (wf : WF ht) :
    ∃ idx : U64, idx.toNat = ht.home (e.hash w k ht.seed).1 ∧
    insert e w ht k = insertLoop e k (e.hash w k ht.seed).1 (2 * ht.size.toNat + 1)
      (e.hash w k ht.seed).2 { ht with inserts := ht.inserts + 1 } idx 0 0 := by
  have h0 : ht.size ≠ 0 := by
    intro h; have := wf.pos; rw [h] at this; simp at this
  unfold insert
  cases hp : ht.prime
  · refine ⟨(e.hash w k ht.seed).1 &&& ht.sizeMask, ?_, ?_⟩
    · simp only [HT.home, homeOf, hp, wf.mask, BitVec.toNat_and, size_sub_one wf.pos]
      rfl
    · rfl
  · refine ⟨(e.hash w k ht.seed).1 % ht.size, ?_, ?_⟩
    · simp [HT.home, homeOf, hp, BitVec.toNat_umod]
    · simp only [if_neg h0]; rfl

theorem scanDups_acc (e : Env ω κ) (seed h : U64) (ks : List κ) (w : ω) (n : Nat) :
    scanDups e seed h ks w n =
      (n + (scanDups e seed h ks w 0).1, (scanDups e seed h ks w 0).2) := by
  induction ks generalizing w n with
  | nil => simp [scanDups]
  | cons k ks ih =>
    simp only [scanDups]
    rw [ih]
    conv => rhs; rw [ih]
    split <;> simp <;> omega

theorem scanDups_append (e : Env ω κ) (seed h : U64) (ks ks' : List κ) (w : ω) (n : Nat) :
    scanDups e seed h (ks ++ ks') w n =
      scanDups e seed h ks' (scanDups e seed h ks w n).2 (scanDups e seed h ks w n).1 := by
  induction ks generalizing w n with
  | nil => simp [scanDups]
  | cons k ks ih => simp only [List.cons_append, scanDups]; rw [ih]

/-! ### Chaining -/

/-- Result of one `Insert` in chaining mode. -/
def chainNext (e : Env ω κ) (w : ω) (ht : HT κ) (k : κ) : ω × HT κ :=
  let h := (e.hash w k ht.seed).1
  let w := (e.hash w k ht.seed).2
  let i := ht.home h
  let b := (ht.buckets[i]?).getD []
  if b.isEmpty then
    (w, { ht with inserts := ht.inserts + 1, buckets := ht.buckets.set i [k],
                  probes := ht.probes + 1, heads := ht.heads + 1 })
  else
    ((scanDups e ht.seed h b w ht.dups).2,
     { ht with inserts := ht.inserts + 1, buckets := ht.buckets.set i (b ++ [k]),
               dups := (scanDups e ht.seed h b w ht.dups).1,
               longestChain := max ht.longestChain (b.length + 1),
               nbuckets := ht.nbuckets + 1, probes := ht.probes + 1 })

theorem insert_chain {e : Env ω κ} {w : ω} {ht : HT κ} {k : κ} (wf : WF ht)
    (hoa : ht.oa = false) (ht' : e.traceOK k = true) :
    insert e w ht k = .ok (chainNext e w ht k) := by
  obtain ⟨idx, hi, he⟩ := insert_eq (e := e) (w := w) (k := k) wf
  have hlt := wf.home_lt (e.hash w k ht.seed).1
  rw [he]
  rw [insertLoop]
  simp only [hi, Go.idx_eq hlt, hoa, traceChk, ht', if_true, Go.set, hlt]
  simp only [bind, Except.bind, pure, Except.pure, chainNext]
  simp only [List.getElem?_eq_getElem hlt, Option.getD_some]
  cases hb : (ht.buckets[ht.home (e.hash w k ht.seed).1]).isEmpty
  · simp only [if_false, Bool.false_eq_true, List.length_append, List.length_singleton]
    have hm : ∀ a b : Nat, (if a > b then a else b) = max b a := by
      intro a b; rw [Nat.max_def]; split <;> split <;> omega
    rw [hm]
    simp [hoa]
  · simp [hoa]

theorem chainNext_wf {e : Env ω κ} {w : ω} {ht : HT κ} {k : κ} (wf : WF ht) :
    WF (chainNext e w ht k).2 := by
  unfold chainNext
  dsimp only
  split <;> exact ⟨by simpa using wf.len, wf.mask, wf.pos⟩

theorem chainNext_const {e : Env ω κ} {w : ω} {ht : HT κ} {k : κ} :
    (chainNext e w ht k).2.oa = ht.oa ∧ (chainNext e w ht k).2.prime = ht.prime ∧
    (chainNext e w ht k).2.size = ht.size ∧ (chainNext e w ht k).2.seed = ht.seed := by
  unfold chainNext; dsimp only; split <;> simp

/-! ### Open addressing -/

theorem least_of_exists {P : Nat → Prop} : (∃ n, P n) → ∃ n, P n ∧ ∀ m, m < n → ¬ P m := by
  rintro ⟨n, hn⟩
  induction n using Nat.strongRecOn with
  | _ n ih =>
    by_cases h : ∃ m, m < n ∧ P m
    · obtain ⟨m, hm, hp⟩ := h; exact ih m hm hp
    · exact ⟨n, hn, fun m hm hp => h ⟨m, hm, hp⟩⟩

/-- The keys an open-addressing scan of `r` slots starting at `i` meets. -/
def scanned (bs : List (List κ)) (n i r : Nat) : List κ :=
  (List.range r).flatMap fun e => ((bs[(i + e) % n]?).getD []).take 1

theorem scanned_succ (bs : List (List κ)) (n i r : Nat) :
    scanned bs n i (r + 1) = ((bs[i % n]?).getD []).take 1 ++ scanned bs n (i + 1) r := by
  unfold scanned
  rw [List.range_succ_eq_map]
  simp only [List.flatMap_cons, List.flatMap_map, Nat.add_zero]
  congr 2
  funext e
  rw [Nat.add_assoc, Nat.add_comm 1 e]

theorem scanned_mod (bs : List (List κ)) (n i r : Nat) :
    scanned bs n (i % n) r = scanned bs n i r := by
  unfold scanned; simp

theorem next_idx {n : Nat} {size idx : U64} (hn : size.toNat = n) (hi : idx.toNat < n) :
    (idx + 1 > size - 1 ↔ idx.toNat + 1 = n) ∧ (idx + 1).toNat = idx.toNat + 1 := by
  have h1 : (idx + 1).toNat = idx.toNat + 1 := by
    rw [BitVec.toNat_add]
    have := size.isLt
    exact Nat.mod_eq_of_lt (by simp; omega)
  refine ⟨?_, h1⟩
  rw [gt_iff_lt, BitVec.lt_def, h1, size_sub_one (by omega)]
  omega

theorem loop_found (e : Env ω κ) (k : κ) (h : U64) (hk : e.traceOK k = true)
    (r : Nat) : ∀ (fuel : Nat) (w : ω) (ht : HT κ) (idx : U64) (cnt pass n : Nat),
    WF ht → ht.oa = true → ht.size.toNat = n → idx.toNat < n →
    r + 1 ≤ fuel → pass ≤ 1 → idx.toNat + r < n * (2 - pass) →
    (∀ d, d < r → ht.buckets[(idx.toNat + d) % n]? ≠ some []) →
    ht.buckets[(idx.toNat + r) % n]? = some [] →
    insertLoop e k h fuel w ht idx cnt pass = .ok
      ((scanDups e ht.seed h (scanned ht.buckets n idx.toNat r) w ht.dups).2,
       { ht with buckets := ht.buckets.set ((idx.toNat + r) % n) [k],
                 probes := ht.probes + (if cnt = 0 ∧ r ≠ 0 then 2 else 1),
                 cols := ht.cols + (if cnt = 0 then r - 1 else r),
                 heads := ht.heads + 1,
                 dups := (scanDups e ht.seed h (scanned ht.buckets n idx.toNat r) w ht.dups).1 }) := by
  induction r with
  | zero =>
    intro fuel w ht idx cnt pass n wf hoa hn hi hf hp hb hne hemp
    obtain ⟨fuel, rfl⟩ : ∃ f, fuel = f + 1 := ⟨fuel - 1, by omega⟩
    have hlt : idx.toNat < ht.buckets.length := by rw [wf.len, hn]; exact hi
    rw [Nat.add_zero, Nat.mod_eq_of_lt hi] at hemp
    have hb0 : ht.buckets[idx.toNat] = [] := by
      rw [List.getElem?_eq_getElem hlt] at hemp; exact Option.some.inj hemp
    rw [insertLoop]
    simp [Go.idx_eq hlt, hb0, Go.set, hlt, traceChk, hk, scanned, scanDups, Nat.mod_eq_of_lt hi,
      bind, Except.bind, pure, Except.pure]
  | succ r ih =>
    intro fuel w ht idx cnt pass n wf hoa hn hi hf hp hb hne hemp
    obtain ⟨fuel, rfl⟩ : ∃ f, fuel = f + 1 := ⟨fuel - 1, by omega⟩
    have hlt : idx.toNat < ht.buckets.length := by rw [wf.len, hn]; exact hi
    have h0 := hne 0 (by omega)
    rw [Nat.add_zero, Nat.mod_eq_of_lt hi, List.getElem?_eq_getElem hlt] at h0
    obtain ⟨k0, bt, hb0⟩ : ∃ k0 bt, ht.buckets[idx.toNat] = k0 :: bt := by
      cases hbb : ht.buckets[idx.toNat] with
      | nil => rw [hbb] at h0; exact absurd rfl h0
      | cons a b => exact ⟨a, b, rfl⟩
    rw [insertLoop]
    simp only [Go.idx_eq hlt, hb0, List.isEmpty_cons, Bool.false_eq_true, if_false, hoa, if_true,
      traceChk, hk, Go.idx_eq (s := k0 :: bt) (i := 0) (by simp), List.getElem_cons_zero,
      bind, Except.bind]
    obtain ⟨hgt, hsucc⟩ := next_idx hn hi
    -- the state after the counters have been updated
    let ht1 : HT κ := ht.countProbe cnt
    have hs1 : ht1.seed = ht.seed ∧ ht1.size = ht.size ∧ ht1.buckets = ht.buckets ∧
        ht1.oa = true ∧ WF ht1 ∧ ht1.dups = ht.dups := by
      simp only [ht1, HT.countProbe]
      split <;> exact ⟨rfl, rfl, rfl, hoa, ⟨wf.len, wf.mask, wf.pos⟩, rfl⟩
    let ht2 : HT κ := ht1.countDup (e.hash w k0 ht.seed).1 h
    have hs2 : ht2.seed = ht.seed ∧ ht2.size = ht.size ∧ ht2.buckets = ht.buckets ∧
        ht2.oa = true ∧ WF ht2 := by
      obtain ⟨a, b, c, d, f, _⟩ := hs1
      simp only [ht2, HT.countDup]
      split
      · exact ⟨a, b, c, d, ⟨f.len, f.mask, f.pos⟩⟩
      · exact ⟨a, b, c, d, f⟩
    have key : ∀ (idx' : U64) (pass' : Nat), idx'.toNat % n = (idx.toNat + 1) % n → idx'.toNat < n →
        pass' ≤ 1 → idx'.toNat + r < n * (2 - pass') →
        insertLoop e k h fuel (e.hash w k0 ht.seed).2 ht2 idx' (cnt + 1) pass' = .ok
      ((scanDups e ht.seed h (scanned ht.buckets n idx.toNat (r + 1)) w ht.dups).2,
       { ht with buckets := ht.buckets.set ((idx.toNat + (r + 1)) % n) [k],
                 probes := ht.probes + (if cnt = 0 ∧ r + 1 ≠ 0 then 2 else 1),
                 cols := ht.cols + (if cnt = 0 then r + 1 - 1 else r + 1),
                 heads := ht.heads + 1,
                 dups := (scanDups e ht.seed h (scanned ht.buckets n idx.toNat (r + 1)) w ht.dups).1 }) := by
      intro idx' pass' hm hlt' hp' hb'
      obtain ⟨a, b, c, d, f⟩ := hs2
      have hmod : ∀ x, (idx'.toNat + x) % n = (idx.toNat + (x + 1)) % n := by
        intro x
        rw [Nat.add_mod, hm, ← Nat.add_mod, Nat.add_assoc, Nat.add_comm 1 x]
      rw [ih fuel _ ht2 idx' (cnt + 1) pass' n f d (by rw [b, hn]) hlt' (by omega) hp' hb'
        (by intro x hx; rw [c, hmod]; exact hne _ (by omega))
        (by rw [c, hmod]; exact hemp)]
      rw [hmod, a, c]
      have hsc : scanned ht.buckets n idx'.toNat r = scanned ht.buckets n (idx.toNat + 1) r := by
        rw [← scanned_mod, hm, scanned_mod]
      rw [hsc, scanned_succ]
      simp only [Nat.mod_eq_of_lt hi, List.getElem?_eq_getElem hlt, Option.getD_some, hb0,
        List.take_succ_cons, List.take_zero, List.cons_append, List.nil_append, scanDups]
      have hd : ht2.dups = if (e.hash w k0 ht.seed).1 = h then ht.dups + 1 else ht.dups := by
        simp only [ht2, HT.countDup]; rw [← hs1.2.2.2.2.2]; split <;> rfl
      rw [hd]
      simp only [ht2, ht1, HT.countDup, HT.countProbe]
      by_cases hc : cnt = 0 <;> by_cases hh : (e.hash w k0 ht.seed).1 = h <;>
        simp [hc, hh] <;> omega
    simp only [hoa] at key
    have hseed : (ht.countProbe cnt).seed = ht.seed := hs1.1
    rw [hseed]
    change (if idx + 1 > ht2.size - 1 then _ else _) = _
    rw [hs2.2.1]
    by_cases hw : idx.toNat + 1 = n
    · rw [if_pos (hgt.2 hw)]
      have hp0 : pass = 0 := by
        rcases Nat.lt_or_ge pass 1 with h | h
        · omega
        · have : pass = 1 := by omega
          subst this; simp at hb; omega
      subst hp0
      simp only [Nat.zero_add, Nat.lt_irrefl, gt_iff_lt, if_false]
      refine key 0 1 ?_ (by simp; omega) (by omega) ?_
      · rw [hw]; simp
      · simp at hb ⊢; omega
    · rw [if_neg (fun h => hw (hgt.1 h))]
      exact key (idx + 1) pass (by rw [hsucc]) (by omega) hp (by rw [hsucc]; omega)

theorem loop_full (e : Env ω κ) (k : κ) (h : U64) (hk : e.traceOK k = true)
    (m : Nat) : ∀ (fuel : Nat) (w : ω) (ht : HT κ) (idx : U64) (cnt pass n : Nat),
    WF ht → ht.oa = true → ht.size.toNat = n → idx.toNat < n → m + 1 ≤ fuel → pass ≤ 1 →
    n * (2 - pass) - idx.toNat ≤ m →
    (∀ b ∈ ht.buckets, b ≠ []) →
    insertLoop e k h fuel w ht idx cnt pass = .error (.explicit "Add: pass") := by
  induction m with
  | zero =>
    intro fuel w ht idx cnt pass n wf hoa hn hi hf hp hb hne
    rcases Nat.lt_or_ge pass 1 with h | h
    · have : pass = 0 := by omega
      subst this; omega
    · have : pass = 1 := by omega
      subst this; omega
  | succ r ih =>
    intro fuel w ht idx cnt pass n wf hoa hn hi hf hp hb hne
    obtain ⟨fuel, rfl⟩ : ∃ f, fuel = f + 1 := ⟨fuel - 1, by omega⟩
    have hlt : idx.toNat < ht.buckets.length := by rw [wf.len, hn]; exact hi
    obtain ⟨k0, bt, hb0⟩ : ∃ k0 bt, ht.buckets[idx.toNat] = k0 :: bt := by
      cases hbb : ht.buckets[idx.toNat] with
      | nil => exact absurd hbb (hne _ (List.getElem_mem hlt))
      | cons a b => exact ⟨a, b, rfl⟩
    rw [insertLoop]
    simp only [Go.idx_eq hlt, hb0, List.isEmpty_cons, Bool.false_eq_true, if_false, hoa, if_true,
      traceChk, hk, Go.idx_eq (s := k0 :: bt) (i := 0) (by simp), List.getElem_cons_zero,
      bind, Except.bind]
    obtain ⟨hgt, hsucc⟩ := next_idx hn hi
    let ht1 : HT κ := ht.countProbe cnt
    have hs1 : ht1.seed = ht.seed ∧ ht1.size = ht.size ∧ ht1.buckets = ht.buckets ∧
        ht1.oa = true ∧ WF ht1 := by
      simp only [ht1, HT.countProbe]
      split <;> exact ⟨rfl, rfl, rfl, hoa, ⟨wf.len, wf.mask, wf.pos⟩⟩
    let ht2 : HT κ := ht1.countDup (e.hash w k0 ht.seed).1 h
    have hs2 : ht2.size = ht.size ∧ ht2.buckets = ht.buckets ∧
        ht2.oa = true ∧ WF ht2 := by
      obtain ⟨a, b, c, d, f⟩ := hs1
      simp only [ht2, HT.countDup]
      split
      · exact ⟨b, c, d, ⟨f.len, f.mask, f.pos⟩⟩
      · exact ⟨b, c, d, f⟩
    have hseed : (ht.countProbe cnt).seed = ht.seed := hs1.1
    rw [hseed]
    change (if idx + 1 > ht2.size - 1 then _ else _) = _
    rw [hs2.1]
    by_cases hw : idx.toNat + 1 = n
    · rw [if_pos (hgt.2 hw)]
      by_cases hp0 : pass = 0
      · subst hp0
        simp only [Nat.zero_add, Nat.lt_irrefl, gt_iff_lt, if_false]
        exact ih fuel _ ht2 0 _ 1 n hs2.2.2.2 hs2.2.2.1 (by rw [hs2.1, hn]) (by simp; omega)
          (by omega) (by omega) (by simp at hb ⊢; omega) (by rw [hs2.2.1]; exact hne)
      · have : pass + 1 > 1 := by omega
        simp only [this, if_true, Go.panic]
    · rw [if_neg (fun h => hw (hgt.1 h))]
      exact ih fuel _ ht2 (idx + 1) _ pass n hs2.2.2.2 hs2.2.2.1 (by rw [hs2.1, hn])
        (by omega) (by omega) hp (by rw [hsucc]; omega) (by rw [hs2.2.1]; exact hne)

end Verif.HashTable
