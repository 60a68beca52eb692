import Verif.Props.StatBounds
import Verif.Props.Counter

/-!
# C144 for the test program: the statistics it reports, under any name and in any run
-/

namespace Verif.Props.StatRuns
open Verif Verif.HashTable Verif.Spec.HashTable Verif.Props.StatBounds
open Verif.Props.Counter (bind_eq good_main)
open Verif.Model.HtMain (Flag Flags Sys St Fn Result runFn insertKeys insertL env insert1)

variable {ω κ : Type}

/-- The hash of `e` where it does not panic, and no check of the key. -/
def quiet (e : EnvF ω κ) : Env ω κ := { hash := e.total.hash, traceOK := fun _ => true }

theorem trace_quiet {e : EnvF ω κ} {k : κ} {u : Unit} (_ : traceChkF e k = .ok u) : traceChk (quiet e) k = .ok () := rfl

theorem scan_quiet (e : EnvF ω κ) (seed h : U64) (ks : List κ) : ∀ (w : ω) (n : Nat) (r : Nat × ω), scanDupsF e seed h ks w n = .ok r → scanDups (quiet e) seed h ks w n = r := by
  induction ks with
  | nil => intro w n r h; cases h; rfl
  | cons k ks ih =>
    intro w n r hr
    rw [scanDupsF] at hr
    obtain ⟨⟨bh, w1⟩, h1, hr⟩ := bind_eq hr
    rw [scanDups, show (quiet e).hash w k seed = _ from EnvF.total_hash h1]
    exact ih _ _ _ hr

theorem loop_quiet (e : EnvF ω κ) (k : κ) (h : U64) (fuel : Nat) : ∀ (w : ω) (ht : HT κ) (idx : U64) (cnt pass : Nat) (r : ω × HT κ),
    insertLoopF e k h fuel w ht idx cnt pass = .ok r → insertLoop (quiet e) k h fuel w ht idx cnt pass = .ok r := by
  induction fuel with
  | zero => intro w ht idx cnt pass r hr; exact nomatch hr
  | succ fuel ih =>
    intro w ht idx cnt pass r hr
    rw [insertLoopF] at hr
    obtain ⟨b, hb, hr⟩ := bind_eq hr
    rw [insertLoop, hb, Go.bind_ok]
    by_cases hem : b.isEmpty = true
    · rw [if_pos hem] at hr ⊢
      obtain ⟨bs, hbs, hr⟩ := bind_eq hr
      obtain ⟨_, _, hr⟩ := bind_eq hr
      rw [hbs]
      exact hr
    · rw [if_neg hem] at hr ⊢
      by_cases hoa : ht.oa = true
      · rw [if_pos hoa] at hr ⊢
        obtain ⟨_, _, hr⟩ := bind_eq hr
        obtain ⟨k0, hk0, hr⟩ := bind_eq hr
        obtain ⟨⟨bh, w1⟩, h1, hr⟩ := bind_eq hr
        dsimp only at hr
        rw [show traceChk (quiet e) k = .ok () from rfl, Go.bind_ok, hk0, Go.bind_ok]
        have hq : (quiet e).hash w k0 (ht.countProbe cnt).seed = (bh, w1) := EnvF.total_hash h1
        simp only [hq]
        split at hr
        · rename_i hgt
          rw [if_pos hgt]
          split at hr
          · exact nomatch hr
          · rename_i hp
            rw [if_neg hp]
            exact ih _ _ _ _ _ _ hr
        · rename_i hgt
          rw [if_neg hgt]
          exact ih _ _ _ _ _ _ hr
      · rw [if_neg hoa] at hr ⊢
        obtain ⟨⟨d, w1⟩, h1, hr⟩ := bind_eq hr
        rw [scan_quiet e _ _ _ _ _ _ h1]
        dsimp only at hr ⊢
        obtain ⟨bs, hbs, hr⟩ := bind_eq hr
        obtain ⟨_, _, hr⟩ := bind_eq hr
        rw [hbs]
        exact hr

theorem insert_quiet {e : EnvF ω κ} {w : ω} {ht : HT κ} {k : κ} {r : ω × HT κ} (hr : insertF e w ht k = .ok r) : HashTable.insert (quiet e) w ht k = .ok r := by
  unfold insertF at hr
  obtain ⟨⟨h, w1⟩, h1, hr⟩ := bind_eq hr
  have hq : (quiet e).hash w k ht.seed = (h, w1) := EnvF.total_hash h1
  unfold HashTable.insert
  simp only [hq]
  dsimp only at hr
  by_cases hp : ht.prime = true
  · rw [if_pos hp] at hr ⊢
    by_cases h0 : ht.size = 0
    · rw [if_pos h0] at hr; exact nomatch hr
    · rw [if_neg h0] at hr ⊢
      exact loop_quiet e k _ _ _ _ _ _ _ _ hr
  · rw [if_neg hp] at hr ⊢
    exact loop_quiet e k _ _ _ _ _ _ _ _ hr

/-- All statistics 0. -/
def Fresh (ht : HT κ) : Prop :=
  ht.inserts = 0 ∧ ht.cols = 0 ∧ ht.probes = 0 ∧ ht.heads = 0 ∧ ht.dups = 0 ∧ ht.nbuckets = 0 ∧ ht.longestChain = 0

/-- What is kept by successful inserts. -/
def Kept (ht : HT κ) : Prop :=
  (ht.buckets = [] ∧ Fresh ht) ∨ ∃ done, (ChainStats done ht ∧ Bnd ht) ∨ OABnd done ht

theorem insert_nil {e : Env ω κ} {w : ω} {ht : HT κ} {k : κ} {r : ω × HT κ} (hb : ht.buckets = []) : HashTable.insert e w ht k ≠ .ok r := by
  have hl : ∀ (x : U64) (fuel : Nat) (w : ω) (ht' : HT κ) (idx : U64) (cnt pass : Nat), ht'.buckets = [] → insertLoop e k x fuel w ht' idx cnt pass ≠ .ok r := by
    intro x fuel w ht' idx cnt pass hb h
    cases fuel with
    | zero => exact nomatch h
    | succ fuel =>
      rw [insertLoop] at h
      obtain ⟨b, h2, _⟩ := bind_eq h
      rw [hb] at h2
      unfold Go.idx at h2
      rw [List.getElem?_nil] at h2
      exact nomatch h2
  intro h
  unfold HashTable.insert at h
  dsimp only at h
  by_cases hp : ht.prime = true
  · rw [if_pos hp] at h
    by_cases h0 : ht.size = 0
    · rw [if_pos h0] at h; exact nomatch h
    · rw [if_neg h0] at h
      exact hl _ _ _ _ _ _ _ (by exact hb) h
  · rw [if_neg hp] at h
    exact hl _ _ _ _ _ _ _ (by exact hb) h

theorem room_of {e : EnvF ω κ} {w : ω} {r : ω × HT κ} {ht : HT κ} {k : κ} {done : List κ} (h1 : OABnd done ht) (hq : HashTable.insert (quiet e) w ht k = .ok r) : done.length < ht.size.toNat := by
  rcases insert_cases (e := quiet e) (w := w) (k := k) h1.wf rfl with ⟨_, _, h3⟩ | ⟨hf, _⟩
  · rw [h3] at hq; exact nomatch hq
  · rcases hf with hf | ⟨b, hb, hbe⟩
    · rw [h1.oa] at hf; exact nomatch hf
    · rw [← h1.occ, ← h1.wf.len]
      refine lt_of_le_of_ne List.countP_le_length fun hc => ?_
      have := List.countP_eq_length.1 hc b hb
      rw [hbe] at this
      exact nomatch this

theorem kept_step {e : EnvF ω κ} {w w' : ω} {ht ht' : HT κ} {k : κ} (h : Kept ht) (hr : insertF e w ht k = .ok (w', ht')) : Kept ht' ∧ ht'.oa = ht.oa ∧ ht'.size = ht.size := by
  have hq := insert_quiet hr
  rcases h with ⟨hb, _⟩ | ⟨done, ⟨h1, h2⟩ | h1⟩
  · exact absurd hq (insert_nil hb)
  · rw [insert_chain h1.wf h1.oa rfl] at hq
    have he : (chainNext (quiet e) w ht k).2 = ht' := congrArg Prod.snd (Except.ok.inj hq)
    subst he
    have hc := chainNext_const (e := quiet e) (w := w) (ht := ht) (k := k)
    exact ⟨.inr ⟨done ++ [k], .inl ⟨chainStats_step h1, bnd_step h1.wf h2⟩⟩, hc.1, hc.2.2.1⟩
  · have hroom := room_of h1 hq
    obtain ⟨w1, ht1, h3, h4, h5⟩ := oaBnd_step (e := quiet e) (w := w) (k := k) h1 rfl hroom
    rw [h3] at hq
    cases hq
    exact ⟨.inr ⟨_, .inr h4⟩, h4.oa.trans h1.oa.symm, h5⟩

theorem insert_count {e : EnvF ω κ} {w w' : ω} {ht ht' : HT κ} {k : κ} (h : Kept ht) (hr : insertF e w ht k = .ok (w', ht')) : ht'.inserts = ht.inserts + 1 := by
  have hq := insert_quiet hr
  rcases h with ⟨hb, _⟩ | ⟨done, ⟨h1, h2⟩ | h1⟩
  · exact absurd hq (insert_nil hb)
  · rw [insert_chain h1.wf h1.oa rfl] at hq
    have he : (chainNext (quiet e) w ht k).2 = ht' := congrArg Prod.snd (Except.ok.inj hq)
    subst he
    rw [(chainStats_step (e := quiet e) (w := w) (k := k) h1).inserts, h1.inserts, List.length_append]
    rfl
  · have hroom := room_of h1 hq
    obtain ⟨w1, ht1, h3, h4, h5⟩ := oaBnd_step (e := quiet e) (w := w) (k := k) h1 rfl hroom
    rw [h3] at hq
    cases hq
    rw [h4.inserts, h1.inserts, List.length_append]
    rfl

theorem kept_new {np : Int → Int} {size seed extra : Int} {pd oa prime : Bool} {ht : HT κ} (h : newHashTable np size seed extra pd oa prime = .ok ht) : Kept ht ∧ ht.oa = oa := by
  obtain ⟨h1, h2, h3, h4, h5, h6, h7, h8, h9, h10, h11, _, _⟩ := newHashTable_ok h
  refine ⟨?_, h3⟩
  by_cases hpos : 0 < ht.buckets.length
  · have wf := newHashTable_wf h hpos
    refine .inr ⟨[], ?_⟩
    cases oa with
    | false =>
      refine .inl ⟨⟨wf, h3, by simp [h5], by simp [h7], h6, ?_, by simp [h8, h10], ?_⟩, ⟨by rw [h1, h5]; simp, by rw [h9, h1, sharePairs_replicate]⟩⟩
      · rw [h8, h1, occupied_replicate]
      · rw [h11, h1, longest_replicate]; rfl
    | true =>
      exact .inr ⟨wf, h3, h5, h8, by rw [h1, occupied_replicate]; rfl, by simp, by simp [h7], by simp [h9], by simp [h7, h6], fun _ => h6, h10, h11⟩
  · exact .inl ⟨List.eq_nil_of_length_eq_zero (by omega), h5, h6, h7, h8, h9, h10, h11⟩

/-- The inequalities of C144 between the statistics of a table, with chaining. -/
def ChainReport (ht : HT κ) : Prop :=
  ht.heads ≤ ht.size.toNat ∧ ht.heads + ht.nbuckets = ht.inserts ∧ ht.probes = ht.inserts ∧ ht.cols = 0 ∧
  ht.inserts ≤ ht.heads * max 1 ht.longestChain ∧ ht.longestChain ≠ 1 ∧ (ht.longestChain = 0 ↔ ht.nbuckets = 0) ∧
  ht.longestChain ≤ ht.nbuckets + 1 ∧ 2 * ht.dups ≤ ht.nbuckets * ht.longestChain

/-- The same with open addressing. -/
def OpenReport (ht : HT κ) : Prop :=
  ht.inserts ≤ ht.size.toNat ∧ ht.heads = ht.inserts ∧ ht.nbuckets = 0 ∧ ht.longestChain = 0 ∧
  ht.inserts ≤ ht.probes ∧ ht.probes ≤ 2 * ht.inserts - 1 ∧ ht.dups ≤ (ht.probes - ht.inserts) + ht.cols ∧
  2 * ((ht.probes - ht.inserts) + ht.cols) ≤ ht.inserts * (ht.inserts - 1) ∧ (ht.probes = ht.inserts → ht.cols = 0 ∧ ht.dups = 0)

/-- What the duplicates and the longest chain say about `HashQuality` (over exact rationals), with chaining. -/
def QualityReport (ht : HT κ) : Prop :=
  2 * (ht.size.toNat : Rat) * (ht.inserts + ht.dups) / (ht.inserts * (ht.inserts + 2 * ht.size.toNat - 1)) ≤ hashQuality ht ∧
  hashQuality ht ≤ (ht.size.toNat : Rat) * (max 1 ht.longestChain + 1 : Nat) / (ht.inserts + 2 * ht.size.toNat - 1)

theorem sum_pairs (bs : List (List κ)) (L : Nat) (hL : longest bs ≤ L) :
    (bs.map fun b => b.length * (b.length + 1)).sum = sharePairs bs + 2 * bs.flatten.length ∧
    (bs.map fun b => b.length * (b.length + 1)).sum ≤ bs.flatten.length * (L + 1) := by
  induction bs with
  | nil => simp [sharePairs]
  | cons c cs ih =>
    simp only [longest, List.foldr_cons] at hL
    obtain ⟨h1, h2⟩ := ih (by simp only [longest]; omega)
    have hc : c.length ≤ L := by omega
    simp only [sharePairs, List.map_cons, List.sum_cons, List.flatten_cons, List.length_append] at h1 ⊢
    have e1 : c.length * (c.length + 1) = c.length * (c.length - 1) + 2 * c.length := by
      cases c.length with
      | zero => rfl
      | succ n => rw [Nat.add_sub_cancel]; ring
    constructor
    · omega
    · rw [Nat.add_mul]
      exact Nat.add_le_add (Nat.mul_le_mul_left _ (by omega)) h2

theorem quality_report {ht : HT κ} (h : Kept ht) (hoa : ht.oa = false) (hn : ht.inserts ≠ 0) : QualityReport ht := by
  rcases h with ⟨_, h1, _⟩ | ⟨done, ⟨hs, hb⟩ | hs⟩
  · exact absurd h1 hn
  · have hd := hb.dups
    have htot := hb.total
    have hl := hs.long
    have hm : longest ht.buckets ≤ max 1 ht.longestChain := by rw [hl]; split <;> omega
    obtain ⟨c1, c2⟩ := sum_pairs ht.buckets _ hm
    rw [htot] at c1 c2
    have hq : hashQuality ht = ((ht.buckets.map fun b => b.length * (b.length + 1)).sum : Nat) * (ht.size.toNat : Rat) /
        (ht.inserts * (ht.inserts + 2 * ht.size.toNat - 1)) := by
      rw [hashQuality, if_neg hn]
      simp only [quality_fold]
      rw [zero_add]
    generalize (ht.buckets.map fun b => b.length * (b.length + 1)).sum = S at c1 c2 hq
    have hi : (1 : Rat) ≤ ht.inserts := by exact_mod_cast Nat.one_le_iff_ne_zero.2 hn
    have hz : (1 : Rat) ≤ ht.size.toNat := by exact_mod_cast hs.wf.pos
    have hS1 : (2 * (ht.inserts + ht.dups) : Rat) ≤ S := by
      have : 2 * (ht.inserts + ht.dups) ≤ S := by omega
      exact_mod_cast this
    have hS2 : (S : Rat) ≤ ht.inserts * (max 1 ht.longestChain + 1 : Nat) := by exact_mod_cast c2
    unfold QualityReport
    rw [hq]
    generalize (ht.inserts : Rat) = n at *
    generalize (ht.size.toNat : Rat) = m at *
    generalize (ht.dups : Rat) = d at *
    generalize (S : Rat) = s at *
    generalize ((max 1 ht.longestChain + 1 : Nat) : Rat) = l at *
    have hpos : 0 < n + 2 * m - 1 := by linarith
    have hpos2 : 0 < n * (n + 2 * m - 1) := mul_pos (by linarith) hpos
    constructor
    · refine div_le_div_of_nonneg_right ?_ hpos2.le
      have := mul_le_mul_of_nonneg_right hS1 (show (0 : Rat) ≤ m by linarith)
      linarith
    · rw [div_le_div_iff₀ hpos2 hpos]
      have : s * m ≤ n * l * m := mul_le_mul_of_nonneg_right hS2 (by linarith)
      calc s * m * (n + 2 * m - 1) ≤ n * l * m * (n + 2 * m - 1) := mul_le_mul_of_nonneg_right this hpos.le
        _ = m * l * (n * (n + 2 * m - 1)) := by ring
  · rw [hs.oa] at hoa; exact nomatch hoa

/-- C144. `HashQuality` of a chaining table, for any hash, even one with state, and any keys: at least what `Dups` alone makes of
it, at most what the longest chain allows. -/
theorem C144_quality (e : EnvF ω κ) (np : Int → Int) (size seed extra : Int) (pd prime : Bool) (ht0 ht : HT κ) (w0 w : ω) (ks : List κ)
    (hnew : newHashTable np size seed extra pd false prime = .ok ht0) (hks : ks ≠ []) (hrun : insertAllF e w0 ht0 ks = .ok (w, ht)) :
    ht.inserts = ks.length ∧ ht.size = ht0.size ∧ QualityReport ht := by
  have main : ∀ (ks : List κ) (w0 : ω) (ht0 : HT κ), Kept ht0 → insertAllF e w0 ht0 ks = .ok (w, ht) →
      Kept ht ∧ ht.oa = ht0.oa ∧ ht.size = ht0.size ∧ ht.inserts = ht0.inserts + ks.length := by
    intro ks
    induction ks with
    | nil => intro w0 ht0 h hr; cases hr; exact ⟨h, rfl, rfl, rfl⟩
    | cons k ks ih =>
      intro w0 ht0 h hr
      rw [insertAllF] at hr
      obtain ⟨⟨w1, ht1⟩, h1, hr⟩ := bind_eq hr
      obtain ⟨a, b, c⟩ := kept_step h h1
      obtain ⟨a', b', c', d'⟩ := ih _ _ a hr
      have hi : ht1.inserts = ht0.inserts + 1 := insert_count h h1
      exact ⟨a', b'.trans b, c'.trans c, by rw [d', hi, List.length_cons]; omega⟩
  obtain ⟨a, b⟩ := kept_new hnew
  obtain ⟨a', b', c', d'⟩ := main ks w0 ht0 a hrun
  rw [(newHashTable_ok hnew).2.2.2.2.1, Nat.zero_add] at d'
  exact ⟨d', c', quality_report a' (b'.trans b) (by rw [d']; exact fun h => hks (List.length_eq_zero_iff.1 h))⟩

/-- Five equal keys in seven buckets: `Dups` is 10, the longest chain 5, and both bounds are 7/3. -/
example : ∃ ht0 ht : HT (List U8), newHashTable id 7 0 0 false false true = .ok ht0 ∧
    insertAllF ⟨fun _ _ _ => .ok (3, ()), fun _ => true⟩ () ht0 (List.replicate 5 [1]) = .ok ((), ht) ∧ ht.dups = 10 ∧ ht.longestChain = 5 ∧ QualityReport ht :=
  ⟨_, _, rfl, rfl, by decide, by decide, (C144_quality ⟨fun _ _ _ => .ok (3, ()), fun _ => true⟩ id 7 0 0 false true _ _ () () (List.replicate 5 [(1 : U8)]) rfl (by decide) rfl).2.2⟩

theorem report {ht : HT κ} (h : Kept ht) : (ht.oa = false → ChainReport ht) ∧ (ht.oa = true → OpenReport ht) := by
  rcases h with ⟨_, h1, h2, h3, h4, h5, h6, h7⟩ | ⟨done, ⟨hs, hb⟩ | hs⟩
  · constructor
    · intro _
      unfold ChainReport
      rw [h1, h2, h3, h4, h5, h6, h7]
      simp
    · intro _
      unfold OpenReport
      rw [h1, h2, h3, h4, h5, h6, h7]
      simp
  · refine ⟨fun _ => ?_, fun h => by rw [hs.oa] at h; exact nomatch h⟩
    have hn := hs.nb
    have hh := hs.heads
    have hl := hs.long
    have hi := hs.inserts
    have hp := hs.probes
    have htot := hb.total
    have hd := hb.dups
    have hocc : occupied ht.buckets ≤ ht.size.toNat := by
      rw [← hs.wf.len]; exact List.countP_le_length
    obtain ⟨c1, c2, c3⟩ := chains_bound ht.buckets _ le_rfl
    have c4 := longest_le_all ht.buckets
    rw [htot] at c1 c2 c3 c4
    have e1 : ht.inserts - occupied ht.buckets = ht.nbuckets := by omega
    rw [e1] at c3 c4
    have hm : longest ht.buckets ≤ max 1 ht.longestChain := by rw [hl]; split <;> omega
    refine ⟨by omega, by omega, by omega, hs.cols, ?_, ?_, ?_, ?_, ?_⟩
    · rw [hh]; exact c1.trans (Nat.mul_le_mul_left _ hm)
    · rw [hl]; split <;> omega
    · rw [hl]
      constructor
      · intro h
        have hle : longest ht.buckets ≤ 1 := by
          by_contra hc
          rw [if_neg hc] at h
          omega
        have := c1.trans (Nat.mul_le_mul_left _ hle)
        omega
      · intro h
        rw [if_pos (by omega)]
    · rw [hl]; split <;> omega
    · rw [hl]
      split
      · rename_i hle
        have := c1.trans (Nat.mul_le_mul_left _ hle)
        have hz : ht.nbuckets = 0 := by omega
        rw [hz, Nat.zero_mul] at c3
        omega
      · omega
  · refine ⟨fun h => absurd (hs.oa.symm.trans h) (by decide), fun _ => ?_⟩
    obtain ⟨wf, _, p3, p4, p5, p6, p7, p8, p9, p10, p11⟩ := hs
    have hocc : occupied ht.buckets ≤ ht.size.toNat := by
      rw [← wf.len]; exact List.countP_le_length
    rw [← p3] at p4 p5 p6 p7 p8 p9 p10
    refine ⟨by omega, p4, p11.1, p11.2, p6, p7, by omega, ?_, ?_⟩
    · cases hn : ht.inserts with
      | zero => rw [hn] at p9; omega
      | succ n =>
        rw [hn] at p9
        rw [Nat.add_sub_cancel]
        have : (n + 1) * (n + 1 + 1) = (n + 1) * n + 2 * (n + 1) := by ring
        omega
    · intro hp
      have := p10 hp
      exact ⟨this, by omega⟩

section program
variable {sys : Sys ω} {fl : Flags} {name : String}

theorem keys_kept (ks : List (List U8)) : ∀ (w w' : ω) (ht ht' : HT (List U8)), insertKeys sys fl name w ht ks = .ok (w', ht') → Kept ht ∧ ht.oa = fl.oa → Kept ht' ∧ ht'.oa = fl.oa := by
  induction ks with
  | nil => intro w w' ht ht' h hk; cases h; exact hk
  | cons k ks ih =>
    intro w w' ht ht' h hk
    rw [insertKeys] at h
    obtain ⟨⟨w1, ht1⟩, h1, h⟩ := bind_eq h
    obtain ⟨h2, h3, _⟩ := kept_step (e := env sys fl name) hk.1 h1
    exact ih _ _ _ _ h ⟨h2, h3.trans hk.2⟩

theorem keysL_kept (ks : List (List U8)) : ∀ (w w' : ω) (ht ht' : HT (List U8)) (hs hs' : List U64), insertL sys fl name w ht hs ks = .ok (w', ht', hs') →
    Kept ht ∧ ht.oa = fl.oa → Kept ht' ∧ ht'.oa = fl.oa := by
  induction ks with
  | nil => intro w w' ht ht' hs hs' h hk; cases h; exact hk
  | cons k ks ih =>
    intro w w' ht ht' hs hs' h hk
    rw [insertL] at h
    obtain ⟨⟨x, w0⟩, _, h⟩ := bind_eq h
    obtain ⟨⟨w1, ht1⟩, h1, h⟩ := bind_eq h
    obtain ⟨h2, h3, _⟩ := kept_step (e := env sys fl name) hk.1 h1
    exact ih _ _ _ _ _ _ h ⟨h2, h3.trans hk.2⟩

theorem run_kept (seed : Int) (file : String) (lines : Int) (st st' : St ω) (f : Fn) (r : Result)
    (h : runFn sys fl name seed file lines st f = .ok (r, st')) : Kept r.ht ∧ r.ht.oa = fl.oa := by
  have hnew : ∀ {size : Int} {ht : HT (List U8)}, Model.HtMain.newTable sys fl seed size = .ok ht → Kept ht ∧ ht.oa = fl.oa := fun h => kept_new h
  cases f with
  | file t =>
    obtain ⟨ht, h1, h⟩ := bind_eq h
    obtain ⟨⟨w, ht2⟩, h2, h⟩ := bind_eq h
    obtain ⟨_, _, h⟩ := bind_eq h
    cases h
    exact keys_kept _ _ _ _ _ h2 (hnew h1)
  | H =>
    rw [runFn] at h
    generalize Model.Ht.genWords _ = g at h
    obtain ⟨_, _, h⟩ := bind_eq h
    obtain ⟨ht, h1, h⟩ := bind_eq h
    obtain ⟨⟨w, ht2⟩, h2, h⟩ := bind_eq h
    cases h
    exact keys_kept _ _ _ _ _ h2 (hnew h1)
  | I =>
    obtain ⟨ht, h1, h⟩ := bind_eq h
    obtain ⟨⟨_, keys⟩, _, h⟩ := bind_eq h
    obtain ⟨⟨w, ht2⟩, h2, h⟩ := bind_eq h
    cases h
    exact keys_kept _ _ _ _ _ h2 (hnew h1)
  | J =>
    obtain ⟨ht, h1, h⟩ := bind_eq h
    obtain ⟨⟨_, keys⟩, _, h⟩ := bind_eq h
    obtain ⟨⟨w, ht2⟩, h2, h⟩ := bind_eq h
    cases h
    exact keys_kept _ _ _ _ _ h2 (hnew h1)
  | K =>
    obtain ⟨ht, h1, h⟩ := bind_eq h
    obtain ⟨⟨w, d, ps⟩, h2, h⟩ := bind_eq h
    cases h
    exact hnew h1
  | L =>
    rw [runFn] at h
    generalize Model.Ht.testL = tl at h
    obtain ⟨ht, h1, h⟩ := bind_eq h
    obtain ⟨⟨b0, keys⟩, htl, h⟩ := bind_eq h
    obtain ⟨⟨w, ht2, hs⟩, h2, h⟩ := bind_eq h
    cases h
    exact keysL_kept _ _ _ _ _ _ _ h2 (hnew h1)
  | M =>
    rw [runFn] at h
    dsimp only at h
    generalize (if fl.dru = true then -st.n else st.n) = n at h
    by_cases hb : n < 0 ∨ 2 ^ 48 < 8 * n
    · rw [if_pos hb] at h; exact nomatch h
    · rw [if_neg hb] at h
      obtain ⟨ht, h1, h⟩ := bind_eq h
      obtain ⟨⟨w, q1, hist⟩, h2, h⟩ := bind_eq h
      dsimp only at h
      by_cases h0 : n = 0
      · rw [if_pos h0] at h; exact nomatch h
      · rw [if_neg h0] at h
        cases h
        exact hnew h1

/-- C144. In every complete run of the test program, with any command line, files, seeds and any hash functions, even stateful ones,
every test reports a table whose statistics meet the inequalities for the collision strategy chosen with `-oa`; with chaining those
between `Dups`, the longest chain and `HashQuality` too, if there was an insert. -/
theorem C144_main (w : ω) (st : St ω) (hout : (Model.HtMain.main sys fl w).out = .ok st) (lbl : String) (f : Flag) (name file : String) (r : Result)
    (hm : .run lbl f name file r ∈ (Model.HtMain.main sys fl w).events) :
    (fl.oa = false → ChainReport r.ht ∧ (r.ht.inserts ≠ 0 → QualityReport r.ht)) ∧ (fl.oa = true → OpenReport r.ht) := by
  obtain ⟨_, h2⟩ := good_main (R := fun _ _ : ω => True) (sys := sys) (fl := fl) (fun _ => trivial) (fun _ _ _ _ _ => trivial) (fun _ _ _ _ _ _ _ => trivial) w st hout
  obtain ⟨seed, lines, st1, st2, fn, _, h4, _⟩ := h2 _ _ _ _ _ hm
  obtain ⟨h5, h6⟩ := run_kept seed file lines st1 st2 fn r h4
  rw [← h6]
  exact ⟨fun h => ⟨(report h5).1 h, quality_report h5 h⟩, (report h5).2⟩

end program

/-- The command line `-hf=nullhash -I -ni=5 -n=3` (and without `-h32`): five integers in a table for three. -/
def five : Flags := { Counter.fiveIntegers with on := fun f => f = .I }

/-- The program completes it: with chaining, five inserts. -/
example : ∃ st r, (Model.HtMain.main (Spec.HtMain.hashfSys exampleExt id (fun _ => none) (fun _ => 0#64) none) five []).out = .ok st ∧ five.oa = false ∧
    .run "TestI" .I "nullhash" "" r ∈ (Model.HtMain.main (Spec.HtMain.hashfSys exampleExt id (fun _ => none) (fun _ => 0#64) none) five []).events ∧ r.ht.inserts = 5 ∧ ChainReport r.ht ∧ QualityReport r.ht := by
  obtain ⟨r, h, hr⟩ : ∃ r, (Model.HtMain.Event.run "TestI" .I "nullhash" "" r) ∈ (Model.HtMain.main (Spec.HtMain.hashfSys exampleExt id (fun _ => none) (fun _ => 0#64) none) five []).events ∧ r.ht.inserts = 5 :=
    ⟨_, (by unfold Model.HtMain.main; exact List.mem_singleton.2 rfl), by decide +kernel⟩
  have h2 := (C144_main _ _ rfl _ _ _ _ _ h).1 rfl
  exact ⟨_, r, rfl, rfl, h, hr, h2.1, h2.2 (by rw [hr]; decide)⟩

end Verif.Props.StatRuns
