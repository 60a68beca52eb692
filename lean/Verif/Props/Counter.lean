import Verif.Props.NoDups

/-!
# C143: the test program under the call counters
-/

namespace Verif.Props.Counter
open Verif Verif.Spec.HtMain Verif.Spec.Ht Verif.Spec.HashTable
open Verif.HashTable (HT EnvF scanDupsF insertLoopF insertF insertAllF newHashTable traceChkF)
open Verif.Model.HtMain (Flag Flags Sys St Fn Result runFn insertKeys insertL modLoop env insert1)
open Verif.Spec.Hashf (Ok resultAfter outcome)

theorem bind_eq {α β : Type} {x : Go α} {f : α → Go β} {b : β} (h : x.bind f = .ok b) : ∃ a, x = .ok a ∧ f a = .ok b := by
  cases x with
  | error e => exact nomatch h
  | ok a => exact ⟨a, rfl, h⟩

section table
variable {ω κ : Type}

/-- A hash function that ignores its arguments and returns the number of calls made to it. -/
def Counts (hash : ω → κ → U64 → Go (U64 × ω)) (cnt : ω → Nat) : Prop :=
  ∀ w k s, ∃ w', hash w k s = .ok (BitVec.ofNat 64 (cnt w + 1), w') ∧ cnt w' = cnt w + 1

theorem differ {a b : Nat} (h : a < b) (hb : b < 2 ^ 64) : BitVec.ofNat 64 b ≠ BitVec.ofNat 64 a := by
  intro e
  have := congrArg BitVec.toNat e
  simp only [BitVec.toNat_ofNat] at this
  rw [Nat.mod_eq_of_lt hb, Nat.mod_eq_of_lt (by omega)] at this
  omega

variable {e : EnvF ω κ} {cnt : ω → Nat}

theorem scan (hc : Counts e.hash cnt) (seed : U64) (c : Nat) (b : List κ) : ∀ (w : ω) (n d : Nat) (w' : ω), c ≤ cnt w →
    scanDupsF e seed (BitVec.ofNat 64 c) b w n = .ok (d, w') → cnt w ≤ cnt w' ∧ (cnt w' < 2 ^ 64 → d = n) := by
  induction b with
  | nil =>
    intro w n d w' _ h
    cases h
    exact ⟨le_rfl, fun _ => rfl⟩
  | cons k b ih =>
    intro w n d w' hcw h
    obtain ⟨w1, h1, h2⟩ := hc w k seed
    rw [scanDupsF, h1] at h
    have := ih w1 _ d w' (by omega) h
    refine ⟨by omega, fun hl => ?_⟩
    rw [this.2 hl, if_neg (differ (by omega) (by omega))]

theorem loop (hc : Counts e.hash cnt) (k : κ) (c : Nat) (fuel : Nat) : ∀ (w : ω) (ht : HT κ) (idx : U64) (n pass : Nat) (w' : ω) (ht' : HT κ), c ≤ cnt w →
    insertLoopF e k (BitVec.ofNat 64 c) fuel w ht idx n pass = .ok (w', ht') → cnt w ≤ cnt w' ∧ (cnt w' < 2 ^ 64 → ht'.dups = ht.dups) := by
  induction fuel with
  | zero => intro w ht idx n pass w' ht' _ h; exact nomatch h
  | succ fuel ih =>
    intro w ht idx n pass w' ht' hcw h
    rw [insertLoopF] at h
    obtain ⟨b, _, h⟩ := bind_eq h
    split at h
    · obtain ⟨bs, _, h⟩ := bind_eq h
      obtain ⟨_, _, h⟩ := bind_eq h
      cases h
      exact ⟨le_rfl, fun _ => rfl⟩
    · split at h
      · obtain ⟨_, _, h⟩ := bind_eq h
        obtain ⟨k0, _, h⟩ := bind_eq h
        obtain ⟨w1, h1, h2⟩ := hc w k0 (ht.countProbe n).seed
        rw [h1] at h
        have hd : ∀ (w' : ω) (ht' : HT κ), (cnt w1 ≤ cnt w' ∧ (cnt w' < 2 ^ 64 → ht'.dups = ((ht.countProbe n).countDup (BitVec.ofNat 64 (cnt w + 1)) (BitVec.ofNat 64 c)).dups)) →
            cnt w ≤ cnt w' ∧ (cnt w' < 2 ^ 64 → ht'.dups = ht.dups) := by
          intro w' ht' ⟨h3, h4⟩
          refine ⟨by omega, fun hl => ?_⟩
          rw [h4 hl]
          unfold HashTable.HT.countDup
          rw [if_neg (differ (by omega) (by omega))]
          unfold HashTable.HT.countProbe
          split <;> rfl
        change (if _ then _ else _) = _ at h
        split at h
        · split at h
          · exact nomatch h
          · exact hd _ _ (ih _ _ _ _ _ _ _ (by omega) h)
        · exact hd _ _ (ih _ _ _ _ _ _ _ (by omega) h)
      · obtain ⟨⟨d, w1⟩, h1, h⟩ := bind_eq h
        obtain ⟨bs, _, h⟩ := bind_eq h
        obtain ⟨_, _, h⟩ := bind_eq h
        cases h
        exact scan hc _ c b w _ d _ hcw h1

theorem insertF_form {w w1 : ω} {ht : HT κ} {k : κ} {h : U64} (h1 : e.hash w k ht.seed = .ok (h, w1)) :
    insertF e w ht k = if ht.prime = true then (if ht.size = 0 then .error .divZero else
      insertLoopF e k h (2 * ht.size.toNat + 1) w1 { ht with inserts := ht.inserts + 1 } (h % ht.size) 0 0)
      else insertLoopF e k h (2 * ht.size.toNat + 1) w1 { ht with inserts := ht.inserts + 1 } (h &&& ht.sizeMask) 0 0 := by
  rw [insertF]
  dsimp only
  rw [h1, Go.bind_ok]
  dsimp only
  cases ht.prime with
  | false => rfl
  | true =>
    simp only [if_true]
    by_cases hz : ht.size = 0
    · rw [if_pos hz, if_pos hz]; rfl
    · rw [if_neg hz, if_neg hz]; rfl

theorem insertF_dups (hc : Counts e.hash cnt) {w w' : ω} {ht ht' : HT κ} {k : κ} (h : insertF e w ht k = .ok (w', ht')) :
    cnt w < cnt w' ∧ (cnt w' < 2 ^ 64 → ht'.dups = ht.dups) := by
  obtain ⟨w1, h1, h2⟩ := hc w k ht.seed
  rw [insertF_form h1] at h
  have key : ∀ idx fuel, insertLoopF e k (BitVec.ofNat 64 (cnt w + 1)) fuel w1 { ht with inserts := ht.inserts + 1 } idx 0 0 = .ok (w', ht') →
      cnt w < cnt w' ∧ (cnt w' < 2 ^ 64 → ht'.dups = ht.dups) := by
    intro idx fuel h
    have := loop hc k (cnt w + 1) fuel w1 _ idx 0 0 w' ht' (by omega) h
    exact ⟨by omega, this.2⟩
  split at h
  · split at h
    · exact nomatch h
    · exact key _ _ h
  · exact key _ _ h

/-- Under a counter no history of inserts, into any table, counts a duplicate, as long as there are fewer than 2^64 calls. -/
theorem insertAllF_dups (hc : Counts e.hash cnt) (ks : List κ) : ∀ (w w' : ω) (ht ht' : HT κ), insertAllF e w ht ks = .ok (w', ht') →
    cnt w + ks.length ≤ cnt w' ∧ (cnt w' < 2 ^ 64 → ht'.dups = ht.dups) := by
  induction ks with
  | nil => intro w w' ht ht' h; cases h; exact ⟨by simp, fun _ => rfl⟩
  | cons k ks ih =>
    intro w w' ht ht' h
    rw [insertAllF] at h
    obtain ⟨⟨w1, ht1⟩, h1, h⟩ := bind_eq h
    have h2 := insertF_dups hc h1
    have h3 := ih _ _ _ _ h
    rw [List.length_cons]
    refine ⟨by omega, fun hl => ?_⟩
    rw [h3.2 hl, h2.2 (by omega)]

theorem residues {m c i j : Nat} (hij : i < j) (hj : j - i < m) : (c + i) % m ≠ (c + j) % m := by
  intro h
  have h1 := Nat.sub_mod_eq_zero_of_mod_eq h.symm
  rw [show c + j - (c + i) = j - i by omega, Nat.mod_eq_of_lt hj] at h1
  omega

/-- The table with a key in this bucket, which was free. -/
def put (ht : HT κ) (j : Nat) (k : κ) : HT κ := { ht with inserts := ht.inserts + 1, buckets := ht.buckets.set j [k], probes := ht.probes + 1, heads := ht.heads + 1 }

/-- An insert into a free bucket. -/
theorem insert_free (hc : Counts e.hash cnt) (w : ω) (ht : HT κ) (k : κ) (hm : 0 < ht.buckets.length) (hs : ht.size.toNat = ht.buckets.length) (hk : ht.sizeMask = ht.size - 1)
    (hp : ht.prime = true ∨ ∃ n, ht.buckets.length = 2 ^ n) (hl : cnt w + 1 < 2 ^ 64) (ht' : e.traceOK k = true)
    (hf : ht.buckets[(cnt w + 1) % ht.buckets.length]? = some []) :
    ∃ w', cnt w' = cnt w + 1 ∧ insertF e w ht k = .ok (w', (put ht ((cnt w + 1) % ht.buckets.length) k)) := by
  obtain ⟨w1, h1, h2⟩ := hc w k ht.seed
  refine ⟨w1, h2, ?_⟩
  rw [insertF_form h1]
  have hv : (BitVec.ofNat 64 (cnt w + 1)).toNat = cnt w + 1 := by rw [BitVec.toNat_ofNat]; omega
  have key : ∀ idx : U64, idx.toNat = (cnt w + 1) % ht.buckets.length →
      insertLoopF e k (BitVec.ofNat 64 (cnt w + 1)) (2 * ht.size.toNat + 1) w1 { ht with inserts := ht.inserts + 1 } idx 0 0 =
      .ok (w1, (put ht ((cnt w + 1) % ht.buckets.length) k)) := by
    intro idx hidx
    rw [insertLoopF]
    dsimp only
    rw [hidx]
    unfold Go.idx
    rw [hf, Go.bind_ok]
    unfold Go.set traceChkF
    rw [if_pos (Nat.mod_lt _ hm), ht']
    rfl
  by_cases hpr : ht.prime = true
  · rw [if_pos hpr, if_neg (by intro h0; rw [h0] at hs; simp at hs; omega)]
    exact key (BitVec.ofNat 64 (cnt w + 1) % ht.size) (by rw [BitVec.toNat_umod, hv, hs])
  · rw [if_neg hpr]
    refine key _ ?_
    obtain ⟨n, hn⟩ : ∃ n, ht.buckets.length = 2 ^ n := by
      rcases hp with hp | hp
      · exact absurd hp hpr
      · exact hp
    have : (ht.size - 1).toNat = 2 ^ n - 1 := by
      rw [BitVec.toNat_sub_of_le (by rw [BitVec.le_def, hs]; exact hm), hs, hn]; rfl
    rw [BitVec.toNat_and, hk, this, hv, hn, Nat.and_two_pow_sub_one_eq_mod]

theorem spread (hc : Counts e.hash cnt) (ks : List κ) : ∀ (w : ω) (ht : HT κ), 0 < ht.buckets.length → ht.size.toNat = ht.buckets.length → ht.sizeMask = ht.size - 1 →
    (ht.prime = true ∨ ∃ n, ht.buckets.length = 2 ^ n) → cnt w + ks.length < 2 ^ 64 → (∀ k ∈ ks, e.traceOK k = true) → ks.length ≤ ht.buckets.length →
    (∀ i, i < ks.length → ht.buckets[(cnt w + 1 + i) % ht.buckets.length]? = some []) →
    ∃ w' ht', insertAllF e w ht ks = .ok (w', ht') ∧ cnt w' = cnt w + ks.length ∧ ht'.buckets.length = ht.buckets.length ∧
      (∀ i k, ks[i]? = some k → ht'.buckets[(cnt w + 1 + i) % ht.buckets.length]? = some [k]) ∧
      (∀ j, (∀ i, i < ks.length → j ≠ (cnt w + 1 + i) % ht.buckets.length) → ht'.buckets[j]? = ht.buckets[j]?) ∧
      ht'.inserts = ht.inserts + ks.length ∧ ht'.probes = ht.probes + ks.length ∧ ht'.heads = ht.heads + ks.length ∧
      ht'.cols = ht.cols ∧ ht'.dups = ht.dups ∧ ht'.nbuckets = ht.nbuckets ∧ ht'.longestChain = ht.longestChain := by
  induction ks with
  | nil =>
    intro w ht _ _ _ _ _ _ _ _
    exact ⟨w, ht, rfl, rfl, rfl, fun i k h => (nomatch h), fun j _ => rfl, rfl, rfl, rfl, rfl, rfl, rfl, rfl⟩
  | cons k ks ih =>
    intro w ht hm hs hk hp hl htr hle hfree
    rw [List.length_cons] at hl hle
    obtain ⟨w1, hw, h1⟩ := insert_free hc w ht k hm hs hk hp (by omega) (htr k (by simp)) (hfree 0 (by simp))
    have hne : ∀ i, i < ks.length → (cnt w + 1 + 0) % ht.buckets.length ≠ (cnt w + 1 + (i + 1)) % ht.buckets.length := fun i hi => residues (by omega) (by omega)
    have hlen : (put ht ((cnt w + 1) % ht.buckets.length) k).buckets.length = ht.buckets.length := List.length_set
    have hbs : (put ht ((cnt w + 1) % ht.buckets.length) k).buckets = ht.buckets.set ((cnt w + 1) % ht.buckets.length) [k] := rfl
    obtain ⟨w', ht', h2, h3, h4, h5, h6, h7, h8, h9, h10, h11, h12, h13⟩ := ih w1 (put ht ((cnt w + 1) % ht.buckets.length) k) (by rw [hlen]; exact hm) (by rw [hlen]; exact hs) hk (by rw [hlen]; exact hp) (by omega) (fun x hx => htr x (by simp [hx])) (by rw [hlen]; omega) (by
        intro i hi
        rw [hlen, hw, hbs, show cnt w + 1 + 1 + i = cnt w + 1 + (i + 1) by omega, List.getElem?_set_ne (hne i hi)]
        exact hfree (i + 1) (by simp; omega))
    rw [hlen] at h4
    simp only [hlen] at h5 h6
    have i1 : (put ht ((cnt w + 1) % ht.buckets.length) k).inserts = ht.inserts + 1 := rfl
    have i2 : (put ht ((cnt w + 1) % ht.buckets.length) k).probes = ht.probes + 1 := rfl
    have i3 : (put ht ((cnt w + 1) % ht.buckets.length) k).heads = ht.heads + 1 := rfl
    refine ⟨w', ht', ?_, by rw [h3, hw, List.length_cons]; omega, h4, ?_, ?_, by rw [h7, List.length_cons]; omega, by rw [h8, List.length_cons]; omega,
      by rw [h9, List.length_cons]; omega, h10, h11, h12, h13⟩
    · rw [insertAllF, h1]; exact h2
    · intro i x hx
      cases i with
      | zero =>
        cases hx
        rw [h6 _ (fun i hi => by rw [hw, show cnt w + 1 + 1 + i = cnt w + 1 + (i + 1) by omega]; exact hne i hi)]
        exact List.getElem?_set_self (Nat.mod_lt _ hm)
      | succ i =>
        have := h5 i x (by simpa using hx)
        rw [hw, show cnt w + 1 + 1 + i = cnt w + 1 + (i + 1) by omega] at this
        exact this
    · intro j hj
      rw [h6 j (fun i hi => by
        rw [hw, show cnt w + 1 + 1 + i = cnt w + 1 + (i + 1) by omega]; exact hj (i + 1) (by simp; omega)), hbs, List.getElem?_set_ne (Ne.symm (hj 0 (by simp)))]

/-- C143. Under a call counter a new table of prime size, or of a power of two, with room for all keys is filled without a single collision:
the `i`th key goes into the `i`th bucket after the one the counter is at, whatever the keys are. -/
theorem C143_spread (hc : Counts e.hash cnt) (np : Int → Int) (size seed extra : Int) (pd oa prime : Bool) (ht0 : HT κ)
    (hnew : newHashTable np size seed extra pd oa prime = .ok ht0) (hp : prime = true ∨ ∃ n, ht0.buckets.length = 2 ^ n)
    (w : ω) (ks : List κ) (hroom : ks.length ≤ ht0.buckets.length) (hl : cnt w + ks.length < 2 ^ 64) (htr : ∀ k ∈ ks, e.traceOK k = true) :
    ∃ w' ht, insertAllF e w ht0 ks = .ok (w', ht) ∧ cnt w' = cnt w + ks.length ∧
      (∀ i k, ks[i]? = some k → ht.buckets[(cnt w + 1 + i) % ht0.buckets.length]? = some [k]) ∧
      ht.inserts = ks.length ∧ ht.probes = ks.length ∧ ht.heads = ks.length ∧ ht.cols = 0 ∧ ht.dups = 0 ∧ ht.nbuckets = 0 ∧ ht.longestChain = 0 := by
  have hn : (0 < ht0.buckets.length ∨ ks = []) := by
    cases ks with
    | nil => right; rfl
    | cons k ks => left; rw [List.length_cons] at hroom; omega
  unfold newHashTable at hnew
  dsimp only at hnew
  split at hnew
  · cases hnew
    rcases hn with hm | rfl
    · obtain ⟨w', ht', h2, h3, h4, h5, h6, h7, h8, h9, h10, h11, h12, h13⟩ := spread hc ks w _ hm (by simp) rfl hp hl htr hroom (by
        intro i hi
        rw [List.getElem?_replicate, if_pos (by
          have := Nat.mod_lt (cnt w + 1 + i) hm
          rwa [List.length_replicate] at this ⊢)])
      exact ⟨w', ht', h2, h3, h5, by rw [h7]; exact Nat.zero_add _, by rw [h8]; exact Nat.zero_add _, by rw [h9]; exact Nat.zero_add _, h10, h11, h12, h13⟩
    · exact ⟨w, _, rfl, rfl, fun i k h => (nomatch h), rfl, rfl, rfl, rfl, rfl, rfl, rfl⟩
  · exact nomatch hnew

end table

section program
variable {ω : Type} {sys : Sys ω} {fl : Flags} {name : String} {cnt : ω → Nat}

theorem insertKeys_eq (ks : List (List U8)) : ∀ (w : ω) (ht : HT (List U8)), insertKeys sys fl name w ht ks = insertAllF (env sys fl name) w ht ks := by
  induction ks with
  | nil => intro w ht; rfl
  | cons k ks ih =>
    intro w ht
    rw [insertKeys, insertAllF]
    congr 1
    funext x
    exact ih _ _

theorem insertL_mono (hc : Counts (fun w k s => sys.hash w name k s) cnt) (ks : List (List U8)) : ∀ (w w' : ω) (ht ht' : HT (List U8)) (hs hs' : List U64),
    insertL sys fl name w ht hs ks = .ok (w', ht', hs') → cnt w ≤ cnt w' := by
  induction ks with
  | nil => intro w w' ht ht' hs hs' h; cases h; exact le_rfl
  | cons k ks ih =>
    intro w w' ht ht' hs hs' h
    rw [insertL] at h
    obtain ⟨w1, h1, h2⟩ := hc w k ht.seed
    obtain ⟨p, hp, h⟩ := bind_eq h
    rw [show sys.hash w name k ht.seed = _ from h1] at hp
    cases hp
    obtain ⟨⟨w2, ht2⟩, h3, h⟩ := bind_eq h
    have h4 := insertF_dups (e := env sys fl name) hc h3
    have := ih _ _ _ _ _ _ h
    omega

theorem insertL_values (hc : Counts (fun w k s => sys.hash w name k s) cnt) (ks : List (List U8)) : ∀ (w w' : ω) (ht ht' : HT (List U8)) (hs hs' : List U64),
    insertL sys fl name w ht hs ks = .ok (w', ht', hs') → (∀ h ∈ hs, h.toNat ≤ cnt w) → hs.Nodup →
    cnt w ≤ cnt w' ∧ (cnt w' < 2 ^ 64 → ht'.dups = ht.dups ∧ hs'.Nodup ∧ hs'.length = hs.length + ks.length) := by
  induction ks with
  | nil => intro w w' ht ht' hs hs' h _ hn; cases h; exact ⟨le_rfl, fun _ => ⟨rfl, hn, by simp⟩⟩
  | cons k ks ih =>
    intro w w' ht ht' hs hs' h hle hn
    rw [insertL] at h
    obtain ⟨w1, h1, h2⟩ := hc w k ht.seed
    obtain ⟨p, hp, h⟩ := bind_eq h
    rw [show sys.hash w name k ht.seed = _ from h1] at hp
    cases hp
    obtain ⟨⟨w2, ht2⟩, h3, h⟩ := bind_eq h
    have h4 := insertF_dups (e := env sys fl name) hc h3
    by_cases hl : cnt w2 < 2 ^ 64
    · have hv : (BitVec.ofNat 64 (cnt w + 1)).toNat = cnt w + 1 := by rw [BitVec.toNat_ofNat]; omega
      have h5 := ih w2 w' ht2 ht' _ hs' h (by
        intro x hx
        rcases List.mem_append.1 hx with hx | hx
        · have := hle x hx; omega
        · rw [List.mem_singleton.1 hx, hv]; omega) (by
        rw [List.nodup_append]
        refine ⟨hn, by simp, ?_⟩
        intro a ha b hb hab
        have := hle a ha
        rw [hab, List.mem_singleton.1 hb, hv] at this
        omega)
      refine ⟨by omega, fun hl' => ?_⟩
      obtain ⟨h6, h7, h8⟩ := h5.2 hl'
      refine ⟨by rw [h6, h4.2 hl], h7, ?_⟩
      rw [h8, List.length_append, List.length_cons]; simp only [List.length_cons, List.length_nil]; omega
    · have := insertL_mono hc ks _ _ _ _ _ _ h
      exact ⟨by omega, fun hl' => by omega⟩


theorem modLoop_hist (hc : Counts (fun w k s => sys.hash w name k s) cnt) (seed : U64) (n : Nat) (hn : 0 < n) (hn' : n < 2 ^ 64) (k : Nat) : ∀ (i : Nat) (w w' : ω) (q q' : List U8 × List Nat),
    q.2.length = n → modLoop sys name seed (BitVec.ofNat 64 n) i k w q = .ok (w', q') →
    cnt w' = cnt w + k ∧ q'.2.length = n ∧
      (cnt w' < 2 ^ 64 → ∀ b, b < n → ∀ x, q.2[b]? = some x → q'.2[b]? = some (x + binCount (fun j => (cnt w + 1 + j) % n) k b)) := by
  induction k with
  | zero => intro i w w' q q' hq h; cases h; exact ⟨rfl, hq, fun _ b _ x hx => by simp [hx, binCount]⟩
  | succ k ih =>
    intro i w w' q q' hq h
    rw [modLoop] at h
    obtain ⟨w1, h1, h2⟩ := hc w [BitVec.ofNat 8 i, BitVec.ofNat 8 (i >>> 8), BitVec.ofNat 8 (i >>> 16), BitVec.ofNat 8 (i >>> 24)] seed
    obtain ⟨p, hp, h⟩ := bind_eq h
    rw [show sys.hash w name _ seed = _ from h1] at hp
    cases hp
    obtain ⟨q1, h3, h⟩ := bind_eq h
    unfold Model.Ht.testMBody at h3
    obtain ⟨bs, _, h3⟩ := bind_eq h3
    obtain ⟨bs, _, h3⟩ := bind_eq h3
    obtain ⟨bs, _, h3⟩ := bind_eq h3
    obtain ⟨bs, _, h3⟩ := bind_eq h3
    dsimp only at h3
    have hnz : BitVec.ofNat 64 n ≠ 0#64 := by
      intro e0
      have := congrArg BitVec.toNat e0
      rw [BitVec.toNat_ofNat, Nat.mod_eq_of_lt hn'] at this
      simp at this; omega
    rw [if_neg hnz] at h3
    obtain ⟨x0, hx0, h3⟩ := bind_eq h3
    obtain ⟨hist, hh, h3⟩ := bind_eq h3
    cases h3
    have hset : hist = q.2.set (BitVec.ofNat 64 (cnt w + 1) % BitVec.ofNat 64 n).toNat (x0 + 1) := by
      unfold Go.set at hh
      split at hh
      · cases hh; rfl
      · exact nomatch hh
    have hget : q.2[(BitVec.ofNat 64 (cnt w + 1) % BitVec.ofNat 64 n).toNat]? = some x0 := by
      unfold Go.idx at hx0
      split at hx0
      · cases hx0; assumption
      · exact nomatch hx0
    have h4 := ih (i + 1) w1 w' (bs, hist) q' (by rw [hset]; simpa using hq) h
    refine ⟨by omega, h4.2.1, fun hl b hb x hx => ?_⟩
    have hv : (BitVec.ofNat 64 (cnt w + 1) % BitVec.ofNat 64 n).toNat = (cnt w + 1) % n := by
      rw [BitVec.toNat_umod, BitVec.toNat_ofNat, BitVec.toNat_ofNat, Nat.mod_eq_of_lt hn', Nat.mod_eq_of_lt (a := cnt w + 1) (by omega)]
    rw [hv] at hset hget
    have hbin : binCount (fun j => (cnt w + 1 + j) % n) (k + 1) b = (if (cnt w + 1) % n = b then 1 else 0) + binCount (fun j => (cnt w1 + 1 + j) % n) k b := by
      unfold binCount
      rw [List.range_succ_eq_map, List.countP_cons, List.countP_map, Nat.add_comm]
      congr 1
      · simp
      · apply List.countP_congr
        intro j _
        simp only [Function.comp_apply, decide_eq_true_eq]
        rw [show cnt w + 1 + j.succ = cnt w1 + 1 + j by omega]
    by_cases hb' : (cnt w + 1) % n = b
    · have := h4.2.2 hl b hb (x + 1) (by
        rw [hset, hb', List.getElem?_set_self (by omega)]
        rw [hb', hx] at hget
        cases hget; rfl)
      rw [this, hbin, if_pos hb']
      congr 1; omega
    · have := h4.2.2 hl b hb x (by rw [hset, List.getElem?_set_ne hb']; exact hx)
      rw [this, hbin, if_neg hb', Nat.zero_add]

theorem bins_first (n : Nat) (hn : 0 < n) (c k b : Nat) (hk : k ≤ n) (hb : b < n) :
    binCount (fun j => (c + j) % n) k b = if (b + n - c % n) % n < k then 1 else 0 := by
  have hr := Nat.mod_lt c hn
  have key : ∀ i, i < n → ((c + i) % n = b ↔ i = (b + n - c % n) % n) := by
    intro i hi
    rw [Nat.add_mod, Nat.mod_eq_of_lt hi]
    generalize c % n = r at hr
    have h1 : (r + i) % n = if r + i < n then r + i else r + i - n := by
      split
      · exact Nat.mod_eq_of_lt (by assumption)
      · rw [Nat.mod_eq_sub_mod (by omega), Nat.mod_eq_of_lt (by omega)]
    have h2 : (b + n - r) % n = if b < r then b + n - r else b - r := by
      split
      · exact Nat.mod_eq_of_lt (by omega)
      · rw [Nat.mod_eq_sub_mod (by omega), Nat.mod_eq_of_lt (by omega)]; omega
    rw [h1, h2]
    split <;> split <;> omega
  unfold binCount
  rw [List.countP_congr (q := fun i => i == (b + n - c % n) % n) (by
    intro i hi
    rw [List.mem_range] at hi
    rw [decide_eq_true_eq, key i (by omega), beq_iff_eq])]
  show (List.range k).count _ = _
  split
  · exact List.count_eq_one_of_mem List.nodup_range (by rw [List.mem_range]; assumption)
  · exact List.count_eq_zero_of_not_mem (by rw [List.mem_range]; assumption)

/-- Consecutive numbers are spread evenly over the residues. -/
theorem even_bins (n : Nat) (hn : 0 < n) (c b : Nat) (hb : b < n) (k : Nat) : k / n ≤ binCount (fun j => (c + j) % n) k b ∧ binCount (fun j => (c + j) % n) k b ≤ (k + n - 1) / n := by
  induction k using Nat.strong_induction_on with
  | _ k ih =>
    by_cases hk : k < n
    · rw [bins_first n hn c k b (by omega) hb, Nat.div_eq_of_lt hk]
      refine ⟨Nat.zero_le _, ?_⟩
      split
      · rw [Nat.le_div_iff_mul_le hn]; omega
      · exact Nat.zero_le _
    · obtain ⟨k, rfl⟩ : ∃ m, k = n + m := ⟨k - n, by omega⟩
      have h1 : binCount (fun j => (c + j) % n) (n + k) b = 1 + binCount (fun j => (c + j) % n) k b := by
        have h0 := bins_first n hn c n b le_rfl hb
        rw [if_pos (Nat.mod_lt _ hn)] at h0
        unfold binCount at h0 ⊢
        rw [List.range_add, List.countP_append, h0, List.countP_map]
        congr 1
        apply List.countP_congr
        intro j _
        simp only [Function.comp_apply, decide_eq_true_eq]
        rw [show c + (n + j) = c + j + n by omega, Nat.add_mod_right]
      have h2 := ih k (by omega)
      rw [h1, Nat.add_div_left k hn, show n + k + n - 1 = (k + n - 1) + n by omega, Nat.add_div_right _ hn]
      omega

/-- C143. One run of a test under a call counter, from any state and with any flags, as long as the counter stays below 2^64: it reports no
duplicates of either kind, and in test M every bin gets the same number of integers, rounded down or up. -/
theorem C143_run (hc : Counts (fun w k s => sys.hash w name k s) cnt) (seed : Int) (file : String) (lines : Int) (st st' : St ω) (f : Fn) (r : Result)
    (h : runFn sys fl name seed file lines st f = .ok (r, st')) (hl : cnt st'.w < 2 ^ 64) :
    r.ht.dups = 0 ∧ r.dups2 = 0 ∧ (f = .M → ∀ x ∈ r.hist, fl.ni.toNat / r.hist.length ≤ x ∧ x ≤ (fl.ni.toNat + r.hist.length - 1) / r.hist.length) := by
  have hnew : ∀ {size : Int} {ht : HT (List U8)}, Model.HtMain.newTable sys fl seed size = .ok ht → ht.dups = 0 := by
    intro size ht h
    unfold Model.HtMain.newTable newHashTable at h
    dsimp only at h
    split at h
    · cases h; rfl
    · exact nomatch h
  have hins : ∀ {w w' : ω} {ht ht' : HT (List U8)} {ks : List (List U8)}, insertKeys sys fl name w ht ks = .ok (w', ht') → cnt w' < 2 ^ 64 → ht'.dups = ht.dups := by
    intro w w' ht ht' ks h hl
    rw [insertKeys_eq] at h
    exact (insertAllF_dups (e := env sys fl name) hc ks w w' ht ht' h).2 hl
  cases f with
  | file t =>
    obtain ⟨ht, h1, h⟩ := bind_eq h
    obtain ⟨⟨w, ht2⟩, h2, h⟩ := bind_eq h
    obtain ⟨_, _, h⟩ := bind_eq h
    cases h
    exact ⟨by rw [hins h2 hl, hnew h1], rfl, fun h => nomatch h⟩
  | H =>
    rw [runFn] at h
    generalize Model.Ht.genWords _ = g at h
    obtain ⟨_, _, h⟩ := bind_eq h
    obtain ⟨ht, h1, h⟩ := bind_eq h
    obtain ⟨⟨w, ht2⟩, h2, h⟩ := bind_eq h
    cases h
    exact ⟨by rw [hins h2 hl, hnew h1], rfl, fun h => nomatch h⟩
  | I =>
    obtain ⟨ht, h1, h⟩ := bind_eq h
    obtain ⟨⟨_, keys⟩, _, h⟩ := bind_eq h
    obtain ⟨⟨w, ht2⟩, h2, h⟩ := bind_eq h
    cases h
    exact ⟨by rw [hins h2 hl, hnew h1], rfl, fun h => nomatch h⟩
  | J =>
    obtain ⟨ht, h1, h⟩ := bind_eq h
    obtain ⟨⟨_, keys⟩, _, h⟩ := bind_eq h
    obtain ⟨⟨w, ht2⟩, h2, h⟩ := bind_eq h
    cases h
    exact ⟨by rw [hins h2 hl, hnew h1], rfl, fun h => nomatch h⟩
  | K =>
    obtain ⟨ht, h1, h⟩ := bind_eq h
    obtain ⟨⟨w, d, ps⟩, h2, h⟩ := bind_eq h
    cases h
    exact ⟨hnew h1, rfl, fun h => nomatch h⟩
  | L =>
    rw [runFn] at h
    generalize Model.Ht.testL = tl at h
    obtain ⟨ht, h1, h⟩ := bind_eq h
    obtain ⟨⟨b0, keys⟩, htl, h⟩ := bind_eq h
    obtain ⟨⟨w, ht2, hs⟩, h2, h⟩ := bind_eq h
    cases h
    obtain ⟨h3, h4, h5⟩ := (insertL_values hc keys _ _ _ _ _ _ h2 (fun h hh => nomatch hh) List.nodup_nil).2 hl
    refine ⟨by show ht2.dups = 0; rw [h3, hnew h1], ?_, fun h => nomatch h⟩
    show hs.length - hs.dedup.length = 0
    rw [List.dedup_eq_self.2 h4, Nat.sub_self]
  | M =>
    rw [runFn] at h
    dsimp only at h
    generalize (if fl.dru = true then -st.n else st.n) = n at h
    by_cases hb : n < 0 ∨ 2 ^ 48 < 8 * n
    · rw [if_pos hb] at h; exact nomatch h
    · rw [if_neg hb] at h
      obtain ⟨ht, h1, h⟩ := bind_eq h
      obtain ⟨⟨w, q1, hist⟩, h2, h⟩ := bind_eq h
      dsimp only at h
      by_cases h0 : n = 0
      · rw [if_pos h0] at h; exact nomatch h
      · rw [if_neg h0] at h
        cases h
        have hof : BitVec.ofInt 64 n = BitVec.ofNat 64 n.toNat := by
          rw [show n = (n.toNat : Int) by omega]; exact BitVec.ofInt_natCast 64 n.toNat
        rw [hof] at h2
        have h3 := modLoop_hist hc ht.seed n.toNat (by omega) (by omega) fl.ni.toNat 0 st.w w _ _ (by simp) h2
        refine ⟨hnew h1, rfl, fun _ x hx => ?_⟩
        have hlen : hist.length = n.toNat := h3.2.1
        obtain ⟨b, hb1, rfl⟩ := List.mem_iff_getElem.1 hx
        have hb2 : b < n.toNat := by rw [← hlen]; exact hb1
        have h4 := h3.2.2 hl b hb2 0 (by simp [hb2])
        rw [List.getElem?_eq_getElem hb1, Option.some.injEq, Nat.zero_add] at h4
        show _ / hist.length ≤ hist[b] ∧ hist[b] ≤ (_ + hist.length - 1) / hist.length
        rw [h4, hlen]
        exact even_bins n.toNat (by omega) _ b hb2 _

end program

/-! ## The whole program -/

section grows
variable {ω κ : Type} (R : ω → ω → Prop)

theorem scan_grows {e : EnvF ω κ} (hr : ∀ w, R w w) (ht : ∀ a b c, R a b → R b c → R a c) (hh : ∀ w k s h w', e.hash w k s = .ok (h, w') → R w w') (seed h : U64) (b : List κ) :
    ∀ (w : ω) (n d : Nat) (w' : ω), scanDupsF e seed h b w n = .ok (d, w') → R w w' := by
  induction b with
  | nil => intro w n d w' h; cases h; exact hr _
  | cons k b ih =>
    intro w n d w' h
    rw [scanDupsF] at h
    obtain ⟨⟨x, w1⟩, h1, h⟩ := bind_eq h
    exact ht _ _ _ (hh _ _ _ _ _ h1) (ih _ _ _ _ h)

theorem loop_grows {e : EnvF ω κ} (hr : ∀ w, R w w) (ht : ∀ a b c, R a b → R b c → R a c) (hh : ∀ w k s h w', e.hash w k s = .ok (h, w') → R w w') (k : κ) (x : U64) (fuel : Nat) :
    ∀ (w : ω) (ht : HT κ) (idx : U64) (n pass : Nat) (w' : ω) (ht' : HT κ), insertLoopF e k x fuel w ht idx n pass = .ok (w', ht') → R w w' := by
  induction fuel with
  | zero => intro w ht idx n pass w' ht' h; exact nomatch h
  | succ fuel ih =>
    intro w tb idx n pass w' tb' h
    rw [insertLoopF] at h
    obtain ⟨b, _, h⟩ := bind_eq h
    split at h
    · obtain ⟨bs, _, h⟩ := bind_eq h
      obtain ⟨_, _, h⟩ := bind_eq h
      cases h
      exact hr _
    · split at h
      · obtain ⟨_, _, h⟩ := bind_eq h
        obtain ⟨k0, _, h⟩ := bind_eq h
        obtain ⟨⟨y, w1⟩, h1, h⟩ := bind_eq h
        refine ht _ _ _ (hh _ _ _ _ _ h1) ?_
        dsimp only at h
        split at h
        · split at h
          · exact nomatch h
          · exact ih _ _ _ _ _ _ _ h
        · exact ih _ _ _ _ _ _ _ h
      · obtain ⟨⟨d, w1⟩, h1, h⟩ := bind_eq h
        obtain ⟨bs, _, h⟩ := bind_eq h
        obtain ⟨_, _, h⟩ := bind_eq h
        cases h
        exact scan_grows R hr ht hh _ _ b w _ d _ h1

theorem insertF_grows {e : EnvF ω κ} (hr : ∀ w, R w w) (ht : ∀ a b c, R a b → R b c → R a c) (hh : ∀ w k s h w', e.hash w k s = .ok (h, w') → R w w')
    {w w' : ω} {tb tb' : HT κ} {k : κ} (h : insertF e w tb k = .ok (w', tb')) : R w w' := by
  cases h1 : e.hash w k tb.seed with
  | error er =>
    rw [insertF] at h
    dsimp only at h
    rw [h1] at h
    exact nomatch h
  | ok p =>
    obtain ⟨x, w1⟩ := p
    rw [insertF_form h1] at h
    refine ht _ _ _ (hh _ _ _ _ _ h1) ?_
    split at h
    · split at h
      · exact nomatch h
      · exact loop_grows R hr ht hh _ _ _ _ _ _ _ _ _ _ h
    · exact loop_grows R hr ht hh _ _ _ _ _ _ _ _ _ _ h

variable {sys : Sys ω} {fl : Flags} {name : String}

section
variable (hr : ∀ w, R w w) (ht : ∀ a b c, R a b → R b c → R a c) (hh : ∀ w name k s h w', sys.hash w name k s = .ok (h, w') → R w w')
include hr ht hh

theorem insertKeys_grows (ks : List (List U8)) : ∀ (w w' : ω) (tb tb' : HT (List U8)), insertKeys sys fl name w tb ks = .ok (w', tb') → R w w' := by
  induction ks with
  | nil => intro w w' tb tb' h; cases h; exact hr _
  | cons k ks ih =>
    intro w w' tb tb' h
    rw [insertKeys] at h
    obtain ⟨⟨w1, tb1⟩, h1, h⟩ := bind_eq h
    exact ht _ _ _ (insertF_grows R hr ht (e := env sys fl name) (fun w k s h w' => hh w name k s h w') h1) (ih _ _ _ _ h)

theorem insertL_grows (ks : List (List U8)) : ∀ (w w' : ω) (tb tb' : HT (List U8)) (hs hs' : List U64), insertL sys fl name w tb hs ks = .ok (w', tb', hs') → R w w' := by
  induction ks with
  | nil => intro w w' tb tb' hs hs' h; cases h; exact hr _
  | cons k ks ih =>
    intro w w' tb tb' hs hs' h
    rw [insertL] at h
    obtain ⟨⟨x, w0⟩, h0, h⟩ := bind_eq h
    obtain ⟨⟨w1, tb1⟩, h1, h⟩ := bind_eq h
    exact ht _ _ _ (hh _ _ _ _ _ _ h0) (ht _ _ _ (insertF_grows R hr ht (e := env sys fl name) (fun w k s h w' => hh w name k s h w') h1) (ih _ _ _ _ _ _ h))

theorem hashLines_grows (rseed : U64) (ls : List (List U8)) : ∀ (w w' : ω) (ps : List (U64 × List U8 × U64)), Model.HtMain.hashLines sys name rseed w ls = .ok (w', ps) → R w w' := by
  induction ls with
  | nil => intro w w' ps h; cases h; exact hr _
  | cons l ls ih =>
    intro w w' ps h
    rw [Model.HtMain.hashLines] at h
    obtain ⟨⟨x, w0⟩, h0, h⟩ := bind_eq h
    obtain ⟨p, _, h⟩ := bind_eq h
    obtain ⟨⟨w1, qs⟩, h1, h⟩ := bind_eq h
    cases h
    exact ht _ _ _ (hh _ _ _ _ _ _ h0) (ih _ _ _ h1)

theorem seedLoop_grows (f : Option Model.Ht.File) (n : Nat) : ∀ (w w' : ω) (d d' : Nat) (ps : List (U64 × List U8 × U64)),
    Model.HtMain.seedLoop sys name f n w d = .ok (w', d', ps) → R w w' := by
  induction n with
  | zero => intro w w' d d' ps h; cases h; exact hr _
  | succ n ih =>
    intro w w' d d' ps h
    rw [Model.HtMain.seedLoop] at h
    obtain ⟨⟨w0, qs⟩, h0, h⟩ := bind_eq h
    obtain ⟨_, _, h⟩ := bind_eq h
    obtain ⟨⟨w1, d1, qs1⟩, h1, h⟩ := bind_eq h
    cases h
    exact ht _ _ _ (hashLines_grows R hr ht hh _ _ _ _ _ h0) (ih _ _ _ _ _ h1)

theorem modLoop_grows (seed mod : U64) (k : Nat) : ∀ (i : Nat) (w w' : ω) (q q' : List U8 × List Nat), modLoop sys name seed mod i k w q = .ok (w', q') → R w w' := by
  induction k with
  | zero => intro i w w' q q' h; cases h; exact hr _
  | succ k ih =>
    intro i w w' q q' h
    rw [modLoop] at h
    obtain ⟨⟨x, w0⟩, h0, h⟩ := bind_eq h
    obtain ⟨q1, _, h⟩ := bind_eq h
    exact ht _ _ _ (hh _ _ _ _ _ _ h0) (ih _ _ _ _ _ h)

theorem runFn_grows (seed : Int) (file : String) (lines : Int) (st st' : St ω) (f : Fn) (r : Result) (h : runFn sys fl name seed file lines st f = .ok (r, st')) : R st.w st'.w := by
  cases f with
  | file t =>
    obtain ⟨tb, h1, h⟩ := bind_eq h
    obtain ⟨⟨w, tb2⟩, h2, h⟩ := bind_eq h
    obtain ⟨_, _, h⟩ := bind_eq h
    cases h
    exact insertKeys_grows R hr ht hh _ _ _ _ _ h2
  | H =>
    rw [runFn] at h
    generalize Model.Ht.genWords _ = g at h
    obtain ⟨_, _, h⟩ := bind_eq h
    obtain ⟨tb, h1, h⟩ := bind_eq h
    obtain ⟨⟨w, tb2⟩, h2, h⟩ := bind_eq h
    cases h
    exact insertKeys_grows R hr ht hh _ _ _ _ _ h2
  | I =>
    obtain ⟨tb, h1, h⟩ := bind_eq h
    obtain ⟨⟨_, keys⟩, _, h⟩ := bind_eq h
    obtain ⟨⟨w, tb2⟩, h2, h⟩ := bind_eq h
    cases h
    exact insertKeys_grows R hr ht hh _ _ _ _ _ h2
  | J =>
    obtain ⟨tb, h1, h⟩ := bind_eq h
    obtain ⟨⟨_, keys⟩, _, h⟩ := bind_eq h
    obtain ⟨⟨w, tb2⟩, h2, h⟩ := bind_eq h
    cases h
    exact insertKeys_grows R hr ht hh _ _ _ _ _ h2
  | K =>
    obtain ⟨tb, h1, h⟩ := bind_eq h
    obtain ⟨⟨w, d, ps⟩, h2, h⟩ := bind_eq h
    cases h
    exact seedLoop_grows R hr ht hh _ _ _ _ _ _ _ h2
  | L =>
    rw [runFn] at h
    generalize Model.Ht.testL = tl at h
    obtain ⟨tb, h1, h⟩ := bind_eq h
    obtain ⟨⟨b0, keys⟩, htl, h⟩ := bind_eq h
    obtain ⟨⟨w, tb2, hs⟩, h2, h⟩ := bind_eq h
    cases h
    exact insertL_grows R hr ht hh _ _ _ _ _ _ _ h2
  | M =>
    rw [runFn] at h
    dsimp only at h
    generalize (if fl.dru = true then -st.n else st.n) = n at h
    by_cases hb : n < 0 ∨ 2 ^ 48 < 8 * n
    · rw [if_pos hb] at h; exact nomatch h
    · rw [if_neg hb] at h
      obtain ⟨tb, h1, h⟩ := bind_eq h
      obtain ⟨⟨w, q1, hist⟩, h2, h⟩ := bind_eq h
      dsimp only at h
      by_cases h0 : n = 0
      · rw [if_pos h0] at h; exact nomatch h
      · rw [if_neg h0] at h
        cases h
        exact modLoop_grows R hr ht hh _ _ _ _ _ _ _ _ h2

end

open Verif.Model.HtMain (Tr forEach runOne runTests mainSwitch main)

/-- Every run reported is a run of a test function, and what the hash functions keep only grew since. -/
def Good (sys : Sys ω) (fl : Flags) (w : ω) (x : Tr (St ω)) : Prop :=
  ∀ s, x.out = .ok s → R w s.w ∧ ∀ lbl f name file r, .run lbl f name file r ∈ x.events →
    ∃ seed lines st1 st2 fn, (lbl, f, fn) ∈ Model.HtMain.Tests ∧ runFn sys fl name seed file lines st1 fn = .ok (r, st2) ∧ R st2.w s.w

variable {R}

theorem good_nil (hr : ∀ w, R w w) (st : St ω) (evs : List Model.HtMain.Event) (he : ∀ lbl f name file r, .run lbl f name file r ∉ evs) : Good R sys fl st.w ⟨evs, .ok st⟩ := by
  intro s hs
  cases hs
  exact ⟨hr _, fun lbl f name file r h => absurd h (he lbl f name file r)⟩

theorem good_bind (ht : ∀ a b c, R a b → R b c → R a c) {w : ω} {x : Tr (St ω)} {g : St ω → Tr (St ω)} (hx : Good R sys fl w x) (hg : ∀ s, Good R sys fl s.w (g s)) :
    Good R sys fl w (x.bind g) := by
  intro s hs
  unfold Tr.bind at hs ⊢
  cases ho : x.out with
  | error er => rw [ho] at hs; exact nomatch hs
  | ok a =>
    rw [ho] at hs
    dsimp only at hs ⊢
    obtain ⟨h1, h2⟩ := hx a ho
    obtain ⟨h3, h4⟩ := hg a s hs
    refine ⟨ht _ _ _ h1 h3, fun lbl f name file r h => ?_⟩
    rcases List.mem_append.1 h with h | h
    · obtain ⟨seed, lines, st1, st2, fn, h5, h6, h7⟩ := h2 _ _ _ _ _ h
      exact ⟨seed, lines, st1, st2, fn, h5, h6, ht _ _ _ h7 h3⟩
    · exact h4 _ _ _ _ _ h

theorem good_forEach (hr : ∀ w, R w w) (ht : ∀ a b c, R a b → R b c → R a c) {α : Type} (body : α → St ω → Tr (St ω)) (l : List α)
    (hb : ∀ a ∈ l, ∀ s, Good R sys fl s.w (body a s)) : ∀ s, Good R sys fl s.w (forEach body l s) := by
  induction l with
  | nil => intro s; exact good_nil hr s [] (by simp)
  | cons a l ih =>
    intro s
    exact good_bind ht (hb a (by simp) s) (ih fun x hx => hb x (by simp [hx]))

theorem good_runTests (hr : ∀ w, R w w) (ht : ∀ a b c, R a b → R b c → R a c) (hh : ∀ w name k s h w', sys.hash w name k s = .ok (h, w') → R w w')
    (on : Flag → Bool) (seed : Int) (file : String) (lines : Int) (hf : List String) (st : St ω) : Good R sys fl st.w (runTests sys fl on seed file lines hf st) := by
  have hrest : ∀ lines, Good R sys fl st.w (forEach (fun t st =>
      if on t.2.1 then
        forEach (fun name st =>
          if Model.Hashf.selected fl.c fl.h32 fl.h64 [name] = [] then ⟨[], .ok st⟩ else runOne sys fl seed file lines t name st) hf st
      else ⟨[], .ok st⟩) Model.HtMain.Tests st) := by
    intro lines
    refine good_forEach hr ht _ _ (fun t htm s => ?_) st
    split
    · refine good_forEach hr ht _ _ (fun name _ s => ?_) s
      split
      · exact good_nil hr s [] (by simp)
      · unfold runOne
        cases hrun : runFn sys fl name seed file lines s t.2.2 with
        | error er => intro s' h; exact nomatch h
        | ok p =>
          obtain ⟨r, s2⟩ := p
          intro s' h
          cases h
          refine ⟨runFn_grows R hr ht hh _ _ _ _ _ _ _ hrun, fun lbl f name' file' r' hm => ?_⟩
          rw [List.mem_singleton] at hm
          cases hm
          exact ⟨seed, lines, s, s2, t.2.2, htm, hrun, hr _⟩
    · exact good_nil hr s [] (by simp)
  unfold runTests
  have hpre : ∀ (evs : List Model.HtMain.Event) (l : Int), (∀ lbl f name file r, .run lbl f name file r ∉ evs) → Good R sys fl st.w ((⟨evs, .ok l⟩ : Tr Int).bind fun lines => forEach (fun t st =>
      if on t.2.1 then
        forEach (fun name st =>
          if Model.Hashf.selected fl.c fl.h32 fl.h64 [name] = [] then ⟨[], .ok st⟩ else runOne sys fl seed file lines t name st) hf st
      else ⟨[], .ok st⟩) Model.HtMain.Tests st) := by
    intro evs l he s hs
    obtain ⟨h1, h2⟩ := hrest l s hs
    refine ⟨h1, fun lbl f name file r h => ?_⟩
    rcases List.mem_append.1 h with h | h
    · exact absurd h (he _ _ _ _ _)
    · exact h2 _ _ _ _ _ h
  have herr : ∀ (evs : List Model.HtMain.Event) (er : Fault) (g : Int → Tr (St ω)), Good R sys fl st.w ((⟨evs, .error er⟩ : Tr Int).bind g) := by
    intro evs er g s hs; exact nomatch hs
  dsimp only
  by_cases h1 : file ≠ ""
  · rw [if_pos h1]
    cases (if lines ≤ 0 then (Model.Ht.ReadFile (sys.files file)).out.map Int.ofNat else .ok lines) with
    | error er => exact herr _ _ _
    | ok l =>
      dsimp only
      by_cases h2 : fl.t0 = true
      · rw [if_pos h2]
        cases Model.HtMain.test0 sys fl seed file l with
        | error er => exact herr _ _ _
        | ok tb => exact hpre _ _ (by simp)
      · rw [if_neg h2]; exact hpre _ _ (by simp)
  · rw [if_neg h1]; exact hpre _ _ (by simp)

theorem good_switch (hr : ∀ w, R w w) (ht : ∀ a b c, R a b → R b c → R a c) (hh : ∀ w name k s h w', sys.hash w name k s = .ok (h, w') → R w w')
    (on : Flag → Bool) (b : Bool) (seed : Int) (st : St ω) : Good R sys fl st.w (mainSwitch sys fl on b seed st) := by
  unfold mainSwitch
  split
  · split
    · exact good_nil hr st _ (by intro lbl f name file r; simp [Model.HtMain.eachSelected])
    · exact good_nil hr st _ (by simp)
  · split
    · split
      · exact good_nil hr st _ (by intro lbl f name file r; simp [Model.HtMain.eachSelected])
      · split
        · exact good_nil hr st _ (by simp)
        · exact good_nil hr st _ (by simp)
    · split
      · exact good_runTests hr ht hh _ _ _ _ _ _
      · split
        · exact good_forEach hr ht _ _ (fun v _ s => good_runTests hr ht hh _ _ _ _ _ _) st
        · exact good_runTests hr ht hh _ _ _ _ _ _

theorem good_main (hr : ∀ w, R w w) (ht : ∀ a b c, R a b → R b c → R a c) (hh : ∀ w name k s h w', sys.hash w name k s = .ok (h, w') → R w w') (w : ω) :
    Good R sys fl w (main sys fl w) := by
  unfold main
  dsimp only
  split
  · split
    · exact good_nil hr ⟨w, fl.n, 0⟩ [] (by simp)
    · split
      · intro s h; exact nomatch h
      · exact good_switch hr ht hh _ _ _ ⟨w, fl.n, 0⟩
  · exact good_switch hr ht hh _ _ _ ⟨w, fl.n, 0⟩

end grows

/-- C143. The names `nullhash` and `nullhashF64ns` of `Hashf` are such counters: they count the calls under their name. -/
theorem C143_nullhash (e : Model.Hashf.Ext) (he : Ok e) (nextPrime : Int → Int) (files : String → Option Model.Ht.File) (rnd : Nat → U64) (cr : Option (List U8))
    (name : String) (hn : name = "nullhash" ∨ name = "nullhashF64ns") :
    Counts (fun w k s => (hashfSys e nextPrime files rnd cr).hash w name k s) fun hist => (hist.filter fun c => c.1 = name).length := by
  intro hist k s
  have hc : name ∈ Spec.Hashf.counters := by rcases hn with rfl | rfl <;> decide
  refine ⟨hist ++ [(name, k, s)], ?_, Lemmas.Hashf.count_next hist name k s⟩
  show (resultAfter e hist name k s).map _ = _
  rw [C81_history e he]
  unfold outcome
  rw [if_pos hc]
  rfl

/-- C143. Every complete run of the test program, with any command line, files, seeds and earlier calls: if by its end there have been fewer than
2^64 calls under `nullhash` (`nullhashF64ns`), every test it ran under that name reports no duplicates of either kind, and test M
the same number of integers in every bin, rounded down or up. -/
theorem C143_main (e : Model.Hashf.Ext) (he : Ok e) (nextPrime : Int → Int) (files : String → Option Model.Ht.File) (rnd : Nat → U64) (cr : Option (List U8))
    (fl : Flags) (hist : List (String × List U8 × U64)) (st : St (List (String × List U8 × U64)))
    (hout : (Model.HtMain.main (hashfSys e nextPrime files rnd cr) fl hist).out = .ok st)
    (name : String) (hn : name = "nullhash" ∨ name = "nullhashF64ns") (hl : (st.w.filter fun c => c.1 = name).length < 2 ^ 64)
    (lbl : String) (f : Flag) (file : String) (r : Result) (hm : .run lbl f name file r ∈ (Model.HtMain.main (hashfSys e nextPrime files rnd cr) fl hist).events) :
    r.ht.dups = 0 ∧ r.dups2 = 0 ∧ (f = .M → ∀ x ∈ r.hist, fl.ni.toNat / r.hist.length ≤ x ∧ x ≤ (fl.ni.toNat + r.hist.length - 1) / r.hist.length) := by
  obtain ⟨_, h2⟩ := good_main (R := fun a b : List (String × List U8 × U64) => a <+: b) (sys := hashfSys e nextPrime files rnd cr) (fl := fl) (fun w => List.prefix_rfl)
    (fun a b c => List.IsPrefix.trans) (by
      intro w name k s h w' hw
      change (resultAfter e w name k s).map _ = _ at hw
      cases hres : resultAfter e w name k s with
      | error er => rw [hres] at hw; exact nomatch hw
      | ok v => rw [hres] at hw; cases hw; exact List.prefix_append _ _) hist st hout
  obtain ⟨seed, lines, st1, st2, fn, h3, h4, h5⟩ := h2 _ _ _ _ _ hm
  have hc := C143_nullhash e he nextPrime files rnd cr name hn
  have hlen : (st2.w.filter fun c => c.1 = name).length ≤ (st.w.filter fun c => c.1 = name).length := (h5.sublist.filter _).length_le
  have h6 := C143_run hc seed file lines st1 st2 fn r h4 (lt_of_le_of_lt hlen hl)
  refine ⟨h6.1, h6.2.1, fun hf => h6.2.2 ?_⟩
  subst hf
  simp only [Model.HtMain.Tests, List.mem_cons, Prod.mk.injEq, List.not_mem_nil, or_false] at h3
  exact (by simpa using h3 : lbl = "TestL" ∧ fn = .M).2

/-- The command line `-hf=nullhash -M -ni=5 -n=3` (and without `-h32`). -/
def fiveIntegers : Flags := { allIntegers with h32 := false, hf := "nullhash", ni := 5, n := 3, on := fun f => f = .M }

/-- The program completes it with five calls and the bins 1, 2, 2. -/
example : ∃ st r, (Model.HtMain.main (hashfSys exampleExt id (fun _ => none) (fun _ => 0#64) none) fiveIntegers []).out = .ok st ∧ (st.w.filter fun c => c.1 = "nullhash").length = 5 ∧
    .run "TestL" .M "nullhash" "" r ∈ (Model.HtMain.main (hashfSys exampleExt id (fun _ => none) (fun _ => 0#64) none) fiveIntegers []).events ∧ r.hist = [1, 2, 2] := by
  refine ⟨_, _, rfl, by decide +kernel, (by unfold Model.HtMain.main; exact List.mem_singleton.2 rfl), by decide +kernel⟩

/-- Four equal keys under `nullhash` in a new chaining table of four buckets: one in each, and no duplicates counted. -/
example : ∃ ht0 : HT (List U8), newHashTable id 4 0 0 false false false = .ok ht0 ∧ ht0.buckets.length = 2 ^ 2 ∧
    ∃ w ht, insertAllF ⟨fun (n : Nat) _ _ => .ok (BitVec.ofNat 64 (n + 1), n + 1), fun _ => true⟩ 0 ht0 [[7], [7], [7], [7]] = .ok (w, ht) ∧ ht.buckets = [[[7]], [[7]], [[7]], [[7]]] ∧ ht.dups = 0 :=
  ⟨_, rfl, by decide, _, _, rfl, by decide, by decide⟩

example : Counts (fun (n : Nat) (_ : List U8) (_ : U64) => (.ok (BitVec.ofNat 64 (n + 1), n + 1) : Go (U64 × Nat))) id := fun w _ _ => ⟨w + 1, rfl, rfl⟩

end Verif.Props.Counter
