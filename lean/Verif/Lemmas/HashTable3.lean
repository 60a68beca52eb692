import Verif.Lemmas.HashTable2

/-! Open addressing: the invariant of a history of inserts. -/

namespace Verif.HashTable
open Verif Verif.Spec.HashTable

variable {κ : Type}

theorem mod_two {x n : Nat} (h : x < 2 * n) : x % n = if x < n then x else x - n := by
  split
  · exact Nat.mod_eq_of_lt ‹_›
  · rw [Nat.mod_eq_sub_mod (by omega)]; exact Nat.mod_eq_of_lt (by omega)

theorem dist_add {n a d : Nat} (ha : a < n) (hd : d < n) : dist n a ((a + d) % n) = d := by
  unfold dist
  rw [mod_two (x := a + d) (by omega)]
  split
  · rw [mod_two (by omega)]; split <;> omega
  · rw [mod_two (by omega)]; split <;> omega

theorem add_dist {n a b : Nat} (ha : a < n) (hb : b < n) : (a + dist n a b) % n = b := by
  unfold dist
  rw [mod_two (x := b + n - a) (by omega)]
  split
  · rw [mod_two (by omega)]; split <;> omega
  · rw [mod_two (by omega)]; split <;> omega

theorem dist_lt {n a b : Nat} (hn : 0 < n) : dist n a b < n := Nat.mod_lt _ hn

theorem flatten_set {bs : List (List κ)} {i : Nat} {k : κ} (hi : bs[i]? = some []) :
    (bs.set i [k]).flatten.Perm (bs.flatten ++ [k]) := by
  induction bs generalizing i with
  | nil => simp at hi
  | cons c cs ih =>
    cases i with
    | zero =>
      simp only [List.getElem?_cons_zero, Option.some.injEq] at hi
      subst hi
      simp only [List.set_cons_zero, List.flatten_cons, List.nil_append]
      exact List.perm_append_comm
    | succ i =>
      simp only [List.set_cons_succ, List.flatten_cons, List.append_assoc]
      exact List.Perm.append_left _ (ih (by simpa using hi))

theorem sumSlots_aux (f : Nat → κ → Nat) {bs : List (List κ)} {i : Nat} {k : κ}
    (hi : bs[i]? = some []) (j : Nat) :
    (((bs.set i [k]).zipIdx j).map fun p => (p.1.map (f p.2)).sum).sum =
      ((bs.zipIdx j).map fun p => (p.1.map (f p.2)).sum).sum + f (j + i) k := by
  induction bs generalizing i j with
  | nil => simp at hi
  | cons c cs ih =>
    cases i with
    | zero =>
      simp only [List.getElem?_cons_zero, Option.some.injEq] at hi
      subst hi
      simp [List.zipIdx_cons]; omega
    | succ i =>
      simp only [List.set_cons_succ, List.zipIdx_cons, List.map_cons, List.sum_cons]
      rw [ih (by simpa using hi)]
      have : j + 1 + i = j + (i + 1) := by omega
      rw [this]; omega

theorem sumSlots_set (f : Nat → κ → Nat) {bs : List (List κ)} {i : Nat} {k : κ}
    (hi : bs[i]? = some []) : sumSlots f (bs.set i [k]) = sumSlots f bs + f i k := by
  have := sumSlots_aux f (k := k) hi 0
  simpa [sumSlots] using this

theorem sumSlots_replicate (f : Nat → κ → Nat) (n : Nat) :
    sumSlots f (List.replicate n []) = 0 := by
  unfold sumSlots
  have : ∀ j, (((List.replicate n ([] : List κ)).zipIdx j).map fun p => (p.1.map (f p.2)).sum).sum = 0 := by
    induction n with
    | zero => intro j; rfl
    | succ n ih => intro j; rw [List.replicate_succ, List.zipIdx_cons]; simpa using ih (j + 1)
  exact this 0

theorem flatten_length_full {bs : List (List κ)} (h : ∀ b ∈ bs, b ≠ []) :
    bs.length ≤ bs.flatten.length := by
  induction bs with
  | nil => simp
  | cons c cs ih =>
    have h1 := ih (fun b hb => h b (by simp [hb]))
    have h2 : 0 < c.length := List.length_pos_iff.2 (h c (by simp))
    simp only [List.length_cons, List.flatten_cons, List.length_append]; omega

theorem flatten_length_le {bs : List (List κ)} (h : ∀ b ∈ bs, b.length ≤ 1) :
    bs.flatten.length = occupied bs := by
  induction bs with
  | nil => simp [occupied]
  | cons c cs ih =>
    have h1 := ih (fun b hb => h b (by simp [hb]))
    have h2 := h c (by simp)
    simp only [occupied, List.flatten_cons, List.length_append, List.countP_cons] at h1 ⊢
    cases c with
    | nil => simpa using h1
    | cons a as => cases as with
      | nil => rw [h1]; simp; omega
      | cons b bs => simp at h2

structure OAInv (H : κ → U64 → U64) (prime : Bool) (size seed : U64) (done : List κ) (ht : HT κ) :
    Prop where
  wf : WF ht
  oa : ht.oa = true
  hprime : ht.prime = prime
  hsize : ht.size = size
  hseed : ht.seed = seed
  len1 : ∀ b ∈ ht.buckets, b.length ≤ 1
  perm : ht.buckets.flatten.Perm done
  probe : ∀ i k, ht.buckets[i]? = some [k] →
    ∀ d, d < dist size.toNat (homeOf prime size.toNat (H k seed)) i →
      ht.buckets[(homeOf prime size.toNat (H k seed) + d) % size.toNat]? ≠ some []
  inserts : ht.inserts = done.length
  heads : ht.heads = done.length
  probes : ht.probes = done.length +
    sumSlots (fun i k => if homeOf prime size.toNat (H k seed) = i then 0 else 1) ht.buckets
  cols : ht.cols +
    sumSlots (fun i k => if homeOf prime size.toNat (H k seed) = i then 0 else 1) ht.buckets =
      sumSlots (fun i k => dist size.toNat (homeOf prime size.toNat (H k seed)) i) ht.buckets
  dups : ht.dups = eqPairs (done.map (fun k => H k seed))
  nbl : ht.nbuckets = 0 ∧ ht.longestChain = 0

/-- In a table that is not full the scan from any home finds a free slot. -/
theorem exists_free {bs : List (List κ)} {n a : Nat} (ha : a < n)
    (hlen : bs.length = n) (hfree : ∃ b ∈ bs, b = []) :
    ∃ d, d < n ∧ bs[(a + d) % n]? = some [] ∧ ∀ m, m < d → bs[(a + m) % n]? ≠ some [] := by
  obtain ⟨b, hb, rfl⟩ := hfree
  obtain ⟨j, hj, hbj⟩ := List.getElem_of_mem hb
  have h1 : bs[(a + dist n a j) % n]? = some [] := by
    rw [add_dist ha (by omega), List.getElem?_eq_getElem hj, hbj]
  obtain ⟨d, hd, hmin⟩ := least_of_exists
    (P := fun d => bs[(a + d) % n]? = some []) ⟨_, h1⟩
  refine ⟨d, ?_, hd, hmin⟩
  rcases Nat.lt_or_ge d n with h | h
  · exact h
  · exact absurd h1 (hmin _ (Nat.lt_of_lt_of_le (dist_lt (by omega)) h))

theorem scanned_count {bs : List (List κ)} {n a d : Nat} (p : κ → Bool) (ha : a < n) (hd : d < n)
    (hlen : bs.length = n) (hl1 : ∀ b ∈ bs, b.length ≤ 1)
    (hout : ∀ m k, d ≤ m → m < n → bs[(a + m) % n]? = some [k] → p k = false) :
    (scanned bs n a d).countP p = bs.flatten.countP p := by
  have hrot : ∀ e, e < n → (bs.drop a ++ bs.take a)[e]? = bs[(a + e) % n]? := by
    intro e he
    rw [mod_two (x := a + e) (by omega)]
    split
    · rw [List.getElem?_append_left (by simp; omega), List.getElem?_drop]
    · rw [List.getElem?_append_right (by simp; omega), List.getElem?_take_of_lt (by simp; omega)]
      congr 1; simp; omega
  have hrl : (bs.drop a ++ bs.take a).length = n := by simp; omega
  have hperm : (bs.drop a ++ bs.take a).flatten.Perm bs.flatten := by
    conv => rhs; rw [← List.take_append_drop a bs]
    rw [List.flatten_append, List.flatten_append]
    exact List.perm_append_comm
  rw [← hperm.countP_eq p]
  generalize hr : bs.drop a ++ bs.take a = rot at hrot hrl
  have hmem : ∀ b ∈ rot, b.length ≤ 1 := by
    intro b hb
    rw [← hr] at hb
    rcases List.mem_append.1 hb with h | h
    · exact hl1 b (List.mem_of_mem_drop h)
    · exact hl1 b (List.mem_of_mem_take h)
  have hsc : scanned bs n a d = (rot.take d).flatten := by
    have : rot.take d = (List.range d).map fun e => ((bs[(a + e) % n]?).getD []).take 1 := by
      apply List.ext_getElem?
      intro i
      by_cases hi : i < d
      · rw [List.getElem?_take_of_lt hi, List.getElem?_map, List.getElem?_range hi, Option.map_some,
          ← hrot i (by omega), List.getElem?_eq_getElem (by omega : i < rot.length),
          Option.getD_some, List.take_of_length_le (hmem _ (List.getElem_mem _))]
      · rw [List.getElem?_eq_none (by simp; omega), List.getElem?_eq_none (by simp; omega)]
    rw [this, scanned, List.flatMap_def]
  rw [hsc]
  conv => rhs; rw [← List.take_append_drop d rot]
  rw [List.flatten_append, List.countP_append]
  have : (rot.drop d).flatten.countP p = 0 := by
    rw [List.countP_eq_zero]
    intro k hk
    obtain ⟨b, hb, hkb⟩ := List.mem_flatten.1 hk
    obtain ⟨j, hj, hbj⟩ := List.getElem_of_mem hb
    simp only [List.length_drop] at hj
    have hjn : d + j < n := by omega
    have h1 := hrot (d + j) hjn
    have h2 : rot[d + j]? = some b := by
      rw [List.getElem?_eq_getElem (by omega), ← hbj, List.getElem_drop]
    have h3 : b = [k] := by
      have := hmem b (by rw [← hbj, List.getElem_drop]; exact List.getElem_mem _)
      cases b with
      | nil => simp at hkb
      | cons x xs => cases xs with
        | nil => simp at hkb; rw [hkb]
        | cons y ys => simp at this
    rw [h2, h3] at h1
    rw [hout (d + j) k (by omega) hjn h1.symm]
    simp
  omega

theorem oa_step {H : κ → U64 → U64} {tr : κ → Bool} {prime : Bool} {size seed : U64}
    {done : List κ} {ht : HT κ} {k : κ} (h : OAInv H prime size seed done ht)
    (hroom : done.length < size.toNat) (hk : tr k = true) :
    ∃ ht', insert (pureEnv H tr) () ht k = .ok ((), ht') ∧
      OAInv H prime size seed (done ++ [k]) ht' := by
  have hpos : 0 < size.toNat := by omega
  have hlen : ht.buckets.length = size.toNat := by rw [h.wf.len, h.hsize]
  have hhlt : ∀ k, homeOf prime size.toNat (H k seed) < size.toNat := fun k => homeOf_lt _ hpos _
  have hfree : ∃ b ∈ ht.buckets, b = [] := by
    apply Classical.byContradiction
    intro hno
    have := flatten_length_full (bs := ht.buckets) (fun b hb e => hno ⟨b, hb, e⟩)
    rw [h.perm.length_eq] at this
    omega
  obtain ⟨d, hd, hemp, hmin⟩ := exists_free (hhlt k) hlen hfree
  obtain ⟨idx, hidx, he⟩ := insert_eq (e := pureEnv H tr) (w := ()) (k := k) h.wf
  have hhome : ht.home ((pureEnv H tr).hash () k ht.seed).1 = homeOf prime size.toNat (H k seed) := by
    simp [HT.home, pureEnv, h.hprime, h.hsize, h.hseed]
  rw [hhome] at hidx
  have hhash : (pureEnv H tr).hash () k ht.seed = (H k seed, ()) := by simp [pureEnv, h.hseed]
  rw [hhash] at he
  have hwf' : WF { ht with inserts := ht.inserts + 1 } := ⟨h.wf.len, h.wf.mask, h.wf.pos⟩
  have hloop := loop_found (pureEnv H tr) k (H k seed) hk d (2 * ht.size.toNat + 1) ()
    { ht with inserts := ht.inserts + 1 } idx 0 0 size.toNat hwf' h.oa (by simp [h.hsize])
    (by rw [hidx]; exact hhlt k) (by rw [h.hsize]; omega) (by omega)
    (by rw [hidx]; have := hhlt k; omega)
    (by rw [hidx]; exact hmin) (by rw [hidx]; exact hemp)
  rw [hidx] at hloop
  rw [he, hloop]
  refine ⟨_, rfl, ?_⟩
  have hhk := hhlt k
  generalize hhm : homeOf prime size.toNat (H k seed) = a at *
  have hsl : (a + d) % size.toNat < ht.buckets.length := by rw [hlen]; exact Nat.mod_lt _ hpos
  -- a slot never becomes empty
  have hkeep : ∀ j : Nat, ht.buckets[j]? ≠ some [] →
      (ht.buckets.set ((a + d) % size.toNat) [k])[j]? ≠ some [] := by
    intro j hj
    by_cases hjj : (a + d) % size.toNat = j
    · rw [hjj, List.getElem?_set_self (by omega)]; simp
    · rw [List.getElem?_set_ne hjj]; exact hj
  have hcount : (scanned ht.buckets size.toNat a d).countP (fun k' => H k' seed = H k seed) =
      done.countP (fun k' => H k' seed = H k seed) := by
    rw [scanned_count _ hhk hd hlen h.len1, h.perm.countP_eq]
    intro m k' hm hmn hmk
    rw [decide_eq_false_iff_not]
    intro heq
    have hm' : homeOf prime size.toNat (H k' seed) = a := by rw [heq, hhm]
    have hp := h.probe _ k' hmk
    rw [hm', dist_add hhk hmn] at hp
    rcases Nat.lt_or_ge d m with h1 | h1
    · exact hp d h1 hemp
    · have : m = d := by omega
      subst this
      rw [hmk] at hemp; simp at hemp
  have hd0 : ((a + d) % size.toNat = a) ↔ d = 0 := by
    constructor
    · intro heq
      have := dist_add hhk hd
      rw [heq] at this
      rw [← this, dist, mod_two (by omega)]; split <;> omega
    · intro h0; subst h0; exact Nat.mod_eq_of_lt hhk
  refine ⟨⟨by simpa using h.wf.len, h.wf.mask, h.wf.pos⟩, h.oa, h.hprime, h.hsize, h.hseed,
    ?_, ?_, ?_, ?_, ?_, ?_, ?_, ?_, h.nbl⟩
  · intro b hb
    rcases List.mem_or_eq_of_mem_set hb with h1 | h1
    · exact h.len1 b h1
    · rw [h1]; simp
  · exact (flatten_set hemp).trans (h.perm.append_right [k])
  · intro i k' hik e hlt
    dsimp only at hik ⊢
    by_cases hii : (a + d) % size.toNat = i
    · rw [← hii, List.getElem?_set_self hsl] at hik
      simp only [Option.some.injEq, List.cons.injEq, and_true] at hik
      subst hik
      rw [hhm] at hlt ⊢
      rw [← hii, dist_add hhk hd] at hlt
      exact hkeep _ (hmin e hlt)
    · rw [List.getElem?_set_ne hii] at hik
      exact hkeep _ (h.probe i k' hik e hlt)
  · simp [h.inserts]
  · simp [h.heads]
  · dsimp only
    rw [sumSlots_set _ hemp, h.probes, hhm]
    simp only [List.length_append, List.length_singleton, true_and]
    by_cases h0 : d = 0
    · rw [if_pos (hd0.2 h0).symm]; simp [h0]; omega
    · have hne : ¬ a = (a + d) % size.toNat := fun e => h0 (hd0.1 e.symm)
      simp only [hne, h0, ne_eq, not_false_eq_true, if_true, if_false]; omega
  · dsimp only
    rw [sumSlots_set _ hemp, sumSlots_set _ hemp, hhm, dist_add hhk hd]
    have := h.cols
    by_cases h0 : d = 0
    · rw [if_pos (hd0.2 h0).symm]; simp [h0]; omega
    · have hne : ¬ a = (a + d) % size.toNat := fun e => h0 (hd0.1 e.symm)
      simp only [hne, if_true, if_false]; omega
  · dsimp only
    rw [scanDups_pure, h.hseed, hcount, List.map_append, List.map_singleton, eqPairs_snoc, h.dups,
      List.countP_map]
    rfl

end Verif.HashTable
