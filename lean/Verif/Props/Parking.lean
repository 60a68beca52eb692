import Verif.Lemmas.Parking2

/-! Properties C130 and C131: the order of the inserts, and what linear probing costs. -/

namespace Verif.Props.Parking
open Verif Verif.HashTable Verif.Spec.HashTable Verif.Parking

variable {κ : Type}

/-! ## C130 -/

theorem eqPairs_perm {α : Type} [DecidableEq α] {l l' : List α} (h : l.Perm l') : eqPairs l = eqPairs l' := by
  induction h with
  | nil => rfl
  | cons x p ih => rw [eqPairs, eqPairs, ih, p.countP_eq]
  | swap x y l =>
    simp only [eqPairs, List.countP_cons, decide_eq_true_eq]
    by_cases h : x = y
    · subst h; simp
    · rw [if_neg h, if_neg (fun e => h e.symm)]; omega
  | trans _ _ a b => exact a.trans b

theorem longest_map (bs : List (List κ)) : longest bs = (bs.map List.length).foldr max 0 := by
  rw [longest, List.foldr_map]

theorem occupied_map (bs : List (List κ)) : occupied bs = (bs.map List.length).countP fun n => decide (n ≠ 0) := by
  rw [occupied, List.countP_map]
  congr 1
  funext b
  cases b <;> rfl

/-- Chaining: the order of the inserts changes the order within a bucket, and nothing else. -/
theorem C130_chain (H : κ → U64 → U64) (np : Int → Int)
    (size seed extra : Int) (pd prime : Bool) (ht0 : HT κ) (ks ks' : List κ) (hp : ks.Perm ks')
    (hnew : newHashTable np size seed extra pd false prime = .ok ht0)
    (hpos : 0 < ht0.buckets.length) :
    ∃ ht ht', insertAll (pureEnv H (fun _ => true)) () ht0 ks = .ok ((), ht) ∧
      insertAll (pureEnv H (fun _ => true)) () ht0 ks' = .ok ((), ht') ∧
      ht.buckets.length = ht'.buckets.length ∧
      (∀ (i : Nat) (b b' : List κ), ht.buckets[i]? = some b → ht'.buckets[i]? = some b' → b.Perm b') ∧
      ht.inserts = ht'.inserts ∧ ht.probes = ht'.probes ∧ ht.cols = ht'.cols ∧ ht.heads = ht'.heads ∧
      ht.nbuckets = ht'.nbuckets ∧ ht.longestChain = ht'.longestChain ∧ ht.dups = ht'.dups ∧
      hashQuality ht = hashQuality ht' := by
  obtain ⟨ht, h1, h2⟩ := C04_chain_contents H np size seed extra pd prime ht0 ks hnew hpos
  obtain ⟨ht', h1', h2'⟩ := C04_chain_contents H np size seed extra pd prime ht0 ks' hnew hpos
  obtain ⟨_, a, e1, a1, a2, a3, a4, a5, a6⟩ := C05_chain_stats (pureEnv H (fun _ => true)) (fun _ => rfl)
    np size seed extra pd prime ht0 () ks hnew hpos
  obtain ⟨_, a', e1', a1', a2', a3', a4', a5', a6'⟩ := C05_chain_stats (pureEnv H (fun _ => true)) (fun _ => rfl)
    np size seed extra pd prime ht0 () ks' hnew hpos
  obtain ⟨b, f1, b1⟩ := C06_chain_dups H np size seed extra pd prime ht0 ks hnew hpos
  obtain ⟨b', f1', b1'⟩ := C06_chain_dups H np size seed extra pd prime ht0 ks' hnew hpos
  rw [h1] at e1 f1
  rw [h1'] at e1' f1'
  cases e1; cases f1; cases e1'; cases f1'
  have hl := hp.length_eq
  have hm : ht.buckets.map List.length = ht'.buckets.map List.length := by
    rw [h2, h2', List.map_map, List.map_map]
    apply List.map_congr_left
    intro i _
    exact (hp.filter _).length_eq
  have hoc : occupied ht.buckets = occupied ht'.buckets := by rw [occupied_map, occupied_map, hm]
  have hlo : longest ht.buckets = longest ht'.buckets := by rw [longest_map, longest_map, hm]
  have hsz : ht.size = ht'.size := by
    have g : ∀ (l : List κ) (x : HT κ), insertAll (pureEnv H (fun _ => true)) () ht0 l = .ok ((), x) → x.size = ht0.size := by
      intro l x hx
      rcases insertAll_same (e := pureEnv H (fun _ => true)) (fun _ => rfl) l () ht0
        (newHashTable_wf hnew hpos) _ hx with ⟨_, _, ha, hb⟩ | ⟨_, hb⟩
      · cases ha; exact hb.size
      · cases hb
    rw [g _ _ h1, g _ _ h1']
  have hq : hashQuality ht = hashQuality ht' := by
    unfold hashQuality
    simp only [quality_fold]
    have hm2 : (ht.buckets.map fun b => b.length * (b.length + 1)) = ht'.buckets.map fun b => b.length * (b.length + 1) := by
      have := congrArg (List.map fun n => n * (n + 1)) hm
      rw [List.map_map, List.map_map] at this
      exact this
    rw [hm2, a1, a1', hl, hsz]
  refine ⟨ht, ht', h1, h1', by rw [h2, h2']; simp, ?_, by rw [a1, a1', hl], by rw [a2, a2', hl], by rw [a3, a3'],
    by rw [a4, a4', hoc], by rw [a5, a5', hl, a4, a4', hoc], by rw [a6, a6', hlo], ?_, hq⟩
  · intro i b b' hb hb'
    rw [h2, List.getElem?_map] at hb
    rw [h2', List.getElem?_map] at hb'
    rcases hr : (List.range ht0.buckets.length)[i]? with _ | j
    · rw [hr] at hb; cases hb
    · rw [hr] at hb hb'
      simp only [Option.map_some, Option.some.injEq] at hb hb'
      rw [← hb, ← hb']
      exact hp.filter _
  · rw [b1, b1']; exact eqPairs_perm (hp.map _)

/-- C130_chain at work: `[1]` and `[5]` share a bucket; the other order gives the same statistics. -/
example : ∃ ht0 ht ht' : HT (List U8), newHashTable id 3 0 0 false false false = .ok ht0 ∧
    insertAll (pureEnv (fun k _ => BitVec.ofNat 64 (leNat k)) (fun _ => true)) () ht0 [[1], [5], [2]] = .ok ((), ht) ∧
    insertAll (pureEnv (fun k _ => BitVec.ofNat 64 (leNat k)) (fun _ => true)) () ht0 [[5], [2], [1]] = .ok ((), ht') ∧ ht.longestChain = ht'.longestChain :=
  have ⟨_, _, h1, h2, _, _, _, _, _, _, _, h3, _⟩ := C130_chain (fun k _ => BitVec.ofNat 64 (leNat k)) id 3 0 0 false false _ [[1], [5], [2]] [[5], [2], [1]] (by decide) rfl (by decide)
  ⟨_, _, _, rfl, h1, h2, h3⟩

/-- What open addressing leaves behind, in terms of the home slots alone. -/
structure Sim (H : κ → U64 → U64) (prime : Bool) (size seed : U64) (done : List κ) (ht : HT κ) : Prop where
  inv : OAInv H prime size seed done ht
  slots : ∀ i < size.toNat, ht.buckets[i]? ≠ some [] ↔ i ∈ (parkAll size.toNat (done.map fun k => homeOf prime size.toNat (H k seed))).1
  probes : ht.probes = done.length + missed size.toNat (done.map fun k => homeOf prime size.toNat (H k seed))
  cols : ht.cols + missed size.toNat (done.map fun k => homeOf prime size.toNat (H k seed)) =
    walked size.toNat (done.map fun k => homeOf prime size.toNat (H k seed))

theorem sim_step {H : κ → U64 → U64} {prime : Bool} {size seed : U64}
    {done : List κ} {ht : HT κ} {k : κ} (hsim : Sim H prime size seed done ht)
    (hroom : done.length < size.toNat) :
    ∃ ht', insert (pureEnv H (fun _ => true)) () ht k = .ok ((), ht') ∧
      Sim H prime size seed (done ++ [k]) ht' := by
  have h := hsim.inv
  obtain ⟨ht', hins, hinv'⟩ := oa_step (tr := fun _ => true) (k := k) h hroom rfl
  suffices hh : (∀ i < size.toNat, ht'.buckets[i]? ≠ some [] ↔ i ∈ (parkAll size.toNat ((done ++ [k]).map fun k => homeOf prime size.toNat (H k seed))).1) ∧
      ht'.probes = (done ++ [k]).length + missed size.toNat ((done ++ [k]).map fun k => homeOf prime size.toNat (H k seed)) ∧
      ht'.cols + missed size.toNat ((done ++ [k]).map fun k => homeOf prime size.toNat (H k seed)) =
        walked size.toNat ((done ++ [k]).map fun k => homeOf prime size.toNat (H k seed)) from
    ⟨ht', hins, hinv', hh.1, hh.2.1, hh.2.2⟩
  have hpos : 0 < size.toNat := by omega
  have hlen : ht.buckets.length = size.toNat := by rw [h.wf.len, h.hsize]
  have hhlt : ∀ k, homeOf prime size.toNat (H k seed) < size.toNat := fun k => HashTable.homeOf_lt _ hpos _
  generalize hL : done.map (fun k => homeOf prime size.toNat (H k seed)) = L at *
  have hL1 : ∀ a ∈ L, a < size.toNat := by
    intro a ha; rw [← hL, List.mem_map] at ha; obtain ⟨k, _, rfl⟩ := ha; exact hhlt k
  have hLl : L.length = done.length := by rw [← hL, List.length_map]
  have hok := parkAll_ok size.toNat L hL1 (by omega)
  obtain ⟨_, hst⟩ := parkOne_ok hok (hhlt k) (by omega)
  have hLs : (done ++ [k]).map (fun k => homeOf prime size.toNat (H k seed)) = L ++ [homeOf prime size.toNat (H k seed)] := by
    rw [List.map_append, hL]; rfl
  have s1 := hsim.slots
  have s2 := hsim.probes
  have s3 := hsim.cols
  rw [hL] at s1 s2 s3
  rw [hLs, missed_snoc, walked_snoc _ hpos, parkAll_snoc]
  simp only [parkOne]
  generalize hd : steps size.toNat (parkAll size.toNat L).1 (homeOf prime size.toNat (H k seed)) = d at *
  have hmod : ∀ e, (homeOf prime size.toNat (H k seed) + e) % size.toNat < size.toNat := fun e => Nat.mod_lt _ hpos
  have hmin : ∀ m, m < d → ht.buckets[(homeOf prime size.toNat (H k seed) + m) % size.toNat]? ≠ some [] :=
    fun m hm => (s1 _ (hmod m)).2 (hst.full m hm)
  have hemp : ht.buckets[(homeOf prime size.toNat (H k seed) + d) % size.toNat]? = some [] :=
    Classical.byContradiction fun hne => hst.free ((s1 _ (hmod d)).1 hne)
  obtain ⟨idx, hidx, he⟩ := insert_eq (e := pureEnv H (fun _ => true)) (w := ()) (k := k) h.wf
  have hhome : ht.home ((pureEnv H (fun _ => true)).hash () k ht.seed).1 = homeOf prime size.toNat (H k seed) := by
    simp [HT.home, pureEnv, h.hprime, h.hsize, h.hseed]
  rw [hhome] at hidx
  have hhash : (pureEnv H (fun _ => true)).hash () k ht.seed = (H k seed, ()) := by simp [pureEnv, h.hseed]
  rw [hhash] at he
  have hwf' : WF { ht with inserts := ht.inserts + 1 } := ⟨h.wf.len, h.wf.mask, h.wf.pos⟩
  have hloop := loop_found (pureEnv H (fun _ => true)) k (H k seed) rfl d (2 * ht.size.toNat + 1) ()
    { ht with inserts := ht.inserts + 1 } idx 0 0 size.toNat hwf' h.oa (by simp [h.hsize])
    (by rw [hidx]; exact hhlt k) (by rw [h.hsize]; have := hst.lt; omega) (by omega)
    (by rw [hidx]; have := hhlt k; have := hst.lt; omega)
    (by rw [hidx]; exact hmin) (by rw [hidx]; exact hemp)
  rw [hidx] at hloop
  rw [he, hloop] at hins
  have hht := congrArg Prod.snd (Except.ok.inj hins)
  dsimp only at hht
  have hb : ht'.buckets = ht.buckets.set ((homeOf prime size.toNat (H k seed) + d) % size.toNat) [k] := by rw [← hht]
  have hpr : ht'.probes = ht.probes + (if d ≠ 0 then 2 else 1) := by rw [← hht]; simp
  have hco : ht'.cols = ht.cols + (d - 1) := by rw [← hht]; simp
  have hmiss : homeOf prime size.toNat (H k seed) ∈ (parkAll size.toNat L).1 ↔ d ≠ 0 := by
    have e0 : (homeOf prime size.toNat (H k seed) + 0) % size.toNat = homeOf prime size.toNat (H k seed) := by
      rw [Nat.add_zero, Nat.mod_eq_of_lt (hhlt k)]
    constructor
    · rintro hm rfl
      exact hst.free (by rw [e0]; exact hm)
    · intro h0
      have := hst.full 0 (by omega)
      rwa [e0] at this
  refine ⟨?_, ?_, ?_⟩
  · intro i hi
    rw [hb, Finset.mem_insert, ← s1 i hi]
    by_cases hii : (homeOf prime size.toNat (H k seed) + d) % size.toNat = i
    · rw [hii, List.getElem?_set_self (by omega)]; simp
    · rw [List.getElem?_set_ne hii]
      exact ⟨Or.inr, fun x => x.resolve_left fun y => hii y.symm⟩
  · rw [hpr, s2, List.length_append, List.length_singleton]
    simp only [hmiss]
    by_cases h0 : d = 0
    · simp [h0]; omega
    · simp [h0]; omega
  · rw [hco]
    simp only [hmiss]
    by_cases h0 : d = 0
    · simp [h0]; omega
    · simp [h0]; omega

theorem sim_main (H : κ → U64 → U64) (np : Int → Int)
    (size seed extra : Int) (pd prime : Bool) (ht0 : HT κ) (ks : List κ)
    (hnew : newHashTable np size seed extra pd true prime = .ok ht0)
    (hpos : 0 < ht0.buckets.length) (hroom : ks.length ≤ ht0.buckets.length) :
    ∃ ht, insertAll (pureEnv H (fun _ => true)) () ht0 ks = .ok ((), ht) ∧
      Sim H prime ht0.size ht0.seed ks ht := by
  obtain ⟨x, hx, hinv⟩ := oa_main H (fun _ => true) np size seed extra pd prime ht0 [] (by simp) hnew (by simp) hpos
  have hx0 : ht0 = x := congrArg Prod.snd (Except.ok.inj hx)
  subst hx0
  have hok := newHashTable_ok hnew
  have wf := newHashTable_wf hnew hpos
  have h0 : Sim H prime ht0.size ht0.seed [] ht0 := by
    refine ⟨hinv, ?_, ?_, ?_⟩
    · intro i hi
      rw [hok.1, List.getElem?_replicate, if_pos (by omega)]
      simp [parkAll]
    · rw [hinv.probes, hok.1, sumSlots_replicate]; simp [missed]
    · have := hinv.cols
      rw [hok.1, sumSlots_replicate, sumSlots_replicate] at this
      simp [missed, walked, parkAll]; omega
  obtain ⟨w, ht, h1, h2⟩ := insertAll_ind (e := pureEnv H (fun _ => true)) ht0.size.toNat
    (fun done _ ht => Sim H prime ht0.size ht0.seed done ht)
    (fun done w ht k h hlt _ => by
      obtain ⟨ht', ha, hb⟩ := sim_step (k := k) h hlt
      exact ⟨(), ht', ha, hb⟩)
    ks [] () ht0 h0 (by simpa [wf.len] using hroom) (fun _ _ => rfl)
  exact ⟨ht, h1, by simpa using h2⟩

/-- Open addressing: whatever the order of the inserts, the same slots are taken, and `Inserts`, `Heads`, `Dups` and the
number of occupied slots stepped over (`Cols + Probes - Inserts`) are the same. -/
theorem C130_oa (H : κ → U64 → U64) (np : Int → Int)
    (size seed extra : Int) (pd prime : Bool) (ht0 : HT κ) (ks ks' : List κ) (hp : ks.Perm ks')
    (hnew : newHashTable np size seed extra pd true prime = .ok ht0)
    (hpos : 0 < ht0.buckets.length) (hroom : ks.length ≤ ht0.buckets.length) :
    ∃ ht ht', insertAll (pureEnv H (fun _ => true)) () ht0 ks = .ok ((), ht) ∧
      insertAll (pureEnv H (fun _ => true)) () ht0 ks' = .ok ((), ht') ∧
      (∀ i : Nat, ht.buckets[i]? = some [] ↔ ht'.buckets[i]? = some []) ∧ ht.buckets.flatten.Perm ht'.buckets.flatten ∧
      ht.inserts = ht'.inserts ∧ ht.heads = ht'.heads ∧ ht.dups = ht'.dups ∧ ht.cols + ht.probes = ht'.cols + ht'.probes := by
  obtain ⟨ht, h1, h2⟩ := sim_main H np size seed extra pd prime ht0 ks hnew hpos hroom
  obtain ⟨ht', h1', h2'⟩ := sim_main H np size seed extra pd prime ht0 ks' hnew hpos (by rw [← hp.length_eq]; exact hroom)
  have hlen := (newHashTable_wf hnew hpos).len
  have hL := hp.map fun k => homeOf prime ht0.size.toNat (H k ht0.seed)
  have hL1 : ∀ a ∈ ks.map (fun k => homeOf prime ht0.size.toNat (H k ht0.seed)), a < ht0.size.toNat := by
    intro a ha; rw [List.mem_map] at ha; obtain ⟨k, _, rfl⟩ := ha; exact HashTable.homeOf_lt _ (by omega) _
  have hLl : (ks.map fun k => homeOf prime ht0.size.toNat (H k ht0.seed)).length ≤ ht0.size.toNat := by
    rw [List.length_map]; omega
  refine ⟨ht, ht', h1, h1', ?_, ?_, ?_, ?_, ?_, ?_⟩
  · intro i
    have l1 : ht.buckets.length = ht0.size.toNat := by rw [h2.inv.wf.len, h2.inv.hsize]
    have l2 : ht'.buckets.length = ht0.size.toNat := by rw [h2'.inv.wf.len, h2'.inv.hsize]
    rcases Nat.lt_or_ge i ht0.size.toNat with hi | hi
    · apply not_iff_not.1
      have a1 := h2.slots i hi
      have a2 := h2'.slots i hi
      rw [parkAll_perm hL hL1 hLl] at a1
      exact a1.trans a2.symm
    · rw [List.getElem?_eq_none (by omega), List.getElem?_eq_none (by omega)]
  · exact h2.inv.perm.trans (hp.trans h2'.inv.perm.symm)
  · rw [h2.inv.inserts, h2'.inv.inserts, hp.length_eq]
  · rw [h2.inv.heads, h2'.inv.heads, hp.length_eq]
  · rw [h2.inv.dups, h2'.inv.dups]; exact eqPairs_perm (hp.map _)
  · have b1 := h2.cols
    have b2 := h2'.cols
    rw [h2.probes, h2'.probes, hp.length_eq]
    rw [walked_perm hL hL1 hLl] at b1
    omega

/-- C130_oa at work: the orders of C130_probes_violated step over the same number of slots. -/
example : ∃ ht0 ht ht' : HT (List U8), newHashTable id 3 0 0 false true false = .ok ht0 ∧
    insertAll (pureEnv (fun k _ => BitVec.ofNat 64 (leNat k)) (fun _ => true)) () ht0 [[0], [4], [1]] = .ok ((), ht) ∧
    insertAll (pureEnv (fun k _ => BitVec.ofNat 64 (leNat k)) (fun _ => true)) () ht0 [[0], [1], [4]] = .ok ((), ht') ∧ ht.cols + ht.probes = ht'.cols + ht'.probes :=
  have ⟨_, _, h1, h2, _, _, _, _, _, h3⟩ := C130_oa (fun k _ => BitVec.ofNat 64 (leNat k)) id 3 0 0 false false _ [[0], [4], [1]] [[0], [1], [4]] (by decide) rfl (by decide) (by decide)
  ⟨_, _, _, rfl, h1, h2, h3⟩


/-- But which of them count as `Probes` and which as `Cols` depends on the order. -/
theorem C130_probes_violated : ∃ (ht0 ht ht' : HT (List U8)) (ks ks' : List (List U8)) (H : List U8 → U64 → U64), ks.Perm ks' ∧
    newHashTable id 3 0 0 false true false = .ok ht0 ∧
    insertAll (pureEnv H (fun _ => true)) () ht0 ks = .ok ((), ht) ∧
    insertAll (pureEnv H (fun _ => true)) () ht0 ks' = .ok ((), ht') ∧
    (ht.probes, ht.cols) = (5, 0) ∧ (ht'.probes, ht'.cols) = (4, 1) :=
  ⟨_, _, _, [[0], [4], [1]], [[0], [1], [4]], fun k _ => BitVec.ofNat 64 (leNat k), by decide, rfl, rfl, rfl, by decide +kernel, by decide +kernel⟩

/-! ## C131 -/

/-- The flow of keys around the circle of `m` slots, `c h` of which start at slot `h`: a slot keeps one
of the keys that reach it and passes the others on. -/
def Flow (m : Nat) (c C : Nat → Nat) : Prop := ∀ h < m, C ((h + 1) % m) = C h + c h - 1

theorem flow_le {m : Nat} {c C D : Nat → Nat} (hC : Flow m c C) (hD : Flow m c D)
    (hsum : ∑ h ∈ Finset.range m, c h < m) : ∀ h < m, C h ≤ D h := by
  -- some slot stays empty in `C`
  have hz : ∃ e < m, C e + c e = 0 := by
    apply Classical.byContradiction
    intro hno
    have h1 : ∀ h ∈ Finset.range m, C ((h + 1) % m) + 1 = C h + c h := by
      intro h hh
      have := hC h (Finset.mem_range.1 hh)
      have h2 : C h + c h ≠ 0 := fun e => hno ⟨h, Finset.mem_range.1 hh, e⟩
      omega
    have h2 := Finset.sum_congr rfl h1
    rw [Finset.sum_add_distrib, Finset.sum_add_distrib, sum_rotate m C] at h2
    simp at h2
    omega
  obtain ⟨e, he, h0⟩ := hz
  have key : ∀ t, C ((e + 1 + t) % m) ≤ D ((e + 1 + t) % m) := by
    intro t
    induction t with
    | zero => rw [Nat.add_zero, hC e he, h0]; exact Nat.zero_le _
    | succ t ih =>
      have hlt : (e + 1 + t) % m < m := Nat.mod_lt _ (by omega)
      have a := hC _ hlt
      have b := hD _ hlt
      rw [Nat.mod_add_mod] at a b
      rw [← Nat.add_assoc, a, b]
      omega
  intro h hh
  have := key (h + m - (e + 1))
  rwa [show e + 1 + (h + m - (e + 1)) = h + m from by omega, Nat.add_mod_right, Nat.mod_eq_of_lt hh] at this

theorem flow_unique {m : Nat} {c C D : Nat → Nat} (hC : Flow m c C) (hD : Flow m c D)
    (hsum : ∑ h ∈ Finset.range m, c h < m) : ∀ h < m, C h = D h :=
  fun h hh => Nat.le_antisymm (flow_le hC hD hsum h hh) (flow_le hD hC hsum h hh)

theorem park_flow {m : Nat} {l : List Nat} (hl : ∀ a ∈ l, a < m) (hn : l.length ≤ m) :
    Flow m (fun h => l.count h) (parkAll m l).2 := by
  intro h hh
  obtain ⟨b1, b2⟩ := balance m l hl hn h hh
  show _ = (parkAll m l).2 h + l.count h - 1
  by_cases hz : 0 < (parkAll m l).2 h + l.count h
  · rw [if_pos (b2 hz)] at b1; omega
  · have : h ∉ (parkAll m l).1 := fun hm => by rw [if_pos hm] at b1; omega
    rw [if_neg this] at b1; omega

theorem count_load (home : κ → Nat) (ks : List κ) (h : Nat) :
    (ks.map home).count h = ks.countP fun k => home k = h := by
  rw [List.count, List.countP_map]
  rfl

/-- The loads of the buckets decide what open addressing costs: as long as a slot is free the flow exists and is unique, the
occupied slots stepped over are its total, and the free slots are those no key reaches. -/
theorem C131_flow (H : κ → U64 → U64) (np : Int → Int)
    (size seed extra : Int) (pd prime : Bool) (ht0 : HT κ) (ks : List κ)
    (hnew : newHashTable np size seed extra pd true prime = .ok ht0)
    (hroom : ks.length < ht0.buckets.length) :
    let m := ht0.buckets.length
    let c := fun h => ks.countP fun k => homeOf prime m (H k ht0.seed) = h
    ∃ ht, insertAll (pureEnv H (fun _ => true)) () ht0 ks = .ok ((), ht) ∧
      (∃ C, Flow m c C) ∧
      ∀ C, Flow m c C →
        ht.cols + (ht.probes - ht.inserts) = ∑ h ∈ Finset.range m, C h ∧
        ht.cols + (ht.probes - ht.inserts) = ∑ h ∈ Finset.range m, c h * C h + eqPairs (ks.map fun k => homeOf prime m (H k ht0.seed)) ∧
        ∀ h < m, ht.buckets[h]? = some [] ↔ C h + c h = 0 := by
  intro m c
  have hpos : 0 < ht0.buckets.length := by omega
  obtain ⟨ht, h1, h2⟩ := sim_main H np size seed extra pd prime ht0 ks hnew hpos (by omega)
  have hlen := (newHashTable_wf hnew hpos).len
  have hm : ht0.size.toNat = m := hlen.symm
  have i1 := h2.slots
  have i2 := h2.probes
  have i3 := h2.cols
  rw [hm] at i1 i2 i3
  generalize hLd : ks.map (fun k => homeOf prime m (H k ht0.seed)) = L at *
  have hL1 : ∀ a ∈ L, a < m := by
    intro a ha; rw [← hLd, List.mem_map] at ha; obtain ⟨k, _, rfl⟩ := ha; exact HashTable.homeOf_lt _ hpos _
  have hLl : L.length = ks.length := by rw [← hLd, List.length_map]
  have hc : ∀ h, L.count h = c h := by
    intro h; rw [← hLd]; exact count_load _ ks h
  have hf := park_flow hL1 (by omega)
  simp only [hc] at hf
  have hb := balance m L hL1 (by omega)
  have hsum : ∑ h ∈ Finset.range m, c h < m := by
    have := Quality.sum_load (fun k => homeOf prime m (H k ht0.seed)) m ks (fun k _ => HashTable.homeOf_lt _ hpos _)
    have e : ∀ h, Quality.load (fun k => homeOf prime m (H k ht0.seed)) ks h = c h := fun h => rfl
    simp only [e] at this
    rw [this]; exact hroom
  refine ⟨ht, h1, ⟨_, hf⟩, fun C hC => ?_⟩
  have hu := flow_unique hC hf hsum
  have hw : ∑ h ∈ Finset.range m, C h = walked m L := Finset.sum_congr rfl fun h hh => hu h (Finset.mem_range.1 hh)
  have hcost : ht.cols + (ht.probes - ht.inserts) = walked m L := by rw [i2, h2.inv.inserts]; omega
  refine ⟨by rw [hcost, hw], ?_, ?_⟩
  · rw [hcost, walked_eq m L hL1 (by omega)]
    congr 1
    exact Finset.sum_congr rfl fun h hh => by rw [hu h (Finset.mem_range.1 hh), hc]
  · intro h hh
    obtain ⟨b1, b2⟩ := hb h hh
    rw [hu h hh, ← hc]
    have := i1 h hh
    constructor
    · intro he
      apply Classical.byContradiction
      intro hne
      exact this.2 (b2 (by omega)) he
    · intro h0
      apply Classical.byContradiction
      intro hne
      rw [if_pos (this.1 hne)] at b1
      omega

/-- C131_flow at work: homes 0, 0, 1 of four slots; one key flows into slot 1 and one into slot 2. -/
example : ∃ ht0 ht : HT (List U8), newHashTable id 3 0 0 false true false = .ok ht0 ∧
    insertAll (pureEnv (fun k _ => BitVec.ofNat 64 (leNat k)) (fun _ => true)) () ht0 [[0], [4], [1]] = .ok ((), ht) ∧ ht.cols + (ht.probes - ht.inserts) = 2 :=
  have ⟨_, h1, _, h3⟩ := C131_flow (fun k _ => BitVec.ofNat 64 (leNat k)) id 3 0 0 false false _ [[0], [4], [1]] rfl (by decide)
  ⟨_, _, rfl, h1, (h3 (fun h => if h = 1 ∨ h = 2 then 1 else 0) (by unfold Flow; decide +kernel)).1.trans (by decide +kernel)⟩

/-- The runs of a family of hash functions that send key `i` to slot `f i`. -/
theorem runs (np : Int → Int) (size seed extra : Int) (pd prime : Bool) (ht0 : HT κ)
    (n : Nat) (key : Fin n → κ) (hn : n ≤ ht0.buckets.length)
    (hnew : newHashTable np size seed extra pd true prime = .ok ht0)
    (hpos : 0 < ht0.buckets.length)
    (H : (Fin n → Fin ht0.buckets.length) → κ → U64 → U64)
    (hH : ∀ f i, homeOf prime ht0.buckets.length (H f (key i) ht0.seed) = f i) :
    ∃ r : (Fin n → Fin ht0.buckets.length) → HT κ, ∀ f,
      insertAll (pureEnv (H f) (fun _ => true)) () ht0 (List.ofFn key) = .ok ((), r f) ∧ (r f).inserts = n ∧
      (r f).probes = n + missed ht0.buckets.length (homes f) ∧
      (r f).cols + ((r f).probes - (r f).inserts) = walked ht0.buckets.length (homes f) ∧
      ∀ i < ht0.buckets.length, (r f).buckets[i]? ≠ some [] ↔ i ∈ (parkAll ht0.buckets.length (homes f)).1 := by
  have : ∀ f, ∃ ht : HT κ, insertAll (pureEnv (H f) (fun _ => true)) () ht0 (List.ofFn key) = .ok ((), ht) ∧ ht.inserts = n ∧
      ht.probes = n + missed ht0.buckets.length (homes f) ∧
      ht.cols + (ht.probes - ht.inserts) = walked ht0.buckets.length (homes f) ∧
      ∀ i < ht0.buckets.length, ht.buckets[i]? ≠ some [] ↔ i ∈ (parkAll ht0.buckets.length (homes f)).1 := by
    intro f
    obtain ⟨ht, h1, h2⟩ := sim_main (H f) np size seed extra pd prime ht0 (List.ofFn key) hnew hpos (by rw [List.length_ofFn]; exact hn)
    have hlen := (newHashTable_wf hnew hpos).len
    have hm : ht0.size.toNat = ht0.buckets.length := hlen.symm
    have hh : ((List.ofFn key).map fun k => homeOf prime ht0.buckets.length (H f k ht0.seed)) = homes f := by
      rw [List.map_ofFn, homes]
      congr 1
      funext i
      exact hH f i
    have i1 := h2.slots
    have i2 := h2.probes
    have i3 := h2.cols
    have i4 := h2.inv.inserts
    rw [hm, hh] at i1 i2 i3
    rw [List.length_ofFn] at i2 i4
    exact ⟨ht, h1, i4, i2, by rw [i2, i4]; omega, i1⟩
  exact ⟨fun f => (this f).choose, fun f => (this f).choose_spec⟩

/-- Over all `Size^n` ways to send `n` keys to home slots: the mean of `Probes` is `n + n(n-1)/(2·Size)`. -/
theorem C131_probes (np : Int → Int) (size seed extra : Int) (pd prime : Bool) (ht0 : HT κ)
    (n : Nat) (key : Fin n → κ) (hn : n ≤ ht0.buckets.length)
    (hnew : newHashTable np size seed extra pd true prime = .ok ht0)
    (hpos : 0 < ht0.buckets.length)
    (H : (Fin n → Fin ht0.buckets.length) → κ → U64 → U64)
    (hH : ∀ f i, homeOf prime ht0.buckets.length (H f (key i) ht0.seed) = f i) :
    ∃ r : (Fin n → Fin ht0.buckets.length) → HT κ,
      (∀ f, insertAll (pureEnv (H f) (fun _ => true)) () ht0 (List.ofFn key) = .ok ((), r f)) ∧
      (∑ f, ((r f).probes : Rat)) / (ht0.buckets.length ^ n : Nat) = n + n * (n - 1) / (2 * ht0.buckets.length) := by
  obtain ⟨r, hr⟩ := runs np size seed extra pd prime ht0 n key hn hnew hpos H hH
  refine ⟨r, fun f => (hr f).1, ?_⟩
  have h1 := sum_missed n hn
  have h2 : (2 * ((ht0.buckets.length : Rat) * ∑ f : Fin n → Fin ht0.buckets.length, (missed ht0.buckets.length (homes f) : Rat))) =
      n * (n - 1) * (ht0.buckets.length : Rat) ^ n := by
    have := congrArg (Nat.cast (R := Rat)) h1
    rcases Nat.eq_zero_or_pos n with h0 | h0
    · subst h0; simp at this ⊢; exact this
    · push_cast [Nat.cast_sub h0] at this
      exact this
  have hm : (ht0.buckets.length : Rat) ≠ 0 := by exact_mod_cast (by omega : ht0.buckets.length ≠ 0)
  have hs : ∑ f, ((r f).probes : Rat) = (ht0.buckets.length : Rat) ^ n * n + ∑ f : Fin n → Fin ht0.buckets.length, (missed ht0.buckets.length (homes f) : Rat) := by
    simp only [fun f => (hr f).2.2.1]
    push_cast
    rw [Finset.sum_add_distrib, Finset.sum_const, Finset.card_univ, Fintype.card_fun, Fintype.card_fin, Fintype.card_fin, nsmul_eq_mul]
    push_cast
    rfl
  rw [hs]
  push_cast
  have hp := pow_ne_zero n hm
  rw [div_eq_iff hp]
  field_simp
  linear_combination h2

/-- C131_probes at work: two keys, four slots, all sixteen assignments. -/
example : ∃ ht0 : HT (Fin 2), newHashTable id 3 0 0 false true false = .ok ht0 ∧ ∃ r : (Fin 2 → Fin 4) → HT (Fin 2),
    (∀ f, insertAll (pureEnv (fun k _ => BitVec.ofNat 64 (f k).val) (fun _ => true)) () ht0 (List.ofFn id) = .ok ((), r f)) ∧
    (∑ f, ((r f).probes : Rat)) / (4 ^ 2 : Nat) = 9 / 4 :=
  have ⟨r, h1, h2⟩ := C131_probes id 3 0 0 false false _ 2 id (by decide) rfl (by decide) (fun f k _ => BitVec.ofNat 64 (f k).val)
    (fun f i => by
      have : ∀ a : Fin 4, homeOf false 4 (BitVec.ofNat 64 a.val) = a := by decide
      exact this (f i))
  ⟨_, rfl, r, h1, h2.trans (by decide +kernel)⟩

/-- Over all `Size^n` ways to send `n` keys to home slots: the mean number of occupied slots stepped over is Knuth's
`1/2 · ∑ n(n-1)…(n-k-1) / Size^(k+1)`. -/
theorem C131_walk (np : Int → Int) (size seed extra : Int) (pd prime : Bool) (ht0 : HT κ)
    (n : Nat) (key : Fin n → κ) (hn : n ≤ ht0.buckets.length)
    (hnew : newHashTable np size seed extra pd true prime = .ok ht0)
    (hpos : 0 < ht0.buckets.length)
    (H : (Fin n → Fin ht0.buckets.length) → κ → U64 → U64)
    (hH : ∀ f i, homeOf prime ht0.buckets.length (H f (key i) ht0.seed) = f i) :
    ∃ r : (Fin n → Fin ht0.buckets.length) → HT κ,
      (∀ f, insertAll (pureEnv (H f) (fun _ => true)) () ht0 (List.ofFn key) = .ok ((), r f)) ∧
      (∑ f, (((r f).cols + ((r f).probes - (r f).inserts) : Nat) : Rat)) / (ht0.buckets.length ^ n : Nat) =
        1 / 2 * ∑ k ∈ Finset.range n, (n.descFactorial (k + 2) : Rat) / ht0.buckets.length ^ (k + 1) := by
  obtain ⟨r, hr⟩ := runs np size seed extra pd prime ht0 n key hn hnew hpos H hH
  refine ⟨r, fun f => (hr f).1, ?_⟩
  have h1 := congrArg (Nat.cast (R := Rat)) (sum_walked n hn)
  push_cast at h1
  simp only [fun f => (hr f).2.2.2.1]
  have hm : (ht0.buckets.length : Rat) ≠ 0 := by exact_mod_cast (by omega : ht0.buckets.length ≠ 0)
  have hp := pow_ne_zero n hm
  push_cast
  rw [div_eq_iff hp]
  have h3 : ∑ f : Fin n → Fin ht0.buckets.length, (walked ht0.buckets.length (homes f) : Rat) =
      1 / 2 * ∑ k ∈ Finset.range n, (n.descFactorial (k + 2) : Rat) * ht0.buckets.length ^ (n - 1 - k) := by
    rw [← h1]; ring
  rw [h3, mul_assoc, Finset.sum_mul]
  congr 1
  refine Finset.sum_congr rfl fun k hk => ?_
  have hk' := Finset.mem_range.1 hk
  rw [div_mul_eq_mul_div, eq_div_iff (pow_ne_zero _ hm), mul_assoc, ← pow_add]
  congr 2
  omega

/-- C131_walk at work: two keys, four slots, all sixteen assignments. -/
example : ∃ ht0 : HT (Fin 2), newHashTable id 3 0 0 false true false = .ok ht0 ∧ ∃ r : (Fin 2 → Fin 4) → HT (Fin 2),
    (∀ f, insertAll (pureEnv (fun k _ => BitVec.ofNat 64 (f k).val) (fun _ => true)) () ht0 (List.ofFn id) = .ok ((), r f)) ∧
    (∑ f, (((r f).cols + ((r f).probes - (r f).inserts) : Nat) : Rat)) / (4 ^ 2 : Nat) = 1 / 4 :=
  have ⟨r, h1, h2⟩ := C131_walk id 3 0 0 false false _ 2 id (by decide) rfl (by decide) (fun f k _ => BitVec.ofNat 64 (f k).val)
    (fun f i => by
      have : ∀ a : Fin 4, homeOf false 4 (BitVec.ofNat 64 a.val) = a := by decide
      exact this (f i))
  ⟨_, rfl, r, h1, h2.trans (by decide +kernel)⟩

/-- Over all `Size^n` ways to send `n` keys to home slots: every slot is taken in the same number of them, a share `n/Size`. -/
theorem C131_slots (np : Int → Int) (size seed extra : Int) (pd prime : Bool) (ht0 : HT κ)
    (n : Nat) (key : Fin n → κ) (hn : n ≤ ht0.buckets.length)
    (hnew : newHashTable np size seed extra pd true prime = .ok ht0)
    (hpos : 0 < ht0.buckets.length)
    (H : (Fin n → Fin ht0.buckets.length) → κ → U64 → U64)
    (hH : ∀ f i, homeOf prime ht0.buckets.length (H f (key i) ht0.seed) = f i) :
    ∃ r : (Fin n → Fin ht0.buckets.length) → HT κ,
      (∀ f, insertAll (pureEnv (H f) (fun _ => true)) () ht0 (List.ofFn key) = .ok ((), r f)) ∧
      ∀ s : Fin ht0.buckets.length,
        (Finset.univ.filter fun f => ((r f).buckets.getD s.val []).isEmpty = false).card * ht0.buckets.length = n * ht0.buckets.length ^ n := by
  obtain ⟨r, hr⟩ := runs np size seed extra pd prime ht0 n key hn hnew hpos H hH
  refine ⟨r, fun f => (hr f).1, fun s => ?_⟩
  rw [← used hn s]
  congr 2
  ext f
  simp only [Finset.mem_filter, Finset.mem_univ, true_and]
  rw [← (hr f).2.2.2.2 s.val s.isLt]
  have hl : (r f).buckets.length = ht0.buckets.length := by
    rcases insertAll_same (e := pureEnv (H f) (fun _ => true)) (fun _ => rfl) (List.ofFn key) () ht0
      (newHashTable_wf hnew hpos) _ (hr f).1 with ⟨_, _, ha, hb⟩ | ⟨_, hb⟩
    · cases ha; rw [hb.wf.len, hb.size, (newHashTable_wf hnew hpos).len]
    · cases hb
  rw [List.getD_eq_getElem?_getD, List.getElem?_eq_getElem (by rw [hl]; exact s.isLt)]
  cases (r f).buckets[s.val]'(by rw [hl]; exact s.isLt) <;> simp

/-- C131_slots at work: two keys, four slots, all sixteen assignments. -/
example : ∃ ht0 : HT (Fin 2), newHashTable id 3 0 0 false true false = .ok ht0 ∧ ∃ r : (Fin 2 → Fin 4) → HT (Fin 2),
    (∀ f, insertAll (pureEnv (fun k _ => BitVec.ofNat 64 (f k).val) (fun _ => true)) () ht0 (List.ofFn id) = .ok ((), r f)) ∧
    (Finset.univ.filter fun f => ((r f).buckets.getD 3 []).isEmpty = false).card * 4 = 2 * 4 ^ 2 :=
  have ⟨r, h1, h2⟩ := C131_slots id 3 0 0 false false _ 2 id (by decide) rfl (by decide) (fun f k _ => BitVec.ofNat 64 (f k).val)
    (fun f i => by
      have : ∀ a : Fin 4, homeOf false 4 (BitVec.ofNat 64 a.val) = a := by decide
      exact this (f i))
  ⟨_, rfl, r, h1, h2 ⟨3, by decide⟩⟩


/-! ### Extremes -/

theorem arc_card {m a d : Nat} (hd : d ≤ m) : ((Finset.range d).image fun e => (a + e) % m).card = d := by
  rw [Finset.card_image_of_injOn, Finset.card_range]
  intro x hx y hy hxy
  have hx' := Finset.mem_range.1 hx
  have hy' := Finset.mem_range.1 hy
  have h1 : a + x ≡ a + y [MOD m] := hxy
  have h2 := Nat.ModEq.add_left_cancel' a h1
  exact Nat.ModEq.eq_of_lt_of_lt h2 (by omega) (by omega)

theorem arc_sub {m a d : Nat} {S : Finset Nat} (h : Steps m S a d) : ((Finset.range d).image fun e => (a + e) % m) ⊆ S := by
  intro x hx
  obtain ⟨e, he, rfl⟩ := Finset.mem_image.1 hx
  exact h.full e (Finset.mem_range.1 he)

theorem steps_le {m a d : Nat} {S : Finset Nat} (h : Steps m S a d) : d ≤ S.card := by
  have := Finset.card_le_card (arc_sub h)
  rwa [arc_card h.lt.le] at this

theorem steps_all {m a d : Nat} {S : Finset Nat} (h : Steps m S a d) (hc : d = S.card) :
    S = (Finset.range d).image fun e => (a + e) % m :=
  (Finset.eq_of_subset_of_card_le (arc_sub h) (by rw [arc_card h.lt.le]; omega)).symm

theorem arc_start {m a b n : Nat} (ha : a < m) (hb : b < m) (hn : n < m) (h0 : 0 < n)
    (he : ((Finset.range n).image fun e => (a + e) % m) = (Finset.range n).image fun e => (b + e) % m) : a = b := by
  have hamem : a ∈ (Finset.range n).image fun e => (b + e) % m := by
    rw [← he]; exact Finset.mem_image.2 ⟨0, Finset.mem_range.2 h0, by rw [Nat.add_zero, Nat.mod_eq_of_lt ha]⟩
  obtain ⟨e, hen, hea⟩ := Finset.mem_image.1 hamem
  have hen := Finset.mem_range.1 hen
  rcases Nat.eq_zero_or_pos e with h1 | h1
  · rw [h1, Nat.add_zero, Nat.mod_eq_of_lt hb] at hea; exact hea.symm
  · exfalso
    have hmem : (b + n) % m ∈ (Finset.range n).image fun e => (b + e) % m := by
      rw [← he]
      refine Finset.mem_image.2 ⟨n - e, Finset.mem_range.2 (by omega), ?_⟩
      rw [← hea, Nat.mod_add_mod]
      congr 1
      omega
    obtain ⟨g, hg, hgb⟩ := Finset.mem_image.1 hmem
    have hg := Finset.mem_range.1 hg
    have h2 : b + g ≡ b + n [MOD m] := hgb
    have h3 := Nat.ModEq.eq_of_lt_of_lt (Nat.ModEq.add_left_cancel' b h2) (by omega) (by omega)
    omega

theorem walked_max {m : Nat} (l : List Nat) (hl : ∀ a ∈ l, a < m) (hn : l.length ≤ m) :
    2 * walked m l ≤ l.length * (l.length - 1) ∧
    (2 * walked m l = l.length * (l.length - 1) → ∀ a ∈ l, (parkAll m l).1 = (Finset.range l.length).image fun e => (a + e) % m) ∧
    (2 * walked m l = l.length * (l.length - 1) ↔ ∀ x ∈ l, ∀ y ∈ l, x = y) := by
  induction l using List.reverseRecOn with
  | nil => simp [walked, parkAll]
  | append_singleton l a ih =>
    rw [List.length_append, List.length_singleton] at hn
    have hl' : ∀ x ∈ l, x < m := fun x hx => hl x (by simp [hx])
    have ha := hl a (by simp)
    obtain ⟨i1, i2, i3⟩ := ih hl' (by omega)
    have hok := parkAll_ok m l hl' (by omega)
    have hst := (parkOne_ok hok ha (by omega)).2
    rw [walked_snoc _ (by omega), parkAll_snoc, List.length_append, List.length_singleton, parkOne]
    dsimp only
    have hle := steps_le hst
    rw [hok.card] at hle
    have hs : (l.length + 1) * (l.length + 1 - 1) = 2 * l.length + l.length * (l.length - 1) := by
      cases l.length with
      | zero => rfl
      | succ k => simp only [Nat.add_sub_cancel]; ring
    rw [hs]
    generalize steps m (parkAll m l).1 a = d at *
    have hsplit : 2 * (walked m l + d) = 2 * l.length + l.length * (l.length - 1) ↔
        2 * walked m l = l.length * (l.length - 1) ∧ d = l.length := by omega
    rw [hsplit]
    have hext : d = l.length → (parkAll m l).1 = (Finset.range l.length).image fun e => (a + e) % m := fun hd => by
      have := steps_all hst (by rw [hok.card]; exact hd)
      rwa [hd] at this
    have hsame : 2 * walked m l = l.length * (l.length - 1) → d = l.length → ∀ b ∈ l, b = a := by
      intro hw hd b hb
      exact arc_start (hl' b hb) ha (by omega) (List.length_pos_of_mem hb) ((i2 hw b hb).symm.trans (hext hd))
    refine ⟨by omega, ?_, ?_⟩
    · rintro ⟨hw, hd⟩ b hb
      have hba : b = a := by
        rcases List.mem_append.1 hb with h | h
        · exact hsame hw hd b h
        · exact List.mem_singleton.1 h
      rw [hba, hext hd, hd, Finset.range_add_one, Finset.image_insert]
    · constructor
      · rintro ⟨hw, hd⟩
        have hall : ∀ b ∈ l ++ [a], b = a := by
          intro b hb
          rcases List.mem_append.1 hb with h | h
          · exact hsame hw hd b h
          · exact List.mem_singleton.1 h
        intro x hx y hy
        rw [hall x hx, hall y hy]
      · intro hall
        have hw := i3.2 fun x hx y hy => hall x (by simp [hx]) y (by simp [hy])
        refine ⟨hw, ?_⟩
        rcases Nat.eq_zero_or_pos l.length with h0 | h0
        · omega
        · obtain ⟨b, hb⟩ := List.exists_mem_of_length_pos h0
          have hS := i2 hw b hb
          rw [hall b (by simp [hb]) a (by simp)] at hS
          rcases Nat.lt_or_ge d l.length with h1 | h1
          · exact absurd (by rw [hS]; exact Finset.mem_image.2 ⟨d, Finset.mem_range.2 h1, rfl⟩) hst.free
          · omega

theorem walked_zero {m : Nat} (l : List Nat) (hl : ∀ a ∈ l, a < m) (hn : l.length ≤ m) :
    (walked m l = 0 → ∀ x, x ∈ (parkAll m l).1 ↔ x ∈ l) ∧ (walked m l = 0 ↔ l.Nodup) := by
  induction l using List.reverseRecOn with
  | nil => simp [walked, parkAll]
  | append_singleton l a ih =>
    rw [List.length_append, List.length_singleton] at hn
    have hl' : ∀ x ∈ l, x < m := fun x hx => hl x (by simp [hx])
    have ha := hl a (by simp)
    obtain ⟨i1, i2⟩ := ih hl' (by omega)
    have hok := parkAll_ok m l hl' (by omega)
    have hst := (parkOne_ok hok ha (by omega)).2
    rw [walked_snoc _ (by omega), parkAll_snoc, parkOne]
    dsimp only
    generalize steps m (parkAll m l).1 a = d at *
    have e0 : (a + 0) % m = a := by rw [Nat.add_zero, Nat.mod_eq_of_lt ha]
    have hd : d = 0 ↔ a ∉ (parkAll m l).1 := by
      constructor
      · rintro rfl; have := hst.free; rwa [e0] at this
      · intro h
        rcases Nat.eq_zero_or_pos d with h1 | h1
        · exact h1
        · have := hst.full 0 h1; rw [e0] at this; exact absurd this h
    rw [Nat.add_eq_zero_iff, List.nodup_append]
    constructor
    · rintro ⟨hw, h0⟩ x
      rw [h0, e0, Finset.mem_insert, i1 hw, List.mem_append, List.mem_singleton, or_comm]
    · rw [hd]
      constructor
      · rintro ⟨hw, h0⟩
        rw [i1 hw] at h0
        exact ⟨i2.1 hw, List.nodup_singleton a, fun x hx y hy hxy => h0 (by rw [List.mem_singleton.1 hy] at hxy; rwa [hxy] at hx)⟩
      · rintro ⟨hnd, _, hdis⟩
        have hw := i2.2 hnd
        exact ⟨hw, by rw [i1 hw]; exact fun h => hdis a h a (by simp) rfl⟩

/-- At most `n(n-1)/2` occupied slots are stepped over, exactly when all home slots are the same; none exactly when they are all different. -/
theorem C131_extremes (H : κ → U64 → U64) (np : Int → Int)
    (size seed extra : Int) (pd prime : Bool) (ht0 : HT κ) (ks : List κ)
    (hnew : newHashTable np size seed extra pd true prime = .ok ht0)
    (hpos : 0 < ht0.buckets.length) (hroom : ks.length ≤ ht0.buckets.length) :
    ∃ ht, insertAll (pureEnv H (fun _ => true)) () ht0 ks = .ok ((), ht) ∧
      2 * (ht.cols + (ht.probes - ht.inserts)) ≤ ks.length * (ks.length - 1) ∧
      (2 * (ht.cols + (ht.probes - ht.inserts)) = ks.length * (ks.length - 1) ↔
        ∀ k ∈ ks, ∀ k' ∈ ks, homeOf prime ht0.buckets.length (H k ht0.seed) = homeOf prime ht0.buckets.length (H k' ht0.seed)) ∧
      (ht.cols + (ht.probes - ht.inserts) = 0 ↔ (ks.map fun k => homeOf prime ht0.buckets.length (H k ht0.seed)).Nodup) := by
  obtain ⟨ht, h1, h2⟩ := sim_main H np size seed extra pd prime ht0 ks hnew hpos hroom
  have hm : ht0.size.toNat = ht0.buckets.length := (newHashTable_wf hnew hpos).len.symm
  have i2 := h2.probes
  have i3 := h2.cols
  rw [hm] at i2 i3
  have hcost : ht.cols + (ht.probes - ht.inserts) = walked ht0.buckets.length (ks.map fun k => homeOf prime ht0.buckets.length (H k ht0.seed)) := by
    rw [i2, h2.inv.inserts]; omega
  have hL1 : ∀ a ∈ ks.map (fun k => homeOf prime ht0.buckets.length (H k ht0.seed)), a < ht0.buckets.length := by
    intro a ha; rw [List.mem_map] at ha; obtain ⟨k, _, rfl⟩ := ha; exact HashTable.homeOf_lt _ hpos _
  obtain ⟨w1, _, w2⟩ := walked_max _ hL1 (by rw [List.length_map]; exact hroom)
  obtain ⟨_, w3⟩ := walked_zero _ hL1 (by rw [List.length_map]; exact hroom)
  rw [List.length_map] at w1 w2
  refine ⟨ht, h1, by rw [hcost]; exact w1, ?_, by rw [hcost]; exact w3⟩
  rw [hcost, w2]
  simp only [List.mem_map, forall_exists_index, and_imp, forall_apply_eq_imp_iff₂]

/-- C131_extremes at work: three keys with one home step over three slots. -/
example : ∃ ht0 ht : HT (List U8), newHashTable id 3 0 0 false true false = .ok ht0 ∧
    insertAll (pureEnv (fun k _ => BitVec.ofNat 64 (leNat k)) (fun _ => true)) () ht0 [[0], [4], [8]] = .ok ((), ht) ∧ 2 * (ht.cols + (ht.probes - ht.inserts)) = 6 :=
  have ⟨_, h1, _, h3, _⟩ := C131_extremes (fun k _ => BitVec.ofNat 64 (leNat k)) id 3 0 0 false false _ [[0], [4], [8]] rfl (by decide) (by decide)
  ⟨_, _, rfl, h1, h3.2 (by decide +kernel)⟩

end Verif.Props.Parking
