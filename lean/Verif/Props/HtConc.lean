import Verif.Lemmas.HtConc6
import Mathlib.Data.Fintype.Card
import Mathlib.Data.Fin.VecNotation

/-!
# C127: `Insert` called on one table by several goroutines

`(unlocked n m).run H grow ks sched` lets `n` goroutines, the `g`-th of which calls `Insert(ks g)` on the table in memory `m`, make the steps of `sched`, without a lock; `(locked n m).run …` does the same when
every call is between `Lock` and `Unlock` of a mutex. `bucket ht i` is the list of keys in bucket `i`, `home H ht k` the bucket `Insert(k)` starts at. `grow` is how much room the runtime adds when an `append` needs a new array.
-/

namespace Verif.Props
open Verif Verif.HashTable Verif.Model.HtConc Verif.Spec.HtConc Verif.Lemmas.HtConc

variable {κ : Type}

/-- C127. Every table can be laid out in memory so that nobody is working on it. -/
theorem C127_layout (ht : HT κ) : Sound (Mem.of ht) ∧ (Mem.of ht).view = ht := by
  have hch : ∀ (i : Nat) (b : List κ), ht.buckets[i]? = some b → (Mem.of ht).chain (if b.isEmpty then none else some (i, b.length)) = b := by
    intro i b hb
    by_cases he : b.isEmpty
    · rw [if_pos he]
      cases b with
      | nil => rfl
      | cons _ _ => cases he
    · rw [if_neg he, chain_lt (c := b.length) (d := b)]
      · rw [List.take_of_length_le (Nat.le_refl _)]
      · simp [Mem.of, hb]
  constructor
  · intro i a l h
    have h : (ht.buckets.mapIdx fun i b => if b.isEmpty then none else some (i, b.length))[i]? = some (some (a, l)) := h
    rw [List.getElem?_mapIdx] at h
    have key : ∀ j l', (ht.buckets.mapIdx fun i b => if b.isEmpty then none else some (i, b.length))[j]? = some (some (a, l')) → j = a := by
      intro j l' h
      rw [List.getElem?_mapIdx] at h
      cases hb : ht.buckets[j]? with
      | none => rw [hb] at h; cases h
      | some b =>
        rw [hb, Option.map_some] at h
        split at h
        · cases h
        · cases h; rfl
    cases hb : ht.buckets[i]? with
    | none => rw [hb] at h; cases h
    | some b =>
      rw [hb, Option.map_some] at h
      split at h
      · cases h
      · next hne =>
        cases h
        refine ⟨⟨b.length, b, by simp [Mem.of, hb], rfl, Nat.le_refl _, ?_⟩, fun j l' h => key j l' h⟩
        cases b with
        | nil => exact (hne rfl).elim
        | cons _ _ => simp
  · unfold Mem.view
    have : (Mem.of ht).slots.map (Mem.of ht).chain = ht.buckets := by
      apply List.ext_getElem?
      intro i
      rw [List.getElem?_map]
      show ((ht.buckets.mapIdx fun i b => if b.isEmpty then none else some (i, b.length))[i]?).map _ = _
      rw [List.getElem?_mapIdx]
      cases hb : ht.buckets[i]? with
      | none => rfl
      | some b => rw [Option.map_some, Option.map_some, hch i b hb]
    rw [this]
    rfl

/-- C127. Calls under a lock: whenever the lock is free, the table is what `Insert` of the keys of the calls that have returned, one after the other in the order in which they took the lock, leaves; a call that
panicked is one that panics in that order too. -/
theorem C127_locked (H : κ → U64 → U64) (grow : Nat → Nat) {n : Nat} (ks : Fin n → κ) (m : Mem κ) (hs : Sound m) (wf : WF m.view) (sched : List (Fin n)) :
    ((((locked n m).run H grow ks sched).holder = none →
        HashTable.insertAll (pureEnv H (fun _ => true)) () m.view (((locked n m).run H grow ks sched).order.map ks) = .ok ((), ((locked n m).run H grow ks sched).m.view) ∧
        ∀ g, g ∈ ((locked n m).run H grow ks sched).order ↔ ((locked n m).run H grow ks sched).pcs g = .returned) ∧
      ((locked n m).run H grow ks sched).order.Nodup ∧
      ∀ g f, ((locked n m).run H grow ks sched).pcs g = .inside (.fail f) →
        HashTable.insertAll (pureEnv H (fun _ => true)) () m.view (((locked n m).run H grow ks sched).order.map ks) = .error f) := by
  have inv := linv_run (H := H) (grow := grow) (ks := ks) hs wf sched
  generalize (locked n m).run H grow ks sched = c at inv
  refine ⟨fun hh => ⟨(inv.free hh).2.2, fun g => ?_⟩, inv.nodup, ?_⟩
  · rw [inv.iff g]
    rcases inv.out g (by rw [hh]; exact fun h => nomatch h) with h | h
    · rw [h]; exact ⟨fun h => (h rfl).elim, fun h => (nomatch h)⟩
    · rw [h]; exact ⟨fun _ => rfl, fun _ => (fun h => nomatch h)⟩
  · intro g f hg
    have hh : c.holder = some g := by
      by_cases hh : c.holder = some g
      · exact hh
      · rcases inv.out g hh with h | h <;> rw [h] at hg <;> cases hg
    obtain ⟨o, m0, pc, ho, s0, w0, hall, hpc, hr⟩ := inv.held g hh
    rw [hg] at hpc
    cases hpc
    rw [ho, List.map_append, List.map_singleton, insertAll_snoc _ _ _ _ _ _ _ hall]
    exact fail_of s0 w0 hr

/-- C127. Under a lock, when every call has returned every key has been inserted once. -/
theorem C127_locked_all (H : κ → U64 → U64) (grow : Nat → Nat) {n : Nat} (ks : Fin n → κ) (m : Mem κ) (hs : Sound m) (wf : WF m.view) (sched : List (Fin n))
    (hall : ∀ g, ((locked n m).run H grow ks sched).pcs g = .returned) :
    ∃ order : List (Fin n), order.Nodup ∧ (∀ g, g ∈ order) ∧
      HashTable.insertAll (pureEnv H (fun _ => true)) () m.view (order.map ks) = .ok ((), ((locked n m).run H grow ks sched).m.view) := by
  have inv := linv_run (H := H) (grow := grow) (ks := ks) hs wf sched
  obtain ⟨h1, h2, _⟩ := C127_locked H grow ks m hs wf sched
  generalize (locked n m).run H grow ks sched = c at *
  have hh : c.holder = none := by
    cases h : c.holder with
    | none => rfl
    | some g =>
      obtain ⟨_, _, pc, _, _, _, _, hpc, _⟩ := inv.held g h
      rw [hall g] at hpc
      cases hpc
  exact ⟨c.order, h2, fun g => ((h1 hh).2 g).2 (hall g), (h1 hh).1⟩

/-- C127. Without a lock, at every moment of every schedule: the buckets still begin with what they held, nothing is added but keys passed to `Insert`, none of them twice, and in a chaining table only in the bucket it
selects, where at least one of the calls that have returned has left its key. -/
theorem C127_unlocked (H : κ → U64 → U64) (grow : Nat → Nat) {n : Nat} (ks : Fin n → κ) (m : Mem κ) (hs : Sound m) (wf : WF m.view) (sched : List (Fin n)) :
    ∃ ids : Nat → List (Fin n),
      (∀ i, bucket ((unlocked n m).run H grow ks sched).m.view i = bucket m.view i ++ (ids i).map ks) ∧
      (∀ i, (ids i).Nodup) ∧ (∀ i j g, g ∈ ids i → g ∈ ids j → i = j) ∧
      (m.view.oa = false → ∀ i g, g ∈ ids i → i = home H m.view (ks g)) ∧
      (m.view.oa = false → ∀ g, ((unlocked n m).run H grow ks sched).pcs g = .done → ids (home H m.view (ks g)) ≠ []) := by
  obtain ⟨own, lab, inv⟩ := uinv (H := H) (grow := grow) (ks := ks) hs wf sched
  obtain ⟨ids, h1, h2, h3, h4, h5⟩ := useen inv
  exact ⟨ids, h1, h2, h3, h4, fun ho g hg => h5 ho g (by rw [hg]; rfl)⟩

/-- C127. Without a lock `Inserts` grows by at most the number of calls, and by at least one once a call has returned. -/
theorem C127_count (H : κ → U64 → U64) (grow : Nat → Nat) {n : Nat} (ks : Fin n → κ) (m : Mem κ) (sched : List (Fin n)) :
    m.view.inserts ≤ ((unlocked n m).run H grow ks sched).m.view.inserts ∧ ((unlocked n m).run H grow ks sched).m.view.inserts ≤ m.view.inserts + n ∧
    ∀ g, ((unlocked n m).run H grow ks sched).pcs g = .done → m.view.inserts + 1 ≤ ((unlocked n m).run H grow ks sched).m.view.inserts := by
  have inv := cinv (H := H) (grow := grow) (ks := ks) m sched
  refine ⟨inv.lo, ?_, fun g hg => inv.one g (by rw [hg]; rfl)⟩
  refine Nat.le_trans inv.hi (Nat.add_le_add_left ?_ _)
  unfold entered
  exact Nat.le_trans (Finset.card_le_univ _) (by rw [Fintype.card_fin])

/-- C127. Without a lock, a call on a chaining table whose bucket no other call selects does not panic, and when it returns its bucket holds exactly its key more. -/
theorem C127_apart (H : κ → U64 → U64) (grow : Nat → Nat) {n : Nat} (ks : Fin n → κ) (m : Mem κ) (hs : Sound m) (wf : WF m.view) (ho : m.view.oa = false) (sched : List (Fin n)) (g : Fin n)
    (hg : ∀ g', g' ≠ g → home H m.view (ks g') ≠ home H m.view (ks g)) :
    (∀ f, ((unlocked n m).run H grow ks sched).pcs g ≠ .fail f) ∧
    (((unlocked n m).run H grow ks sched).pcs g = .done →
      bucket ((unlocked n m).run H grow ks sched).m.view (home H m.view (ks g)) = bucket m.view (home H m.view (ks g)) ++ [ks g]) := by
  obtain ⟨ids, h1, h2, h3, h4, h5⟩ := C127_unlocked H grow ks m hs wf sched
  obtain ⟨own, lab, inv⟩ := uinv (H := H) (grow := grow) (ks := ks) hs wf sched
  constructor
  · intro f hf
    have := inv.ok ho g hg
    rw [hf] at this
    exact this
  · intro hd
    rw [h1]
    have hne := h5 ho g hd
    have hall : ∀ x ∈ ids (home H m.view (ks g)), x = g := by
      intro x hx
      by_cases hxg : x = g
      · exact hxg
      · exact (hg x hxg (h4 ho _ x hx).symm).elim
    have : ids (home H m.view (ks g)) = [g] := by
      cases hl : ids (home H m.view (ks g)) with
      | nil => exact (hne hl).elim
      | cons a t =>
        rw [hl] at hall
        have ha := hall a (List.mem_cons_self ..)
        cases t with
        | nil => rw [ha]
        | cons b t =>
          have hb := hall b (by simp)
          have hn := h2 (home H m.view (ks g))
          rw [hl, ha, hb] at hn
          simp at hn
    rw [this]
    rfl

/-- Two goroutines, both about to compute their hash, the calls counted as one. -/
theorem twoCounted (H : κ → U64 → U64) (grow : Nat → Nat) (ks : Fin 2 → κ) (m : Mem κ) :
    Can H grow ks (unlocked 2 m) ⟨{ m with rest := { m.rest with inserts := m.rest.inserts + 1 } }, fun _ => .hash⟩ := by
  refine ⟨[0, 1, 0, 1], ?_⟩
  have : ∀ p q : Fin 2 → Pc, p 0 = q 0 → p 1 = q 1 → p = q := by
    intro p q h0 h1
    funext j
    rcases j with ⟨j, hj⟩
    have : j = 0 ∨ j = 1 := by omega
    rcases this with rfl | rfl
    · exact h0
    · exact h1
  show (⟨{ m with rest := { m.rest with inserts := m.rest.inserts + 1 } }, _⟩ : Conc κ 2) = _
  congr 1
  exact this _ _ rfl rfl

/-- C127, the expectation "two calls store two keys" refuted: in every chaining table, for any two keys that select the same bucket, some schedule without a lock ends with both calls returned, only one of the keys stored, and `Inserts` increased by one. -/
theorem C127_lost_violated (H : κ → U64 → U64) (grow : Nat → Nat) (ks : Fin 2 → κ) (m : Mem κ) (hs : Sound m) (wf : WF m.view) (ho : m.view.oa = false)
    (hk : home H m.view (ks 0) = home H m.view (ks 1)) :
    ∃ sched, (∀ g, ((unlocked 2 m).run H grow ks sched).pcs g = .done) ∧
      (∃ g, bucket ((unlocked 2 m).run H grow ks sched).m.view (home H m.view (ks 0)) = bucket m.view (home H m.view (ks 0)) ++ [ks g]) ∧
      ((unlocked 2 m).run H grow ks sched).m.view.inserts = m.view.inserts + 1 := by
  have r1 := twoCounted H grow ks m
  generalize hc1 : (⟨{ m with rest := { m.rest with inserts := m.rest.inserts + 1 } }, fun _ => .hash⟩ : Conc κ 2) = c1 at r1
  have p1 : ∀ g, c1.pcs g = .hash := by rw [← hc1]; exact fun _ => rfl
  have s1 : c1.m.slots = m.slots := by rw [← hc1]
  have i1 : c1.m.rest.inserts = m.rest.inserts + 1 := by rw [← hc1]
  obtain ⟨c2, idx0, hd0, f0, t2, x0, p2, l0, s2, i2, o2⟩ := can_put hs wf ho r1 0 (p1 0)
  have r2 : Rch H grow ks m c2 := r1.trans t2
  obtain ⟨c3, idx1, hd1, f1, t3, x1, p3, l1, s3, i3, o3⟩ := can_put hs wf ho r2 1 (by rw [o2 1 (by decide)]; exact p1 1)
  have r3 : Rch H grow ks m c3 := r2.trans t3
  obtain ⟨c4, t4, _, s4, i4, o4, p4⟩ := can_store hs wf r3 0 idx0 hd0 f0 (by rw [o3 0 (by decide)]; exact p2) x0
  have r4 : Rch H grow ks m c4 := r3.trans t4
  obtain ⟨c5, t5, _, s5, i5, o5, p5⟩ := can_store hs wf r4 1 idx1 hd1 f1 (by rw [o4 1 (by decide)]; exact p3) x1
  have r5 : Rch H grow ks m c5 := r4.trans t5
  obtain ⟨c6, t6, p6, s6, i6, o6⟩ := can_done hs wf r5 0 idx0 f0 (by rw [o5 0 (by decide)]; exact p4) x0
  have r6 : Rch H grow ks m c6 := r5.trans t6
  obtain ⟨c7, t7, p7, s7, i7, o7⟩ := can_done hs wf r6 1 idx1 f1 (by rw [o6 1 (by decide)]; exact p5) x1
  have r7 : Rch H grow ks m c7 := r6.trans t7
  obtain ⟨_, _, b7, _⟩ := r7.facts hs wf (ks 0)
  have hlen : (bucket c7.m.view (home H m.view (ks 0))).length = (bucket m.view (home H m.view (ks 0))).length + 1 := by
    rw [b7]
    have hx : idx1.toNat = home H m.view (ks 0) := x1.trans hk.symm
    have h7 : hdAt c7 (home H m.view (ks 0)) = some hd1 := by
      have hlt := home_lt wf H (ks 0)
      rw [hdAt, s7, s6, s5, hx, List.getElem?_set, if_pos rfl, if_pos (by rw [s4, s3, s2, s1, List.length_set]; exact hlt)]
      rfl
    rw [h7]
    show hd1.2 = _
    rw [l1, ← hk]
    have h2' : hdAt c2 (home H m.view (ks 0)) = hdAt (unlocked 2 m) (home H m.view (ks 0)) := by
      rw [hdAt, hdAt, s2, s1]; rfl
    rw [h2']
    have r0 : Rch H grow ks m (unlocked 2 m) := .refl _
    obtain ⟨_, _, b0, _⟩ := r0.facts hs wf (ks 0)
    rw [← b0]
    rfl
  obtain ⟨s, hsch⟩ := r7
  obtain ⟨ids, h1, -⟩ := C127_unlocked H grow ks m hs wf s
  refine ⟨s, ?_, ?_, ?_⟩
  · rw [hsch]
    intro g
    rcases g with ⟨j, hj⟩
    have : j = 0 ∨ j = 1 := by omega
    rcases this with rfl | rfl
    · exact (o7 0 (by decide)).trans p6
    · exact p7
  · have e := h1 (home H m.view (ks 0))
    rw [← hsch, e, List.length_append, List.length_map] at hlen
    obtain ⟨g, hg⟩ := List.length_eq_one_iff.1 (show (ids (home H m.view (ks 0))).length = 1 by omega)
    exact ⟨g, by rw [e, hg]; rfl⟩
  · rw [hsch]
    show c7.m.rest.inserts = m.rest.inserts + 1
    rw [i7, i6, i5, i4, i3, i2, i1]

/-- C127, the expectation "`Insert` on a chaining table does not panic" refuted: in every chaining table, for any four keys that select the same bucket, some schedule without a lock makes a call panic with an index out of range. -/
theorem C127_crash_violated (H : κ → U64 → U64) (grow : Nat → Nat) (ks : Fin 4 → κ) (m : Mem κ) (hs : Sound m) (wf : WF m.view) (ho : m.view.oa = false)
    (hk : ∀ g, home H m.view (ks g) = home H m.view (ks 0)) :
    ∃ sched, ((unlocked 4 m).run H grow ks sched).pcs 3 = .fail .index := by
  have hlt := home_lt wf H (ks 0)
  have r0 : Rch H grow ks m (unlocked 4 m) := .refl _
  have p0 : ∀ g, (unlocked 4 m).pcs g = .start := fun _ => rfl
  -- goroutine 0 evaluates its append
  obtain ⟨c1, t1, p1, s1, _, o1⟩ := can_start (H := H) (grow := grow) (ks := ks) 0 (p0 0)
  have r1 : Rch H grow ks m c1 := r0.trans t1
  obtain ⟨c2, idx0, hd0, f0, t2, x0, p2, l0, s2, _, o2⟩ := can_put hs wf ho r1 0 p1
  have r2 : Rch H grow ks m c2 := r1.trans t2
  -- a whole call of another goroutine
  have call : ∀ (g : Fin 4) (c : Conc κ 4), Rch H grow ks m c → c.pcs g = .start → c.m.slots.length = m.slots.length →
      ∃ c', Rch H grow ks m c' ∧ (∀ j, j ≠ g → c'.pcs j = c.pcs j) ∧ c'.m.slots.length = m.slots.length ∧
        hdLen (hdAt c' (home H m.view (ks 0))) = hdLen (hdAt c (home H m.view (ks 0))) + 1 := by
    intro g c r p hl
    obtain ⟨ca, ta, pa, sa, _, oa⟩ := can_start (H := H) (grow := grow) (ks := ks) g p
    have ra : Rch H grow ks m ca := r.trans ta
    obtain ⟨cb, idx, hd, f, tb, xb, pb, lb, sb, _, ob⟩ := can_put hs wf ho ra g pa
    have rb : Rch H grow ks m cb := ra.trans tb
    obtain ⟨cc, tc, _, sc, _, oc, _⟩ := can_store hs wf rb g idx hd f pb xb
    refine ⟨cc, rb.trans tc, ?_, ?_, ?_⟩
    · intro j hj; rw [oc j hj, ob j hj, oa j hj]
    · rw [sc, sb, sa, List.length_set]; exact hl
    · have hx : idx.toNat = home H m.view (ks 0) := xb.trans (hk g)
      rw [hdAt, sc, sb, sa, hx, List.getElem?_set, if_pos rfl, if_pos (by rw [hl]; exact hlt)]
      show hd.2 = _
      rw [lb, hk g]
      rw [hdAt, hdAt, sa]
  have l2 : c2.m.slots.length = m.slots.length := by rw [s2, s1]; rfl
  obtain ⟨c3, r3, o3, l3, d3⟩ := call 1 c2 r2 (by rw [o2 1 (by decide), o1 1 (by decide)]; rfl) l2
  obtain ⟨c4, r4, o4, l4, d4⟩ := call 2 c3 r3 (by rw [o3 2 (by decide), o2 2 (by decide), o1 2 (by decide)]; rfl) l3
  -- goroutine 3 counts the elements
  obtain ⟨c5, t5, p5, s5, _, o5⟩ := can_start (H := H) (grow := grow) (ks := ks) 3 (show c4.pcs 3 = .start by rw [o4 3 (by decide), o3 3 (by decide), o2 3 (by decide), o1 3 (by decide)]; rfl)
  have r5 : Rch H grow ks m c5 := r4.trans t5
  have d5 : hdAt c5 (home H m.view (ks 0)) = hdAt c4 (home H m.view (ks 0)) := by rw [hdAt, s5]; rfl
  have hne : hdAt c5 (home H m.view (ks 3)) ≠ none := by
    rw [hk 3, d5]
    intro h
    rw [h] at d4
    simp [hdLen] at d4
  obtain ⟨c6, h, idx, t6, x6, p6, m6, o6⟩ := can_scan hs wf ho r5 3 p5 hne
  have r6 : Rch H grow ks m c6 := r5.trans t6
  -- goroutine 0 stores its shorter slice
  obtain ⟨c7, t7, _, s7, _, o7, _⟩ := can_store hs wf r6 0 idx0 hd0 f0 (by rw [o6 0 (by decide), o5 0 (by decide), o4 0 (by decide), o3 0 (by decide)]; exact p2) x0
  have r7 : Rch H grow ks m c7 := r6.trans t7
  obtain ⟨g1, g2, _, _⟩ := r7.facts hs wf (ks 0)
  have h7 : hdAt c7 (home H m.view (ks 0)) = some hd0 := by
    rw [hdAt, s7, x0, List.getElem?_set, if_pos rfl, if_pos (by rw [m6, s5, l4]; exact hlt)]
    rfl
  have hx : idx.toNat = home H m.view (ks 0) := x6.trans (hk 3)
  have hshort : (c7.m.chain (hdAt c7 (home H m.view (ks 0)))).length < hdLen (hdAt c5 (home H m.view (ks 3))) := by
    rw [g2, h7, hk 3, d5, d4, d3]
    show hd0.2 < _
    rw [l0]
    have : hdAt c2 (home H m.view (ks 0)) = hdAt c1 (home H m.view (ks 0)) := by rw [hdAt, s2]; rfl
    rw [this]
    omega
  obtain ⟨r', hre⟩ := scan_fails H grow (ks 3) h idx (c7.m.chain (hdAt c7 (home H m.view (ks 0)))) _ hshort _ 0 c7.m (Nat.zero_add _) (by rw [hx]; rfl)
  have t8 := can_of (ks := ks) 3 hre c7 rfl (by rw [o7 3 (by decide)]; exact p6)
  obtain ⟨s, hsch⟩ := r7.trans t8
  exact ⟨s, by rw [hsch]; rfl⟩

/-- C127, the expectation "a slot of an open-addressing table holds one key" refuted: for any two keys that start at the same empty slot, some schedule without a lock puts both into it. -/
theorem C127_oa_violated (H : κ → U64 → U64) (grow : Nat → Nat) (ks : Fin 2 → κ) (m : Mem κ) (hs : Sound m) (wf : WF m.view)
    (hk : home H m.view (ks 0) = home H m.view (ks 1)) (he : bucket m.view (home H m.view (ks 0)) = []) :
    ∃ sched, (∀ g, ((unlocked 2 m).run H grow ks sched).pcs g = .done) ∧ (bucket ((unlocked 2 m).run H grow ks sched).m.view (home H m.view (ks 0))).length = 2 := by
  have hlt := home_lt wf H (ks 0)
  have r1 := twoCounted H grow ks m
  generalize hc1 : (⟨{ m with rest := { m.rest with inserts := m.rest.inserts + 1 } }, fun _ => .hash⟩ : Conc κ 2) = c1 at r1
  have p1 : ∀ g, c1.pcs g = .hash := by rw [← hc1]; exact fun _ => rfl
  have s1 : c1.m.slots = m.slots := by rw [← hc1]
  have r1 : Rch H grow ks m c1 := r1
  have hnil : m.slots[home H m.view (ks 0)]? = some none := by
    rw [bucket_view, old, List.getElem?_eq_getElem hlt] at he
    rw [List.getElem?_eq_getElem hlt]
    cases hh : m.slots[home H m.view (ks 0)] with
    | none => rfl
    | some p =>
      obtain ⟨a, l⟩ := p
      have hc := chain_pos hs (show m.slots[home H m.view (ks 0)]? = some (some (a, l)) by rw [List.getElem?_eq_getElem hlt, hh])
      rw [hh, Option.getD_some] at he
      rw [he] at hc
      simp at hc
      omega
  -- both see the empty slot
  have see : ∀ (g : Fin 2) (c : Conc κ 2), Rch H grow ks m c → c.pcs g = .hash → c.m.slots = m.slots → home H m.view (ks g) = home H m.view (ks 0) →
      ∃ c' idx, Rch H grow ks m c' ∧ idx.toNat = home H m.view (ks 0) ∧ c'.pcs g = .app idx true ∧ c'.m.slots = m.slots ∧ ∀ j, j ≠ g → c'.pcs j = c.pcs j := by
    intro g c r p s hg
    obtain ⟨h, idx, hidx, hlook⟩ := can_hash wf hs r g p
    have hre : Reaches H grow (ks g) c.m .hash c.m (.app idx true) := hlook.trans (.head (by rw [step, s, hidx, hg, hnil]) .refl)
    exact ⟨_, idx, r.trans (can_of g hre c rfl p), hidx.trans hg, if_pos rfl, s, fun j hj => if_neg hj⟩
  obtain ⟨c2, idx0, r2, x0, p2, s2, o2⟩ := see 0 c1 r1 (p1 0) s1 rfl
  obtain ⟨c3, idx1, r3, x1, p3, s3, o3⟩ := see 1 c2 r2 (by rw [o2 1 (by decide)]; exact p1 1) s2 hk.symm
  -- one after the other appends and stores
  have add : ∀ (g : Fin 2) (idx : U64) (c : Conc κ 2), Rch H grow ks m c → c.pcs g = .app idx true → idx.toNat = home H m.view (ks 0) → home H m.view (ks g) = home H m.view (ks 0) →
      c.m.slots.length = m.slots.length →
      ∃ c', Rch H grow ks m c' ∧ c'.pcs g = .done ∧ c'.m.slots.length = m.slots.length ∧ hdLen (hdAt c' (home H m.view (ks 0))) = hdLen (hdAt c (home H m.view (ks 0))) + 1 ∧
        ∀ j, j ≠ g → c'.pcs j = c.pcs j := by
    intro g idx c r p x hg hl
    obtain ⟨f1, _⟩ := r.facts hs wf (ks 0)
    have hre : Reaches H grow (ks g) c.m (.app idx true) (c.m.append grow (hdAt c (home H m.view (ks 0))) (ks g)).1
        (.put idx (c.m.append grow (hdAt c (home H m.view (ks 0))) (ks g)).2 true) := .head (by rw [step, x, f1]) .refl
    have ta := can_of (ks := ks) g hre c rfl p
    obtain ⟨a1, a2⟩ := append_rest grow c.m (hdAt c (home H m.view (ks 0))) (ks g)
    have ra : Rch H grow ks m _ := r.trans ta
    obtain ⟨cb, tb, _, sb, _, ob, pb⟩ := can_store hs wf ra g idx _ true (if_pos rfl) (x.trans hg.symm)
    have rb : Rch H grow ks m cb := ra.trans tb
    obtain ⟨cc, tc, pc, sc, _, oc⟩ := can_done hs wf rb g idx true pb (x.trans hg.symm)
    refine ⟨cc, rb.trans tc, pc, ?_, ?_, ?_⟩
    · rw [sc, sb, List.length_set, a2]; exact hl
    · rw [hdAt, sc, sb, a2, x, List.getElem?_set, if_pos rfl, if_pos (by rw [hl]; exact hlt)]
      exact append_len _ _ _
    · intro j hj; rw [oc j hj, ob j hj]; exact if_neg hj
  obtain ⟨c4, r4, p4, l4, d4, o4⟩ := add 0 idx0 c3 r3 (by rw [o3 0 (by decide)]; exact p2) x0 rfl (by rw [s3])
  obtain ⟨c5, r5, p5, l5, d5, o5⟩ := add 1 idx1 c4 r4 (by rw [o4 1 (by decide)]; exact p3) x1 hk.symm l4
  obtain ⟨_, _, b5, _⟩ := r5.facts hs wf (ks 0)
  have h3 : hdAt c3 (home H m.view (ks 0)) = none := by rw [hdAt, s3, hnil]; rfl
  obtain ⟨s, hsch⟩ := r5
  refine ⟨s, ?_, ?_⟩
  · rw [hsch]
    intro g
    rcases g with ⟨j, hj⟩
    have : j = 0 ∨ j = 1 := by omega
    rcases this with rfl | rfl
    · exact (o5 0 (by decide)).trans p4
    · exact p5
  · rw [hsch, b5, d5, d4, h3]
    rfl

namespace HtConcExample

/-- A table of four buckets with the keys 1 and 2 in it. -/
def table (oa : Bool) : HT U64 :=
  { buckets := [[], [1#64], [2#64], []], inserts := 2, cols := 0, probes := 2, heads := 2, dups := 0, nbuckets := 0, longestChain := 0, lines := 4, size := 4#64, sizeLog2 := 2#64, sizeMask := 3#64, seed := 0#64,
    extra := 0, pd := false, oa := oa, prime := false }

/-- The key is its own hash. -/
def H (k _ : U64) : U64 := k

theorem wf (oa : Bool) : WF (Mem.of (table oa)).view := by rw [(C127_layout _).2]; exact ⟨rfl, by show 3#64 = 4#64 - 1; decide, by show 0 < (4#64).toNat; decide⟩

theorem home_eq (oa : Bool) (k : U64) : home H (Mem.of (table oa)).view k = k.toNat &&& 3 := by rw [(C127_layout _).2]; rfl

/-- The hypotheses of `C127_locked`, `C127_unlocked`, `C127_count` hold for keys that fill several buckets; with a lock, a schedule that tries to interleave the calls of 5 and 3 stores both. -/
example : Sound (Mem.of (table false)) ∧ WF (Mem.of (table false)).view ∧
    ((locked 2 (Mem.of (table false))).run H (fun _ => 0) ![5#64, 3#64] (List.replicate 40 [0, 1]).flatten).m.view.buckets = [[], [1#64, 5#64], [2#64], [3#64]] :=
  ⟨(C127_layout _).1, wf _, by decide +kernel⟩

/-- `C127_apart`: 5 and 3 select different buckets of the chaining table. -/
example : ∀ g' : Fin 2, g' ≠ 0 → home H (Mem.of (table false)).view (![5#64, 3#64] g') ≠ home H (Mem.of (table false)).view (![5#64, 3#64] 0) := by
  intro g' hg
  rw [home_eq, home_eq]
  rcases g' with ⟨j, hj⟩
  have : j = 0 ∨ j = 1 := by omega
  rcases this with rfl | rfl
  · exact (hg rfl).elim
  · clear hg; revert hj; decide

/-- `C127_lost_violated`: 5 and 9 select the bucket that holds 1; one of them is lost. -/
example : ∃ sched, (∃ g, bucket ((unlocked 2 (Mem.of (table false))).run H (fun _ => 1) ![5#64, 9#64] sched).m.view 1 = [1#64] ++ [![5#64, 9#64] g]) ∧
    ((unlocked 2 (Mem.of (table false))).run H (fun _ => 1) ![5#64, 9#64] sched).m.view.inserts = 3 := by
  obtain ⟨s, _, h1, h2⟩ := C127_lost_violated H (fun _ => 1) ![5#64, 9#64] (Mem.of (table false)) (C127_layout _).1 (wf _) rfl (by rw [home_eq, home_eq]; decide)
  rw [home_eq, (C127_layout (table false)).2] at h1
  rw [(C127_layout (table false)).2] at h2
  exact ⟨s, h1, h2⟩

/-- `C127_crash_violated`: four keys of the bucket that holds 1. -/
example : ∃ sched, ((unlocked 4 (Mem.of (table false))).run H (fun _ => 1) ![5#64, 9#64, 13#64, 17#64] sched).pcs 3 = .fail .index :=
  C127_crash_violated H (fun _ => 1) ![5#64, 9#64, 13#64, 17#64] (Mem.of (table false)) (C127_layout _).1 (wf _) rfl (by
    intro g
    rw [home_eq, home_eq]
    rcases g with ⟨j, hj⟩
    have : j = 0 ∨ j = 1 ∨ j = 2 ∨ j = 3 := by omega
    rcases this with rfl | rfl | rfl | rfl <;> (revert hj; decide))

/-- `C127_oa_violated`: 3 and 7 start at the empty slot 3. -/
example : ∃ sched, (bucket ((unlocked 2 (Mem.of (table true))).run H (fun _ => 0) ![3#64, 7#64] sched).m.view 3).length = 2 := by
  obtain ⟨s, _, h⟩ := C127_oa_violated H (fun _ => 0) ![3#64, 7#64] (Mem.of (table true)) (C127_layout _).1 (wf _) (by rw [home_eq, home_eq]; decide)
    (by rw [home_eq, (C127_layout (table true)).2]; rfl)
  rw [home_eq] at h
  exact ⟨s, h⟩

end HtConcExample

end Verif.Props
