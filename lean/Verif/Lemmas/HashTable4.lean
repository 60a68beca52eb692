import Verif.Lemmas.HashTable3

/-! Heap model of `Insert`: keys are private copies. -/

namespace Verif.HashTable
open Verif Verif.Spec.HashTable

variable {κ κ' : Type}

def mapRes (f : κ → κ') : Go (Unit × HT κ) → Go (Unit × HT κ')
  | .ok (w, ht) => .ok (w, ht.map f)
  | .error e => .error e

theorem countProbe_map (f : κ → κ') (ht : HT κ) (c : Nat) :
    (ht.map f).countProbe c = (ht.countProbe c).map f := by
  unfold HT.countProbe; split <;> rfl

theorem countDup_map (f : κ → κ') (ht : HT κ) (a b : U64) :
    (ht.map f).countDup a b = (ht.countDup a b).map f := by
  unfold HT.countDup; split <;> rfl

theorem map_size (f : κ → κ') (ht : HT κ) : (ht.map f).size = ht.size := rfl
theorem map_seed (f : κ → κ') (ht : HT κ) : (ht.map f).seed = ht.seed := rfl

theorem insertLoop_map (f : κ → κ') (H : κ' → U64 → U64) (k : κ) (h : U64) (fuel : Nat) :
    ∀ (ht : HT κ) (idx : U64) (cnt pass : Nat),
    insertLoop (pureEnv H (fun _ => true)) (f k) h fuel () (ht.map f) idx cnt pass =
      mapRes f (insertLoop (pureEnv (fun x s => H (f x) s) (fun _ => true)) k h fuel () ht idx cnt pass) := by
  induction fuel with
  | zero => intros; rfl
  | succ fuel ih =>
    intro ht idx cnt pass
    rw [insertLoop, insertLoop]
    have hb : (ht.map f).buckets = ht.buckets.map (List.map f) := rfl
    rcases Nat.lt_or_ge idx.toNat ht.buckets.length with hlt | hge
    · have hlt' : idx.toNat < (ht.map f).buckets.length := by simpa [hb] using hlt
      rw [Go.idx_eq hlt, Go.idx_eq hlt']
      have hbi : (ht.map f).buckets[idx.toNat] = (ht.buckets[idx.toNat]).map f := by
        simp [hb]
      rw [hbi]
      generalize ht.buckets[idx.toNat] = b
      cases b with
      | nil =>
        simp [bind, Except.bind, Go.set, hlt, traceChk, pureEnv, mapRes, pure, Except.pure, HT.map,
          List.map_set]
      | cons b0 bt =>
        have hoa : (ht.map f).oa = ht.oa := rfl
        simp only [bind, Except.bind, List.map_cons, List.isEmpty_cons, Bool.false_eq_true, if_false, hoa]
        cases ht.oa
        · simp only [Bool.false_eq_true, if_false]
          have hlong : (ht.map f).longestChain = ht.longestChain := rfl
          have hseed : (ht.map f).seed = ht.seed := rfl
          have hdups : (ht.map f).dups = ht.dups := rfl
          rw [hseed, hdups, scanDups_pure, scanDups_pure]
          simp only [Go.set, hlt, hlt', if_true, traceChk, pureEnv]
          simp only [mapRes, pure, Except.pure, HT.map]
          congr 3
          · simp [List.map_set]
          · have : b0 :: bt = b0 :: bt := rfl
            rw [← List.map_cons, List.countP_map]; rfl
          · simp
        · simp only [if_true, traceChk, pureEnv, Go.idx, List.getElem?_cons_zero]
          simp only [countProbe_map, map_seed, countDup_map, map_size]
          by_cases hc : idx + 1 > ((ht.countProbe cnt).countDup (H (f b0) (ht.countProbe cnt).seed) h).size - 1
          · by_cases hp : pass + 1 > 1
            · simp only [hc, hp, if_true]; rfl
            · simp only [hc, hp, if_true, if_false]; exact ih _ 0 _ _
          · simp only [hc, if_false]; exact ih _ _ _ _
    · rw [Go.idx_none hge, Go.idx_none (by simpa [hb] using hge)]; rfl

theorem insert_map (f : κ → κ') (H : κ' → U64 → U64) (ht : HT κ) (k : κ) :
    insert (pureEnv H (fun _ => true)) () (ht.map f) (f k) =
      mapRes f (insert (pureEnv (fun x s => H (f x) s) (fun _ => true)) () ht k) := by
  obtain ⟨bs, ins, cols, probes, heads, dups, nb, lc, lines, size, sl, sm, seed, extra, pd, oa, prime⟩ := ht
  cases prime
  · exact insertLoop_map f H k (H (f k) seed) (2 * size.toNat + 1)
      ⟨bs, ins + 1, cols, probes, heads, dups, nb, lc, lines, size, sl, sm, seed, extra, pd, oa, false⟩
      (H (f k) seed &&& sm) 0 0
  · unfold insert
    by_cases hz : size = 0
    · subst hz; rfl
    · have hz' : (⟨bs, ins, cols, probes, heads, dups, nb, lc, lines, size, sl, sm, seed, extra, pd, oa, true⟩ :
        HT κ).size ≠ 0 := hz
      simp only [HT.map, hz, if_true, if_false]
      exact insertLoop_map f H k (H (f k) seed) (2 * size.toNat + 1)
        ⟨bs, ins + 1, cols, probes, heads, dups, nb, lc, lines, size, sl, sm, seed, extra, pd, oa, true⟩
        (H (f k) seed % size) 0 0

/-- Every bucket entry after an insert was there before or is the new key. -/
theorem insertLoop_mem {ω : Type} (e : Env ω κ) (k : κ) (h : U64) (fuel : Nat) :
    ∀ (w : ω) (ht : HT κ) (idx : U64) (cnt pass : Nat) (w' : ω) (ht' : HT κ),
    insertLoop e k h fuel w ht idx cnt pass = .ok (w', ht') →
    ∀ b ∈ ht'.buckets, ∀ x ∈ b, x = k ∨ ∃ b ∈ ht.buckets, x ∈ b := by
  induction fuel with
  | zero => intro w ht idx cnt pass w' ht' h; simp [insertLoop] at h
  | succ fuel ih =>
    intro w ht idx cnt pass w' ht' hins b hb x hx
    rw [insertLoop] at hins
    rcases Nat.lt_or_ge idx.toNat ht.buckets.length with hlt | hge
    · rw [Go.idx_eq hlt] at hins
      simp only [bind, Except.bind] at hins
      have hmem : ht.buckets[idx.toNat] ∈ ht.buckets := List.getElem_mem hlt
      generalize ht.buckets[idx.toNat] = b0 at hmem hins
      split at hins
      · simp only [Go.set, hlt, if_true, traceChk] at hins
        split at hins
        · cases hins
        · simp only [pure, Except.pure, Except.ok.injEq, Prod.mk.injEq] at hins
          rw [← hins.2] at hb
          rcases List.mem_or_eq_of_mem_set hb with h1 | h1
          · exact .inr ⟨b, h1, hx⟩
          · subst h1; simp at hx; exact .inl hx
      · split at hins
        · split at hins
          · cases hins
          · split at hins
            · cases hins
            · have hbk : ∀ c a, ((ht.countProbe c).countDup a h).buckets = ht.buckets := by
                intro c a
                unfold HT.countProbe HT.countDup
                split <;> split <;> rfl
              split at hins
              · split at hins
                · cases hins
                · have := ih _ _ _ _ _ _ _ hins b hb x hx
                  rwa [hbk] at this
              · have := ih _ _ _ _ _ _ _ hins b hb x hx
                rwa [hbk] at this
        · simp only [Go.set, hlt, if_true, traceChk] at hins
          split at hins
          · cases hins
          · simp only [pure, Except.pure, Except.ok.injEq, Prod.mk.injEq] at hins
            rw [← hins.2] at hb
            rcases List.mem_or_eq_of_mem_set hb with h1 | h1
            · exact .inr ⟨b, h1, hx⟩
            · subst h1
              rcases List.mem_append.1 hx with h2 | h2
              · exact .inr ⟨b0, hmem, h2⟩
              · simp at h2; exact .inl h2
    · rw [Go.idx_none hge] at hins; cases hins

theorem insert_mem {ω : Type} {e : Env ω κ} {w : ω} {ht : HT κ} {k : κ} {w' : ω} {ht' : HT κ}
    (h : insert e w ht k = .ok (w', ht')) :
    ∀ b ∈ ht'.buckets, ∀ x ∈ b, x = k ∨ ∃ b ∈ ht.buckets, x ∈ b := by
  unfold insert at h
  simp only [bind, Except.bind] at h
  split at h
  · split at h
    · cases h
    · exact insertLoop_mem e k _ _ _ { ht with inserts := ht.inserts + 1 } _ _ _ _ _ h
  · exact insertLoop_mem e k _ _ _ { ht with inserts := ht.inserts + 1 } _ _ _ _ _ h

/-- Table entries live outside the caller's arrays and inside the heap. -/
structure HeapInv (w : World) : Prop where
  own : ∀ b ∈ w.ht.buckets, ∀ s ∈ b, s.arr < w.heap.length ∧ s.arr ∉ w.caller
  valid : ∀ a ∈ w.caller, a < w.heap.length
  nodup : w.caller.Nodup

theorem map_congr_buckets {f g : Slice → List U8} {ht : HT Slice}
    (h : ∀ b ∈ ht.buckets, ∀ s ∈ b, f s = g s) : ht.map f = ht.map g := by
  unfold HT.map
  congr 1
  apply List.map_congr_left
  intro b hb
  apply List.map_congr_left
  exact h b hb

theorem read_append {hp : Heap} {x : List U8} {s : Slice} (h : s.arr < hp.length) :
    Heap.read (hp ++ [x]) s = Heap.read hp s := by
  simp [Heap.read, List.getElem?_append_left h]

theorem read_set {hp : Heap} {a : Nat} {x : List U8} {s : Slice} (h : s.arr ≠ a) :
    Heap.read (hp.set a x) s = Heap.read hp s := by
  simp [Heap.read, List.getElem?_set_ne (Ne.symm h)]

def World.buffers (w : World) : Buffers := w.caller.map fun a => (w.heap[a]?).getD []

theorem step_alloc (H : List U8 → U64 → U64) {w w' : World} {bytes : List U8} (hi : HeapInv w)
    (h : w.step H (.alloc bytes) = .ok w') :
    HeapInv w' ∧ w'.ht.map w'.heap.read = w.ht.map w.heap.read ∧
      w'.buffers = w.buffers ++ [bytes] := by
  simp only [World.step, Except.ok.injEq] at h
  subst h
  refine ⟨⟨?_, ?_, ?_⟩, ?_, ?_⟩
  · intro b hb s hs
    have := hi.own b hb s hs
    constructor
    · simp; omega
    · simp only [List.mem_append, List.mem_singleton, not_or]
      exact ⟨this.2, by omega⟩
  · intro a ha
    simp only [List.mem_append, List.mem_singleton] at ha
    rcases ha with ha | ha
    · have := hi.valid a ha; simp; omega
    · simp [ha]
  · rw [List.nodup_append]
    refine ⟨hi.nodup, by simp, ?_⟩
    intro a ha b hb
    simp at hb
    have := hi.valid a ha
    omega
  · exact map_congr_buckets fun b hb s hs => read_append (hi.own b hb s hs).1
  · simp only [World.buffers, List.map_append, List.map_singleton]
    congr 1
    · apply List.map_congr_left
      intro a ha
      rw [List.getElem?_append_left (hi.valid a ha)]
    · simp

theorem step_write (H : List U8 → U64 → U64) {w w' : World} {i off : Nat} {b : U8} (hi : HeapInv w)
    (h : w.step H (.write i off b) = .ok w') :
    HeapInv w' ∧ w'.ht.map w'.heap.read = w.ht.map w.heap.read ∧
      w'.buffers = w.buffers.modify i (fun buf => buf.set off b) := by
  simp only [World.step, bind, Except.bind] at h
  rcases Nat.lt_or_ge i w.caller.length with hlt | hge
  · rw [Go.idx_eq hlt] at h
    have hmem : w.caller[i] ∈ w.caller := List.getElem_mem hlt
    have hv := hi.valid _ hmem
    simp only [Go.idx_eq hv, Go.set] at h
    split at h
    · cases h
    · rename_i arr harr
      split at harr
      · cases harr
        simp only [hv, if_true, pure, Except.pure, Except.ok.injEq] at h
        subst h
        refine ⟨⟨?_, ?_, hi.nodup⟩, ?_, ?_⟩
        · intro b' hb s hs
          have := hi.own b' hb s hs
          exact ⟨by simpa using this.1, this.2⟩
        · intro a ha
          simpa using hi.valid a ha
        · apply map_congr_buckets
          intro b' hb s hs
          apply read_set
          intro e
          exact (hi.own b' hb s hs).2 (e ▸ hmem)
        · simp only [World.buffers]
          apply List.ext_getElem?
          intro j
          rw [List.getElem?_modify]
          simp only [List.getElem?_map]
          rcases Nat.lt_or_ge j w.caller.length with hj | hj
          · rw [List.getElem?_eq_getElem hj]
            simp only [Option.map_some]
            by_cases hij : i = j
            · subst hij
              rw [List.getElem?_set_self hv, List.getElem?_eq_getElem hv]
              simp
            · have hne : w.caller[i] ≠ w.caller[j] := by
                intro e
                exact hij ((List.getElem?_inj hlt hi.nodup).1
                  (by rw [List.getElem?_eq_getElem hlt, List.getElem?_eq_getElem hj, e]))
              rw [List.getElem?_set_ne hne]
              simp [hij]
          · rw [List.getElem?_eq_none hj]; rfl
      · cases harr
  · rw [Go.idx_none hge] at h; cases h

theorem step_insert (H : List U8 → U64 → U64) {w w' : World} {i off len : Nat} (hi : HeapInv w)
    (h : w.step H (.insert i off len) = .ok w') :
    HeapInv w' ∧ w'.buffers = w.buffers ∧
      insert (pureEnv H (fun _ => true)) () (w.ht.map w.heap.read)
        ((((w.buffers[i]?).getD []).drop off).take len) = .ok ((), w'.ht.map w'.heap.read) := by
  simp only [World.step, bind, Except.bind] at h
  rcases Nat.lt_or_ge i w.caller.length with hlt | hge
  · rw [Go.idx_eq hlt] at h
    have hmem : w.caller[i] ∈ w.caller := List.getElem_mem hlt
    have hv := hi.valid _ hmem
    simp only [Go.idx_eq hv] at h
    split at h
    · split at h
      · cases h
      · rename_i hbound res hins
        obtain ⟨u, ht'⟩ := res
        simp only [pure, Except.pure, Except.ok.injEq] at h
        subst h
        have hread : Heap.read (w.heap ++ [w.heap.read ⟨w.caller[i], off, len⟩])
            ⟨w.heap.length, 0, len⟩ = (((w.buffers[i]?).getD []).drop off).take len := by
          simp only [Heap.read, World.buffers, List.getElem?_map, List.getElem?_eq_getElem hlt,
            Option.map_some, Option.getD_some, List.getElem?_eq_getElem hv]
          simp [List.take_take]
        refine ⟨⟨?_, ?_, hi.nodup⟩, ?_, ?_⟩
        · intro b hb s hs
          rcases insert_mem hins b hb s hs with hx | ⟨b0, hb0, hs0⟩
          · subst hx
            refine ⟨by simp, ?_⟩
            intro hc
            have := hi.valid _ hc
            simp at this
          · have := hi.own b0 hb0 s hs0
            exact ⟨by simp; omega, this.2⟩
        · intro a ha
          have := hi.valid a ha
          simp; omega
        · simp only [World.buffers]
          apply List.map_congr_left
          intro a ha
          rw [List.getElem?_append_left (hi.valid a ha)]
        · rw [← hread]
          have hm : w.ht.map w.heap.read =
              w.ht.map (Heap.read (w.heap ++ [w.heap.read ⟨w.caller[i], off, len⟩])) :=
            map_congr_buckets fun b hb s hs => (read_append (hi.own b hb s hs).1).symm
          rw [hm, insert_map]
          change mapRes _ (insert _ () w.ht _) = _
          simp only [pureEnv]
          rw [hins]
          rfl
    · cases h
  · rw [Go.idx_none hge] at h; cases h

theorem run_refines (H : List U8 → U64 → U64) (es : List Event) : ∀ (w w' : World), HeapInv w →
    w.run H es = .ok w' →
    insertAll (pureEnv H (fun _ => true)) () (w.ht.map w.heap.read) (keysInserted w.buffers es) =
      .ok ((), w'.ht.map w'.heap.read) ∧ HeapInv w' := by
  induction es with
  | nil =>
    intro w w' hi h
    simp only [World.run, Except.ok.injEq] at h
    subst h
    exact ⟨rfl, hi⟩
  | cons ev es ih =>
    intro w w' hi h
    simp only [World.run, bind, Except.bind] at h
    split at h
    · cases h
    · rename_i w1 h1
      cases ev with
      | alloc bytes =>
        obtain ⟨hi1, hm, hb⟩ := step_alloc H hi h1
        have := ih w1 w' hi1 h
        rw [hm, hb] at this
        exact this
      | write i off b =>
        obtain ⟨hi1, hm, hb⟩ := step_write H hi h1
        have := ih w1 w' hi1 h
        rw [hm, hb] at this
        exact this
      | insert i off len =>
        obtain ⟨hi1, hb, hins⟩ := step_insert H hi h1
        have := ih w1 w' hi1 h
        rw [hb] at this
        refine ⟨?_, this.2⟩
        simp only [keysInserted, insertAll, hins]
        exact this.1

theorem buffers_get {w : World} (hi : HeapInv w) {i : Nat} {buf : List U8} (h : w.buffers[i]? = some buf) :
    ∃ (hlt : i < w.caller.length) (hv : w.caller[i] < w.heap.length), w.heap[w.caller[i]] = buf := by
  simp only [World.buffers, List.getElem?_map, Option.map_eq_some_iff] at h
  obtain ⟨a, ha, hb⟩ := h
  obtain ⟨hlt, rfl⟩ := List.getElem?_eq_some_iff.1 ha
  have hv := hi.valid _ (List.getElem_mem hlt)
  rw [List.getElem?_eq_getElem hv] at hb
  exact ⟨hlt, hv, hb⟩

/-- A legal run succeeds or fails exactly as the inserts of the bytes passed do. -/
theorem run_progress (H : List U8 → U64 → U64) (es : List Event) : ∀ (w : World), HeapInv w → Legal w.buffers es →
    (∀ f, insertAll (pureEnv H (fun _ => true)) () (w.ht.map w.heap.read) (keysInserted w.buffers es) = .error f → w.run H es = .error f) ∧
    (∀ r, insertAll (pureEnv H (fun _ => true)) () (w.ht.map w.heap.read) (keysInserted w.buffers es) = .ok r → ∃ w', w.run H es = .ok w') := by
  induction es with
  | nil =>
    intro w hi _
    exact ⟨fun f h => (nomatch h), fun r _ => ⟨w, rfl⟩⟩
  | cons ev es ih =>
    intro w hi hl
    cases ev with
    | alloc bytes =>
      obtain ⟨hi1, hm, hb⟩ := step_alloc H hi (w' := _) (bytes := bytes) rfl
      have := ih _ hi1 (by rw [hb]; exact hl)
      rw [hm, hb] at this
      exact this
    | write i off b =>
      obtain ⟨⟨buf, hbuf, hoff⟩, hl⟩ := hl
      obtain ⟨hlt, hv, he⟩ := buffers_get hi hbuf
      have hs : ∃ w1, w.step H (.write i off b) = .ok w1 := by
        simp only [World.step, Go.idx_eq hlt, Go.bind_ok, Go.idx_eq hv, he, Go.set, hoff, hv, if_true]
        exact ⟨_, rfl⟩
      obtain ⟨w1, h1⟩ := hs
      obtain ⟨hi1, hm, hb⟩ := step_write H hi h1
      have := ih _ hi1 (by rw [hb]; exact hl)
      rw [hm, hb] at this
      simp only [World.run, h1, Go.bind_ok, keysInserted]
      exact this
    | insert i off len =>
      obtain ⟨⟨buf, hbuf, hoff⟩, hl⟩ := hl
      obtain ⟨hlt, hv, he⟩ := buffers_get hi hbuf
      have hread : Heap.read (w.heap ++ [w.heap.read ⟨w.caller[i], off, len⟩])
          ⟨w.heap.length, 0, len⟩ = (((w.buffers[i]?).getD []).drop off).take len := by
        simp only [Heap.read, World.buffers, List.getElem?_map, List.getElem?_eq_getElem hlt,
          Option.map_some, Option.getD_some, List.getElem?_eq_getElem hv]
        simp [List.take_take]
      have hm : w.ht.map w.heap.read =
          w.ht.map (Heap.read (w.heap ++ [w.heap.read ⟨w.caller[i], off, len⟩])) :=
        map_congr_buckets fun b hb s hs => (read_append (hi.own b hb s hs).1).symm
      have hmap := insert_map (Heap.read (w.heap ++ [w.heap.read ⟨w.caller[i], off, len⟩])) H w.ht ⟨w.heap.length, 0, len⟩
      rw [← hm, hread] at hmap
      simp only [keysInserted, insertAll]
      cases hins : insert (pureEnv (fun x s => H (Heap.read (w.heap ++ [w.heap.read ⟨w.caller[i], off, len⟩]) x) s) (fun _ => true)) () w.ht ⟨w.heap.length, 0, len⟩ with
      | error f =>
        rw [hins] at hmap
        have hs : w.step H (.insert i off len) = .error f := by
          simp only [World.step, Go.idx_eq hlt, Go.bind_ok, Go.idx_eq hv, he, hoff, if_true]
          simp only [pureEnv] at hins
          rw [hins]
          rfl
        simp only [World.run, hs]
        rw [hmap]
        simp only [mapRes, Go.bind_error]
        exact ⟨fun g h => by cases h; rfl, fun r h => (nomatch h)⟩
      | ok r =>
        obtain ⟨u, ht'⟩ := r
        have hs : w.step H (.insert i off len) = .ok { w with heap := w.heap ++ [w.heap.read ⟨w.caller[i], off, len⟩], ht := ht' } := by
          simp only [World.step, Go.idx_eq hlt, Go.bind_ok, Go.idx_eq hv, he, hoff, if_true]
          simp only [pureEnv] at hins
          rw [hins]
          rfl
        obtain ⟨hi1, hb, hins1⟩ := step_insert H hi hs
        have := ih _ hi1 (by rw [hb]; exact hl)
        rw [hb] at this
        simp only [World.run, hs, Go.bind_ok, hins1]
        exact this

end Verif.HashTable
