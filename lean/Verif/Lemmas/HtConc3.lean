import Verif.Lemmas.HtConc2

/-! Lemmas on the small-step `Insert`: calls without a lock. -/

namespace Verif.Lemmas.HtConc
open Verif Verif.HashTable Verif.Model.HtConc Verif.Spec.HtConc

variable {κ : Type}

/-- The call has not evaluated its `append`. -/
def before : Pc → Bool
  | .inc _ n => before n
  | .incw _ _ n => before n
  | .hash => true
  | .look _ _ _ _ => true
  | .key _ _ _ _ => true
  | .rng _ _ => true
  | .scan _ _ _ _ => true
  | .app _ _ => true
  | _ => false

/-- The call has stored the result of its `append`. -/
def after : Pc → Bool
  | .inc _ n => after n
  | .incw _ _ n => after n
  | .longest _ => true
  | .setLongest _ => true
  | .done => true
  | _ => false

/-- The header the call is about to store. -/
def pending : Pc → Option (Nat × Nat × Nat)
  | .inc _ n => pending n
  | .incw _ _ n => pending n
  | .put idx hd _ => some (idx.toNat, hd)
  | _ => none

/-- The call is at bucket `i`. -/
def at_ (i : Nat) : Pc → Prop
  | .inc _ n => at_ i n
  | .incw _ _ n => at_ i n
  | .hash => True
  | .look _ idx _ _ => idx.toNat = i
  | .key _ _ _ _ => False
  | .rng _ idx => idx.toNat = i
  | .scan _ idx _ _ => idx.toNat = i
  | .app idx _ => idx.toNat = i
  | .put idx _ _ => idx.toNat = i
  | .longest idx => idx.toNat = i
  | .setLongest idx => idx.toNat = i
  | .done => True
  | .fail _ => True

/-- The call has not panicked and will not read outside its bucket. -/
def sane (slots : List (Option (Nat × Nat))) : Pc → Prop
  | .inc _ n => sane slots n
  | .incw _ _ n => sane slots n
  | .scan _ idx _ n => ∀ hd, slots[idx.toNat]? = some hd → n ≤ hdLen hd
  | .fail _ => False
  | _ => True

/-- What bucket `i` held at first. -/
def old (m0 : Mem κ) (i : Nat) : List κ := m0.chain ((m0.slots[i]?).getD none)

theorem bucket_view (m : Mem κ) (i : Nat) : bucket m.view i = old m i := by
  unfold bucket old
  rw [view_idx]
  cases m.slots[i]? <;> rfl

/-- Array `own a = some i` holds what bucket `i` held at first and the keys of the goroutines in `lab a`. -/
structure UInv (H : κ → U64 → U64) {n : Nat} (ks : Fin n → κ) (m0 : Mem κ) (c : Conc κ n) (own : Nat → Option Nat) (lab : Nat → List (Fin n)) : Prop where
  len : c.m.slots.length = m0.slots.length
  seed : c.m.rest.seed = m0.rest.seed
  prime : c.m.rest.prime = m0.rest.prime
  size : c.m.rest.size = m0.rest.size
  mask : c.m.rest.sizeMask = m0.rest.sizeMask
  oa : c.m.rest.oa = m0.rest.oa
  arr : ∀ a i, own a = some i → ∃ cap d, c.m.arrays[a]? = some (cap, d) ∧ d = old m0 i ++ (lab a).map ks ∧ d.length ≤ cap
  free : ∀ a, own a = none → lab a = []
  nodup : ∀ a, (lab a).Nodup
  late : ∀ a g, g ∈ lab a → before (c.pcs g) = false
  uniq : ∀ a b g, g ∈ lab a → g ∈ lab b → own a = own b
  nil : ∀ i : Nat, c.m.slots[i]? = some none → old m0 i = []
  slot : ∀ i a l : Nat, c.m.slots[i]? = some (some (a, l)) → own a = some i ∧ (old m0 i).length ≤ l ∧ l ≤ (old m0 i).length + (lab a).length
  pend : ∀ g i a l, pending (c.pcs g) = some (i, a, l) → own a = some i ∧ (old m0 i).length < l ∧ l ≤ (old m0 i).length + (lab a).length
  chained : m0.rest.oa = false → ∀ g, at_ (home H m0.view (ks g)) (c.pcs g)
  homes : m0.rest.oa = false → ∀ a i g, own a = some i → g ∈ lab a → i = home H m0.view (ks g)
  kept : m0.rest.oa = false → ∀ g, after (c.pcs g) = true → ∃ a l, c.m.slots[home H m0.view (ks g)]? = some (some (a, l)) ∧ (old m0 (home H m0.view (ks g))).length < l
  ok : m0.rest.oa = false → ∀ g, (∀ g', g' ≠ g → home H m0.view (ks g') ≠ home H m0.view (ks g)) → sane c.m.slots (c.pcs g)

theorem UInv.lt {H : κ → U64 → U64} {n : Nat} {ks : Fin n → κ} {m0 : Mem κ} {c : Conc κ n} {own lab} (inv : UInv H ks m0 c own lab) {a i : Nat} (h : own a = some i) :
    a < c.m.arrays.length := by
  obtain ⟨cap, d, h, _⟩ := inv.arr a i h
  rcases Nat.lt_or_ge a c.m.arrays.length with h' | h'
  · exact h'
  · rw [List.getElem?_eq_none h'] at h; cases h

/-- What a header denotes. -/
theorem UInv.chain {H : κ → U64 → U64} {n : Nat} {ks : Fin n → κ} {m0 : Mem κ} {c : Conc κ n} {own lab} (inv : UInv H ks m0 c own lab) {a i l : Nat} (h : own a = some i)
    (h1 : (old m0 i).length ≤ l) (h2 : l ≤ (old m0 i).length + (lab a).length) :
    c.m.chain (some (a, l)) = old m0 i ++ ((lab a).take (l - (old m0 i).length)).map ks ∧ (c.m.chain (some (a, l))).length = l := by
  obtain ⟨cap, d, ha, hd, _⟩ := inv.arr a i h
  have e : c.m.chain (some (a, l)) = old m0 i ++ ((lab a).take (l - (old m0 i).length)).map ks := by
    rw [chain_lt c.m ha, hd, List.take_append, List.take_of_length_le h1, List.map_take]
  refine ⟨e, ?_⟩
  rw [e, List.length_append, List.length_map, List.length_take]
  omega

/-- A step that changes neither arrays nor buckets. -/
theorem UInv.quiet {H : κ → U64 → U64} {n : Nat} {ks : Fin n → κ} {m0 : Mem κ} {c : Conc κ n} {own lab} (inv : UInv H ks m0 c own lab) (g : Fin n) (r : HT κ) (pc : Pc)
    (hr : r.seed = c.m.rest.seed ∧ r.prime = c.m.rest.prime ∧ r.size = c.m.rest.size ∧ r.sizeMask = c.m.rest.sizeMask ∧ r.oa = c.m.rest.oa)
    (hb : before (c.pcs g) = false → before pc = false)
    (hp : ∀ x, pending pc = some x → pending (c.pcs g) = some x)
    (ht : m0.rest.oa = false → at_ (home H m0.view (ks g)) (c.pcs g) → at_ (home H m0.view (ks g)) pc)
    (ha : after pc = true → after (c.pcs g) = true)
    (hf : m0.rest.oa = false → (∀ g', g' ≠ g → home H m0.view (ks g') ≠ home H m0.view (ks g)) → sane c.m.slots (c.pcs g) → sane c.m.slots pc) :
    UInv H ks m0 ⟨{ c.m with rest := r }, fun j => if j = g then pc else c.pcs j⟩ own lab := by
  obtain ⟨r1, r2, r3, r4, r5⟩ := hr
  refine ⟨inv.len, r1.trans inv.seed, r2.trans inv.prime, r3.trans inv.size, r4.trans inv.mask, r5.trans inv.oa, inv.arr, inv.free, inv.nodup, ?_, inv.uniq, inv.nil, inv.slot, ?_, ?_, inv.homes, ?_, ?_⟩
  · intro a j hj
    dsimp only
    split
    next h => subst h; exact hb (inv.late a j hj)
    next h => exact inv.late a j hj
  · intro j i a l
    dsimp only
    split
    next h => subst h; intro h; exact inv.pend j i a l (hp _ h)
    next h => exact inv.pend j i a l
  · intro ho j
    dsimp only
    split
    next h => subst h; exact ht ho (inv.chained ho j)
    next h => exact inv.chained ho j
  · intro ho j
    dsimp only
    split
    next h => subst h; intro h; exact inv.kept ho j (ha h)
    next h => exact inv.kept ho j
  · intro ho j hj
    dsimp only
    split
    next h => subst h; exact hf ho hj (inv.ok ho j hj)
    next h => exact inv.ok ho j hj

/-- A step that writes one array: array `a`, of bucket `i`, now holds the keys of `L` after what the bucket held at first. -/
theorem UInv.write {H : κ → U64 → U64} {n : Nat} {ks : Fin n → κ} {m0 : Mem κ} {c : Conc κ n} {own : Nat → Option Nat} {lab : Nat → List (Fin n)} (inv : UInv H ks m0 c own lab) (g : Fin n) (idx : U64) (first : Bool)
    (a l cap : Nat) (L : List (Fin n)) (A : List (Nat × List κ))
    (hb : before (c.pcs g) = true) (hat : m0.rest.oa = false → idx.toNat = home H m0.view (ks g))
    (hown : own a = some idx.toNat ∨ own a = none)
    (hA : A[a]? = some (cap, old m0 idx.toNat ++ L.map ks)) (hcap : (old m0 idx.toNat).length + L.length ≤ cap)
    (hoth : ∀ b i, b ≠ a → own b = some i → A[b]? = c.m.arrays[b]?)
    (hL : L.Nodup) (hm : ∀ x ∈ L, x = g ∨ ∃ b, x ∈ lab b ∧ own b = some idx.toNat) (hle : (lab a).length ≤ L.length)
    (h1 : (old m0 idx.toNat).length < l) (h2 : l ≤ (old m0 idx.toNat).length + L.length) :
    UInv H ks m0 ⟨{ c.m with arrays := A }, fun j => if j = g then .put idx (a, l) first else c.pcs j⟩
      (fun b => if b = a then some idx.toNat else own b) (fun b => if b = a then L else lab b) := by
  have hg : ∀ b, g ∉ lab b := fun b h => by have := inv.late b g h; rw [hb] at this; cases this
  have good : ∀ b i l, own b = some i ∧ (old m0 i).length ≤ l ∧ l ≤ (old m0 i).length + (lab b).length →
      (if b = a then some idx.toNat else own b) = some i ∧ (old m0 i).length ≤ l ∧ l ≤ (old m0 i).length + (if b = a then L else lab b).length := by
    rintro b i l ⟨x1, x2, x3⟩
    by_cases hba : b = a
    · subst hba
      rw [if_pos rfl, if_pos rfl]
      rcases hown with h | h
      · rw [h] at x1
        exact ⟨x1, x2, by omega⟩
      · rw [h] at x1; cases x1
    · rw [if_neg hba, if_neg hba]; exact ⟨x1, x2, x3⟩
  refine ⟨inv.len, inv.seed, inv.prime, inv.size, inv.mask, inv.oa, ?_, ?_, ?_, ?_, ?_, inv.nil, ?_, ?_, ?_, ?_, ?_, ?_⟩
  · intro b i hbi
    dsimp only at hbi ⊢
    by_cases hba : b = a
    · subst hba
      rw [if_pos rfl] at hbi ⊢
      cases hbi
      exact ⟨cap, _, hA, rfl, by rw [List.length_append, List.length_map]; exact hcap⟩
    · rw [if_neg hba] at hbi ⊢
      obtain ⟨cap', d, x1, x2, x3⟩ := inv.arr b i hbi
      exact ⟨cap', d, by rw [hoth b i hba hbi]; exact x1, x2, x3⟩
  · intro b hb'
    by_cases hba : b = a
    · rw [if_pos hba] at hb'; cases hb'
    · rw [if_neg hba] at hb' ⊢; exact inv.free b hb'
  · intro b
    split
    · exact hL
    · exact inv.nodup b
  · intro b x hx
    dsimp only at hx ⊢
    by_cases hxg : x = g
    · rw [if_pos hxg]; rfl
    · rw [if_neg hxg]
      by_cases hba : b = a
      · rw [if_pos hba] at hx
        rcases hm x hx with h | ⟨b', h, _⟩
        · exact (hxg h).elim
        · exact inv.late b' x h
      · rw [if_neg hba] at hx
        exact inv.late b x hx
  · intro b b' x hx hx'
    have key : ∀ b', b' ≠ a → x ∈ L → x ∈ lab b' → own b' = some idx.toNat := by
      intro b' hb' h1 h2
      rcases hm x h1 with h | ⟨b'', h, hi⟩
      · subst h; exact (hg _ h2).elim
      · rw [inv.uniq b' b'' x h2 h, hi]
    by_cases hba : b = a <;> by_cases hba' : b' = a
    · rw [if_pos hba, if_pos hba']
    · rw [if_pos hba] at hx ⊢
      rw [if_neg hba'] at hx' ⊢
      exact (key b' hba' hx hx').symm
    · rw [if_neg hba] at hx ⊢
      rw [if_pos hba'] at hx' ⊢
      exact key b hba hx' hx
    · rw [if_neg hba] at hx ⊢
      rw [if_neg hba'] at hx' ⊢
      exact inv.uniq b b' x hx hx'
  · intro i b l' hs
    exact good b i l' (inv.slot i b l' hs)
  · intro j i b l' hp
    dsimp only at hp ⊢
    by_cases hj : j = g
    · rw [if_pos hj] at hp
      have e : (idx.toNat, (a, l)) = (i, b, l') := Option.some.inj hp
      cases e
      rw [if_pos rfl, if_pos rfl]
      exact ⟨rfl, h1, h2⟩
    · rw [if_neg hj] at hp
      obtain ⟨x1, x2, x3⟩ := inv.pend j i b l' hp
      obtain ⟨y1, _, y3⟩ := good b i l' ⟨x1, by omega, x3⟩
      exact ⟨y1, x2, y3⟩
  · intro ho j
    dsimp only
    split
    · next h => subst h; exact hat ho
    · exact inv.chained ho j
  · intro ho b i x hbi hx
    by_cases hba : b = a
    · rw [if_pos hba] at hbi hx
      cases hbi
      rcases hm x hx with h | ⟨b', h, hi⟩
      · rw [h]; exact hat ho
      · exact inv.homes ho b' _ x hi h
    · rw [if_neg hba] at hbi hx
      exact inv.homes ho b i x hbi hx
  · intro ho j
    dsimp only
    split
    · intro h; cases h
    · exact inv.kept ho j
  · intro ho j hj
    dsimp only
    split
    · trivial
    · exact inv.ok ho j hj

theorem nodup_replace {L : List α} {g : α} (hL : L.Nodup) (hg : g ∉ L) (p : Nat) : (L.take p ++ g :: L.drop (p + 1)).Nodup := by
  rw [List.nodup_append]
  have ht := hL.sublist (List.take_sublist p L)
  have hd := hL.sublist (List.drop_sublist (p + 1) L)
  have hsplit : (L.take p ++ L.drop p).Nodup := by rw [List.take_append_drop]; exact hL
  rw [List.nodup_append] at hsplit
  refine ⟨ht, ?_, ?_⟩
  · rw [List.nodup_cons]
    exact ⟨fun h => hg (List.mem_of_mem_drop h), hd⟩
  · intro a ha b hb
    rcases List.mem_cons.1 hb with rfl | hb
    · rintro rfl; exact hg (List.mem_of_mem_take ha)
    · refine hsplit.2.2 a ha b ?_
      have : L.drop (p + 1) = (L.drop p).drop 1 := by rw [List.drop_drop]
      rw [this] at hb
      exact List.mem_of_mem_drop hb

/-- The step that evaluates `append`. -/
theorem UInv.app {H : κ → U64 → U64} {grow : Nat → Nat} {n : Nat} {ks : Fin n → κ} {m0 : Mem κ} {c : Conc κ n} {own : Nat → Option Nat} {lab : Nat → List (Fin n)} (inv : UInv H ks m0 c own lab) (g : Fin n)
    (idx : U64) (first : Bool) (hpc : c.pcs g = .app idx first) (hd : Option (Nat × Nat)) (hi : c.m.slots[idx.toNat]? = some hd) :
    ∃ own' lab', UInv H ks m0 ⟨(c.m.append grow hd (ks g)).1, fun j => if j = g then .put idx (c.m.append grow hd (ks g)).2 first else c.pcs j⟩ own' lab' := by
  have hb : before (c.pcs g) = true := by rw [hpc]; rfl
  have hat : m0.rest.oa = false → idx.toNat = home H m0.view (ks g) := by
    intro ho; have := inv.chained ho g; rw [hpc] at this; exact this
  have hg : ∀ b, g ∉ lab b := fun b h => by have := inv.late b g h; rw [hb] at this; cases this
  have hfresh : own c.m.arrays.length = none := by
    cases h : own c.m.arrays.length with
    | none => rfl
    | some i => exact absurd (inv.lt h) (Nat.lt_irrefl _)
  cases hd with
  | none =>
    have ho := inv.nil _ hi
    refine ⟨_, _, inv.write g idx first c.m.arrays.length 1 (1 + grow 0) [g] (c.m.arrays ++ [(1 + grow 0, [ks g])]) hb hat (.inr hfresh) ?_ ?_ ?_ (by simp) ?_ ?_ ?_ ?_⟩
    · rw [ho]; simp
    · rw [ho]; simp
    · intro b i _ hbi
      rw [List.getElem?_append_left (inv.lt hbi)]
    · intro x hx; exact .inl (by simpa using hx)
    · rw [inv.free _ hfresh]; simp
    · rw [ho]; simp
    · rw [ho]; simp
  | some p =>
    obtain ⟨a, l⟩ := p
    obtain ⟨s1, s2, s3⟩ := inv.slot _ _ _ hi
    obtain ⟨cap, d, ha, hd, hc⟩ := inv.arr a _ s1
    have hdl : d.length = (old m0 idx.toNat).length + (lab a).length := by rw [hd]; simp
    have htake : d.take l = old m0 idx.toNat ++ ((lab a).take (l - (old m0 idx.toNat).length)).map ks := by
      rw [hd, List.take_append, List.take_of_length_le s2, List.map_take]
    by_cases hlc : l < cap
    · have e : c.m.append grow (some (a, l)) (ks g) = ({ c.m with arrays := c.m.arrays.set a (cap, d.take l ++ ks g :: d.drop (l + 1)) }, (a, l + 1)) := by
        simp [Mem.append, ha, hlc]
      rw [e]
      obtain ⟨p, hp⟩ : ∃ p, p = l - (old m0 idx.toNat).length := ⟨_, rfl⟩
      rw [← hp] at htake
      have hdrop : d.drop (l + 1) = ((lab a).drop (p + 1)).map ks := by
        rw [hd, List.drop_append, List.drop_of_length_le (by omega), List.nil_append, List.map_drop]
        congr 1
        omega
      have hLlen : ((lab a).take p ++ g :: (lab a).drop (p + 1)).length = max (lab a).length (p + 1) := by
        rw [List.length_append, List.length_cons, List.length_take, List.length_drop]
        omega
      refine ⟨_, _, inv.write g idx first a (l + 1) cap ((lab a).take p ++ g :: (lab a).drop (p + 1)) _ hb hat (.inl s1) ?_ ?_ ?_ (nodup_replace (inv.nodup a) (hg a) p) ?_ ?_ ?_ ?_⟩
      · rw [List.getElem?_set, if_pos rfl, if_pos (inv.lt s1), htake, hdrop]
        simp
      · rw [hLlen]; omega
      · intro b i hba _
        rw [List.getElem?_set_ne (fun h => hba h.symm)]
      · intro x hx
        rw [List.mem_append, List.mem_cons] at hx
        rcases hx with h | h | h
        · exact .inr ⟨a, List.mem_of_mem_take h, s1⟩
        · exact .inl h
        · exact .inr ⟨a, List.mem_of_mem_drop h, s1⟩
      · rw [hLlen]; omega
      · omega
      · rw [hLlen]; omega
    · have e : c.m.append grow (some (a, l)) (ks g) = ({ c.m with arrays := c.m.arrays ++ [(l + 1 + grow l, d.take l ++ [ks g])] }, (c.m.arrays.length, l + 1)) := by
        simp [Mem.append, ha, hlc]
      rw [e]
      have hLlen : ((lab a).take (l - (old m0 idx.toNat).length) ++ [g]).length = l - (old m0 idx.toNat).length + 1 := by
        rw [List.length_append, List.length_take, List.length_singleton]
        omega
      refine ⟨_, _, inv.write g idx first c.m.arrays.length (l + 1) (l + 1 + grow l) ((lab a).take (l - (old m0 idx.toNat).length) ++ [g]) _ hb hat (.inr hfresh) ?_ ?_ ?_ ?_ ?_ ?_ ?_ ?_⟩
      · rw [htake]; simp
      · rw [hLlen]; omega
      · intro b i _ hbi
        rw [List.getElem?_append_left (inv.lt hbi)]
      · rw [List.nodup_append]
        refine ⟨(inv.nodup a).sublist (List.take_sublist _ _), by simp, ?_⟩
        intro x hx y hy
        simp at hy
        subst hy
        rintro rfl
        exact hg a (List.mem_of_mem_take hx)
      · intro x hx
        rw [List.mem_append, List.mem_singleton] at hx
        rcases hx with h | h
        · exact .inr ⟨a, List.mem_of_mem_take h, s1⟩
        · exact .inl h
      · rw [inv.free _ hfresh]; simp
      · omega
      · rw [hLlen]; omega

/-- The step that stores the result. -/
theorem UInv.put {H : κ → U64 → U64} {n : Nat} {ks : Fin n → κ} {m0 : Mem κ} {c : Conc κ n} {own : Nat → Option Nat} {lab : Nat → List (Fin n)} (inv : UInv H ks m0 c own lab) (g : Fin n)
    (idx : U64) (a l : Nat) (first : Bool) (hpc : c.pcs g = .put idx (a, l) first) (hlt : idx.toNat < c.m.slots.length) :
    UInv H ks m0 ⟨{ c.m with slots := c.m.slots.set idx.toNat (some (a, l)) }, fun j => if j = g then (if first then .inc .probes (.inc .heads .done) else .longest idx) else c.pcs j⟩ own lab := by
  obtain ⟨p1, p2, p3⟩ := inv.pend g idx.toNat a l (by rw [hpc]; rfl)
  have hat : m0.rest.oa = false → idx.toNat = home H m0.view (ks g) := by
    intro ho; have := inv.chained ho g; rw [hpc] at this; exact this
  refine ⟨by simpa using inv.len, inv.seed, inv.prime, inv.size, inv.mask, inv.oa, inv.arr, inv.free, inv.nodup, ?_, inv.uniq, ?_, ?_, ?_, ?_, inv.homes, ?_, ?_⟩
  · intro b x hx
    dsimp only
    split
    · cases first <;> rfl
    · exact inv.late b x hx
  · intro i hi
    dsimp only at hi
    rw [List.getElem?_set] at hi
    split at hi
    · cases hi
    · exact inv.nil i hi
  · intro i b l' hi
    dsimp only at hi
    rw [List.getElem?_set] at hi
    split at hi
    · next h =>
      cases hi
      rw [← h]
      exact ⟨p1, by omega, p3⟩
    · exact inv.slot i b l' hi
  · intro j i b l' hp
    dsimp only at hp
    split at hp
    · cases first <;> cases hp
    · exact inv.pend j i b l' hp
  · intro ho j
    dsimp only
    split
    · next h => subst h; cases first; exact hat ho; trivial
    · exact inv.chained ho j
  · intro ho j
    dsimp only
    intro hj
    rw [List.getElem?_set]
    by_cases hi : idx.toNat = home H m0.view (ks j)
    · rw [if_pos hi, if_pos hlt, ← hi]
      exact ⟨a, l, rfl, p2⟩
    · rw [if_neg hi]
      split at hj
      · next h => subst h; exact (hi (hat ho)).elim
      · exact inv.kept ho j hj
  · intro ho j hj
    dsimp only
    split
    · next h => cases first <;> trivial
    · next h =>
      have := inv.ok ho j hj
      have hne : idx.toNat ≠ home H m0.view (ks j) := by
        rw [hat ho]
        exact hj g (fun e => h e.symm)
      have hcj := inv.chained ho j
      generalize c.pcs j = pc at this hcj
      induction pc with
      | inc _ _ ih => exact ih this hcj
      | incw _ _ _ ih => exact ih this hcj
      | scan h' i' j' n' =>
        intro hd hhd
        rw [List.getElem?_set_ne (by rw [show i'.toNat = _ from hcj]; exact hne)] at hhd
        exact this hd hhd
      | fail _ => exact this
      | _ => trivial

end Verif.Lemmas.HtConc
