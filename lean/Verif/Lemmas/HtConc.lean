import Verif.Spec.HtConc
import Verif.Lemmas.HashTable5

/-! Lemmas on the small-step `Insert`: a call that runs alone. -/

namespace Verif.Lemmas.HtConc
open Verif Verif.HashTable Verif.Model.HtConc Verif.Spec.HtConc

variable {κ : Type}

theorem chain_none (m : Mem κ) : m.chain none = [] := rfl

/-- Memory of the other arrays is kept by `append`. -/
theorem append_rest (grow : Nat → Nat) (m : Mem κ) (hd : Option (Nat × Nat)) (k : κ) :
    (m.append grow hd k).1.rest = m.rest ∧ (m.append grow hd k).1.slots = m.slots := by
  unfold Mem.append
  cases hd with
  | none => exact ⟨rfl, rfl⟩
  | some p => dsimp only; split <;> exact ⟨rfl, rfl⟩

theorem chain_lt (m : Mem κ) {a l : Nat} {c : Nat} {d : List κ} (h : m.arrays[a]? = some (c, d)) : m.chain (some (a, l)) = d.take l := by
  simp [Mem.chain, h]

/-- `append` and the store of its result, made without interruption. -/
theorem put_sound {grow : Nat → Nat} {m : Mem κ} {i : Nat} {hd : Option (Nat × Nat)} (k : κ) (hs : Sound m) (hi : m.slots[i]? = some hd) :
    Sound { (m.append grow hd k).1 with slots := m.slots.set i (some (m.append grow hd k).2) } ∧
    (m.slots.set i (some (m.append grow hd k).2)).map (Mem.chain { (m.append grow hd k).1 with slots := m.slots.set i (some (m.append grow hd k).2) })
      = (m.slots.map m.chain).set i (m.chain hd ++ [k]) := by
  have hlt : i < m.slots.length := by
    rcases Nat.lt_or_ge i m.slots.length with h | h
    · exact h
    · rw [List.getElem?_eq_none h] at hi; cases hi
  -- the new header and its array
  have key : ∃ a l c d, (m.append grow hd k).2 = (a, l) ∧ (m.append grow hd k).1.arrays[a]? = some (c, d) ∧ d.length = l ∧ l ≤ c ∧ 0 < l ∧
      d = m.chain hd ++ [k] ∧ (∀ j l', j ≠ i → m.slots[j]? = some (some (a, l')) → False) ∧
      (∀ a', (∃ j l', j ≠ i ∧ m.slots[j]? = some (some (a', l'))) → (m.append grow hd k).1.arrays[a']? = m.arrays[a']?) := by
    cases hd with
    | none =>
      refine ⟨m.arrays.length, 1, 1 + grow 0, [k], rfl, by simp [Mem.append], rfl, by omega, by omega, rfl, ?_, ?_⟩
      · intro j l' _ hj
        obtain ⟨⟨c, d, ha, _⟩, _⟩ := hs j _ _ hj
        rw [List.getElem?_eq_none (Nat.le_refl _)] at ha; cases ha
      · rintro a' ⟨j, l', _, hj⟩
        obtain ⟨⟨c, d, ha, _⟩, _⟩ := hs j _ _ hj
        have : a' < m.arrays.length := by
          rcases Nat.lt_or_ge a' m.arrays.length with h | h
          · exact h
          · rw [List.getElem?_eq_none h] at ha; cases ha
        simp only [Mem.append]
        rw [List.getElem?_append_left this]
    | some p =>
      obtain ⟨a, l⟩ := p
      obtain ⟨⟨c, d, ha, hl, hc, hp⟩, hu⟩ := hs i a l hi
      have halt : a < m.arrays.length := by
        rcases Nat.lt_or_ge a m.arrays.length with h | h
        · exact h
        · rw [List.getElem?_eq_none h] at ha; cases ha
      have hch : m.chain (some (a, l)) = d := by rw [chain_lt m ha, List.take_of_length_le (by omega)]
      rw [hch]
      by_cases hlc : l < c
      · have e : m.append grow (some (a, l)) k = ({ m with arrays := m.arrays.set a (c, d.take l ++ k :: d.drop (l + 1)) }, (a, l + 1)) := by
          simp [Mem.append, ha, hlc]
        rw [e]
        have hd' : d.take l ++ k :: d.drop (l + 1) = d ++ [k] := by
          rw [List.take_of_length_le (by omega), List.drop_of_length_le (by omega)]
        rw [hd']
        refine ⟨a, l + 1, c, d ++ [k], rfl, by simp [halt], by simp [hl], by omega, by omega, rfl, ?_, ?_⟩
        · intro j l' hj hj'
          exact hj (hu j l' hj')
        · rintro a' ⟨j, l', hj, hj'⟩
          have : a ≠ a' := by rintro rfl; exact hj (hu j l' hj')
          simp [List.getElem?_set_ne this]
      · have e : m.append grow (some (a, l)) k = ({ m with arrays := m.arrays ++ [(l + 1 + grow l, d.take l ++ [k])] }, (m.arrays.length, l + 1)) := by
          simp [Mem.append, ha, hlc]
        rw [e]
        have hd' : d.take l = d := List.take_of_length_le (by omega)
        rw [hd']
        refine ⟨m.arrays.length, l + 1, l + 1 + grow l, d ++ [k], rfl, by simp, by simp [hl], by omega, by omega, rfl, ?_, ?_⟩
        · intro j l' _ hj
          obtain ⟨⟨c, d, ha, _⟩, _⟩ := hs j _ _ hj
          rw [List.getElem?_eq_none (Nat.le_refl _)] at ha; cases ha
        · rintro a' ⟨j, l', _, hj⟩
          obtain ⟨⟨c, d, ha, _⟩, _⟩ := hs j _ _ hj
          have : a' < m.arrays.length := by
            rcases Nat.lt_or_ge a' m.arrays.length with h | h
            · exact h
            · rw [List.getElem?_eq_none h] at ha; cases ha
          dsimp only
          rw [List.getElem?_append_left this]
  obtain ⟨a, l, c, d, e2, ha, hl, hc, hp, hd', hu, hold⟩ := key
  rw [e2]
  constructor
  · intro j a' l' hj
    dsimp only at hj ⊢
    rw [List.getElem?_set] at hj
    by_cases hji : i = j
    · subst hji
      simp [hlt] at hj
      obtain ⟨rfl, rfl⟩ := hj
      refine ⟨⟨c, d, ha, hl, hc, hp⟩, ?_⟩
      intro j l' hj
      by_cases hji : j = i
      · exact hji
      · rw [List.getElem?_set_ne (fun h => hji h.symm)] at hj
        exact (hu j l' hji hj).elim
    · rw [if_neg hji] at hj
      obtain ⟨⟨c', d', ha', h'⟩, hu'⟩ := hs j a' l' hj
      refine ⟨⟨c', d', by rw [hold a' ⟨j, l', fun h => hji h.symm, hj⟩]; exact ha', h'⟩, ?_⟩
      intro j' l'' hj'
      rw [List.getElem?_set] at hj'
      by_cases hji' : i = j'
      · subst hji'
        simp [hlt] at hj'
        obtain ⟨rfl, _⟩ := hj'
        exact (hu j l' (fun h => hji h.symm) hj).elim
      · rw [if_neg hji'] at hj'
        exact hu' j' l'' hj'
  · apply List.ext_getElem?
    intro j
    rw [List.getElem?_map, List.getElem?_set, List.getElem?_set]
    by_cases hji : i = j
    · subst hji
      simp only [if_true, hlt, List.length_map, Option.map_some]
      rw [chain_lt { (m.append grow hd k).1 with slots := m.slots.set i (some (a, l)) } ha, List.take_of_length_le (by omega), hd']
    · rw [if_neg hji, if_neg hji, List.getElem?_map]
      cases hj : m.slots[j]? with
      | none => rfl
      | some hd2 =>
        cases hd2 with
        | none => rfl
        | some p =>
          obtain ⟨a', l'⟩ := p
          have := hold a' ⟨j, l', fun h => hji h.symm, hj⟩
          simp only [Option.map_some, Mem.chain, this]

/-- Steps of one call. -/
inductive Reaches (H : κ → U64 → U64) (grow : Nat → Nat) (k : κ) : Mem κ → Pc → Mem κ → Pc → Prop
  | refl {m pc} : Reaches H grow k m pc m pc
  | head {m pc m1 pc1 m2 pc2} : step H grow k m pc = some (m1, pc1) → Reaches H grow k m1 pc1 m2 pc2 → Reaches H grow k m pc m2 pc2

theorem Reaches.trans {H : κ → U64 → U64} {grow k} {m m1 m2 : Mem κ} {pc pc1 pc2} (h : Reaches H grow k m pc m1 pc1) (h' : Reaches H grow k m1 pc1 m2 pc2) :
    Reaches H grow k m pc m2 pc2 := by
  induction h with
  | refl => exact h'
  | head s _ ih => exact .head s (ih h')

theorem Reaches.snoc {H : κ → U64 → U64} {grow k} {m m1 m2 : Mem κ} {pc pc1 pc2} (h : Reaches H grow k m pc m1 pc1) (h' : step H grow k m1 pc1 = some (m2, pc2)) :
    Reaches H grow k m pc m2 pc2 := h.trans (.head h' .refl)

/-- A call that has ended has one end. -/
theorem Reaches.unique {H : κ → U64 → U64} {grow k} {m m1 m2 : Mem κ} {pc pc1 pc2} (h : Reaches H grow k m pc m1 pc1) (h' : Reaches H grow k m pc m2 pc2)
    (e1 : step H grow k m1 pc1 = none) (e2 : step H grow k m2 pc2 = none) : m1 = m2 ∧ pc1 = pc2 := by
  induction h with
  | refl =>
    cases h' with
    | refl => exact ⟨rfl, rfl⟩
    | head s _ => rw [s] at e1; cases e1
  | head s _ ih =>
    cases h' with
    | refl => rw [s] at e2; cases e2
    | head s' t => rw [s] at s'; cases s'; exact ih t e1

theorem view_idx (m : Mem κ) (i : Nat) : m.view.buckets[i]? = (m.slots[i]?).map m.chain := by simp [Mem.view]

/-- The scan of a chain changes `Dups` only. -/
theorem scan_reaches (H : κ → U64 → U64) (grow : Nat → Nat) (k : κ) (h idx : U64) (b : List κ) :
    ∀ (r j : Nat) (m : Mem κ), j + r = b.length → m.chain ((m.slots[idx.toNat]?).getD none) = b →
      Reaches H grow k m (.scan h idx j b.length)
        { m with rest := { m.rest with dups := (scanDups (pureEnv H (fun _ => true)) m.rest.seed h (b.drop j) () m.rest.dups).1 } } (.app idx false) := by
  intro r
  induction r with
  | zero =>
    intro j m hj hb
    refine .head (m1 := m) (pc1 := .app idx false) ?_ ?_
    · rw [step, if_neg (by omega)]
    · rw [List.drop_of_length_le (by omega)]
      exact .refl
  | succ r ih =>
    intro j m hj hb
    have hlt : j < b.length := by omega
    have hget : (m.chain ((m.slots[idx.toNat]?).getD none))[j]? = some b[j] := by rw [hb, List.getElem?_eq_getElem hlt]
    rw [List.drop_eq_getElem_cons hlt]
    have hsc : (scanDups (pureEnv H (fun _ => true)) m.rest.seed h (b[j] :: b.drop (j + 1)) () m.rest.dups).1
        = (scanDups (pureEnv H (fun _ => true)) m.rest.seed h (b.drop (j + 1)) () (if H b[j] m.rest.seed = h then m.rest.dups + 1 else m.rest.dups)).1 := rfl
    rw [hsc]
    by_cases he : H b[j] m.rest.seed = h
    · refine .head (m1 := m) (pc1 := .inc .dups (.scan h idx (j + 1) b.length)) ?_ ?_
      · rw [step, if_pos hlt, hget]; simp only [he, if_true]
      · refine .head (m1 := m) (pc1 := .incw .dups m.rest.dups (.scan h idx (j + 1) b.length)) rfl ?_
        refine .head (m1 := { m with rest := { m.rest with dups := m.rest.dups + 1 } }) (pc1 := .scan h idx (j + 1) b.length) rfl ?_
        have := ih (j + 1) { m with rest := { m.rest with dups := m.rest.dups + 1 } } (by omega) hb
        rw [if_pos he]
        exact this
    · refine .head (m1 := m) (pc1 := .scan h idx (j + 1) b.length) ?_ ?_
      · rw [step, if_pos hlt, hget]; simp only [he, if_false]
      · rw [if_neg he]
        exact ih (j + 1) m (by omega) hb

theorem chain_pos {m : Mem κ} (hs : Sound m) {i a l : Nat} (hi : m.slots[i]? = some (some (a, l))) :
    (m.chain (some (a, l))).length = l ∧ 0 < l := by
  obtain ⟨⟨c, d, ha, hl, hc, hp⟩, _⟩ := hs i a l hi
  rw [chain_lt m ha, List.length_take]
  omega

/-- The loop of `Insert`, run alone. -/
theorem loop_reaches (H : κ → U64 → U64) (grow : Nat → Nat) (k : κ) (h : U64) :
    ∀ (fuel : Nat) (m : Mem κ) (idx : U64) (cnt pass : Nat), Sound m →
      (∀ w ht', insertLoop (pureEnv H (fun _ => true)) k h fuel () m.view idx cnt pass = .ok (w, ht') →
        ∃ m', Reaches H grow k m (.look h idx cnt pass) m' .done ∧ m'.view = ht' ∧ Sound m') ∧
      (∀ f, f ≠ .diverge → insertLoop (pureEnv H (fun _ => true)) k h fuel () m.view idx cnt pass = .error f →
        ∃ m', Reaches H grow k m (.look h idx cnt pass) m' (.fail f)) := by
  intro fuel
  induction fuel with
  | zero =>
    intro m idx cnt pass _
    refine ⟨fun w ht' e => ?_, fun f hf e => ?_⟩
    · rw [insertLoop] at e; cases e
    · rw [insertLoop] at e; cases e; exact (hf rfl).elim
  | succ fuel ih =>
    intro m idx cnt pass hs
    rw [insertLoop]
    cases hi : m.slots[idx.toNat]? with
    | none =>
      have hx : Go.idx m.view.buckets idx.toNat = .error .index := by rw [Go.idx, view_idx, hi]; rfl
      rw [hx]
      refine ⟨fun w ht' e => (by cases e), fun f hf e => ?_⟩
      cases e
      exact ⟨m, .head (by rw [step, hi]) .refl⟩
    | some hd =>
      have hx : Go.idx m.view.buckets idx.toNat = .ok (m.chain hd) := by rw [Go.idx, view_idx, hi]; rfl
      have hlt : idx.toNat < m.slots.length := by
        rcases Nat.lt_or_ge idx.toNat m.slots.length with h | h
        · exact h
        · rw [List.getElem?_eq_none h] at hi; cases hi
      have hset : ∀ v, Go.set m.view.buckets idx.toNat v = .ok (m.view.buckets.set idx.toNat v) := by
        intro v; rw [Go.set, if_pos (by simpa [Mem.view] using hlt)]
      obtain ⟨hs', hv'⟩ := put_sound (grow := grow) k hs hi
      obtain ⟨hr1, hr2⟩ := append_rest grow m hd k
      rw [hx, Go.bind_ok]
      cases hd with
      | none =>
        rw [if_pos (by rfl), hset, Go.bind_ok]
        have htc : traceChk (pureEnv H (fun _ => true)) k = .ok () := rfl
        rw [htc, Go.bind_ok]
        refine ⟨fun w ht' e => ?_, fun f hf e => (by cases e)⟩
        have e := congrArg Prod.snd (Except.ok.inj e)
        dsimp only at e
        refine ⟨{ (m.append grow none k).1 with slots := m.slots.set idx.toNat (some (m.append grow none k).2), rest := { m.rest with probes := m.rest.probes + 1, heads := m.rest.heads + 1 } }, ?_, ?_, hs'⟩
        · refine .head (m1 := m) (pc1 := .app idx true) (by rw [step, hi]) ?_
          refine .head (m1 := (m.append grow none k).1) (pc1 := .put idx (m.append grow none k).2 true) (by rw [step, hi]) ?_
          refine .head (m1 := { (m.append grow none k).1 with slots := m.slots.set idx.toNat (some (m.append grow none k).2) })
            (pc1 := .inc .probes (.inc .heads .done)) (by rw [step, hr2, if_pos hlt]; rfl) ?_
          refine .head rfl (.head rfl (.head rfl (.head rfl ?_)))
          exact .refl
        · rw [← e]
          have hv'' : List.map (Mem.chain { (m.append grow none k).1 with slots := m.slots.set idx.toNat (some (m.append grow none k).2), rest := { m.rest with probes := m.rest.probes + 1, heads := m.rest.heads + 1 } }) (m.slots.set idx.toNat (some (m.append grow none k).2))
              = m.view.buckets.set idx.toNat [k] := hv'
          simp only [Mem.view] at hv'' ⊢
          rw [hv'']
      | some p =>
        obtain ⟨a, l⟩ := p
        obtain ⟨hl, hp⟩ := chain_pos hs hi
        have hne : (m.chain (some (a, l))).isEmpty = false := by
          cases hb : m.chain (some (a, l)) with
          | nil => rw [hb] at hl; simp at hl; omega
          | cons _ _ => rfl
        have hgetD : (m.slots[idx.toNat]?).getD none = some (a, l) := by rw [hi]; rfl
        rw [hne, if_neg (by decide)]
        cases hoa : m.rest.oa with
        | true =>
          have hoa' : m.view.oa = true := hoa
          rw [if_pos hoa']
          have htc : traceChk (pureEnv H (fun _ => true)) k = .ok () := rfl
          dsimp only
          rw [htc, Go.bind_ok]
          obtain ⟨k0, hk0⟩ : ∃ k0, (m.chain (some (a, l)))[0]? = some k0 := ⟨_, List.getElem?_eq_getElem (by omega)⟩
          have hk0' : Go.idx (m.chain (some (a, l))) 0 = .ok k0 := by rw [Go.idx, hk0]
          rw [hk0', Go.bind_ok]
          -- after the counters
          have e1 : ∀ v : HT κ, HT.countProbe v cnt = (if cnt = 0 then Ctr.probes else Ctr.cols).set v ((if cnt = 0 then Ctr.probes else Ctr.cols).get v + 1) := by
            intro v; unfold HT.countProbe; split <;> rfl
          let m1 : Mem κ := { m with rest := HT.countProbe m.rest cnt }
          have hv1 : HT.countProbe m.view cnt = m1.view := by
            show HT.countProbe m.view cnt = Mem.view ⟨m.arrays, m.slots, HT.countProbe m.rest cnt⟩
            unfold HT.countProbe Mem.view; split <;> rfl
          have hseed : (HT.countProbe m.view cnt).seed = m.rest.seed := by unfold HT.countProbe; split <;> rfl
          have hsize : (HT.countProbe m.rest cnt).size = m.rest.size := by unfold HT.countProbe; split <;> rfl
          have hseed1 : (HT.countProbe m.rest cnt).seed = m.rest.seed := by unfold HT.countProbe; split <;> rfl
          have hs1 : Sound m1 := hs
          have r1 : Reaches H grow k m (.look h idx cnt pass) m1 (.key h idx cnt pass) := by
            refine .head (m1 := m) (pc1 := .inc (if cnt = 0 then .probes else .cols) (.key h idx cnt pass)) (by rw [step, hi]; simp [hoa]) ?_
            refine .head rfl (.head rfl ?_)
            rw [← e1]
            exact .refl
          let m2 : Mem κ := { m1 with rest := HT.countDup m1.rest (H k0 m.rest.seed) h }
          have hv2 : HT.countDup m1.view (H k0 m.rest.seed) h = m2.view := by
            show HT.countDup m1.view _ _ = Mem.view ⟨m1.arrays, m1.slots, HT.countDup m1.rest (H k0 m.rest.seed) h⟩
            unfold HT.countDup Mem.view; split <;> rfl
          have hsize2 : m2.view.size = m.rest.size := by
            show (HT.countDup m1.rest _ _).size = _
            unfold HT.countDup
            split
            · exact hsize
            · exact hsize
          have hs2 : Sound m2 := hs
          have r2 : Reaches H grow k m1 (.key h idx cnt pass) m2 (advance m.rest.size h idx cnt pass) := by
            have hch : (m1.chain ((m1.slots[idx.toNat]?).getD none))[0]? = some k0 := by
              show (m.chain ((m.slots[idx.toNat]?).getD none))[0]? = _
              rw [hgetD, hk0]
            by_cases he : H k0 m.rest.seed = h
            · refine .head (m1 := m1) (pc1 := .inc .dups (advance m1.rest.size h idx cnt pass)) ?_ ?_
              · rw [step, hch]
                show (if H k0 m1.rest.seed = h then _ else _) = _
                rw [if_pos (by show H k0 (HT.countProbe m.rest cnt).seed = h; rw [hseed1]; exact he)]
              · have : m2 = { m1 with rest := { m1.rest with dups := m1.rest.dups + 1 } } := by
                  show Mem.mk _ _ _ = _
                  rw [HT.countDup, if_pos he]
                rw [this, ← hsize]
                exact .head rfl (.head rfl .refl)
            · have : m2 = m1 := by
                show Mem.mk _ _ _ = _
                rw [HT.countDup, if_neg he]
              rw [this, ← hsize]
              refine .head (m1 := m1) (pc1 := advance m1.rest.size h idx cnt pass) ?_ .refl
              rw [step, hch]
              show (if H k0 m1.rest.seed = h then _ else _) = _
              rw [if_neg (by show ¬ H k0 (HT.countProbe m.rest cnt).seed = h; rw [hseed1]; exact he)]
          have r12 := r1.trans r2
          generalize hres : (if idx + 1 > _ then _ else _) = res
          change (if idx + 1 > (HT.countDup (HT.countProbe m.view cnt) (H k0 (HT.countProbe m.view cnt).seed) h).size - 1 then
              (if pass + 1 > 1 then Go.panic "Add: pass" else insertLoop (pureEnv H (fun _ => true)) k h fuel ()
                (HT.countDup (HT.countProbe m.view cnt) (H k0 (HT.countProbe m.view cnt).seed) h) 0 (cnt + 1) (pass + 1))
              else insertLoop (pureEnv H (fun _ => true)) k h fuel ()
                (HT.countDup (HT.countProbe m.view cnt) (H k0 (HT.countProbe m.view cnt).seed) h) (idx + 1) (cnt + 1) pass) = res at hres
          rw [hseed, hv1, hv2, hsize2] at hres
          rw [← hres]
          by_cases hw : idx + 1 > m.rest.size - 1
          · rw [if_pos hw]
            by_cases hps : pass + 1 > 1
            · rw [if_pos hps]
              have ea : advance m.rest.size h idx cnt pass = .fail (.explicit "Add: pass") := by rw [advance, if_pos hw, if_pos hps]
              refine ⟨fun w ht' e => (by cases e), fun f hf e => ?_⟩
              cases e
              exact ⟨m2, by rw [← ea]; exact r12⟩
            · rw [if_neg hps]
              have ea : advance m.rest.size h idx cnt pass = .look h 0 (cnt + 1) (pass + 1) := by rw [advance, if_pos hw, if_neg hps]
              rw [ea] at r12
              obtain ⟨i1, i2⟩ := ih m2 0 (cnt + 1) (pass + 1) hs2
              refine ⟨fun w ht' e => ?_, fun f hf e => ?_⟩
              · obtain ⟨m', hm, hv⟩ := i1 w ht' e
                exact ⟨m', r12.trans hm, hv⟩
              · obtain ⟨m', hm⟩ := i2 f hf e
                exact ⟨m', r12.trans hm⟩
          · rw [if_neg hw]
            have ea : advance m.rest.size h idx cnt pass = .look h (idx + 1) (cnt + 1) pass := by rw [advance, if_neg hw]
            rw [ea] at r12
            obtain ⟨i1, i2⟩ := ih m2 (idx + 1) (cnt + 1) pass hs2
            refine ⟨fun w ht' e => ?_, fun f hf e => ?_⟩
            · obtain ⟨m', hm, hv⟩ := i1 w ht' e
              exact ⟨m', r12.trans hm, hv⟩
            · obtain ⟨m', hm⟩ := i2 f hf e
              exact ⟨m', r12.trans hm⟩
        | false =>
          have hoa' : ¬ m.view.oa = true := by show ¬ m.rest.oa = true; rw [hoa]; decide
          rw [if_neg hoa']
          have htc : traceChk (pureEnv H (fun _ => true)) k = .ok () := rfl
          simp only [hset, htc, Go.bind_ok]
          refine ⟨fun w ht' e => ?_, fun f hf e => (by cases e)⟩
          have e := congrArg Prod.snd (Except.ok.inj e)
          dsimp only at e
          have hscan := scan_reaches H grow k h idx (m.chain (some (a, l))) l 0 m (by omega) (by rw [hgetD])
          rw [List.drop_zero] at hscan
          obtain ⟨d, hd⟩ : ∃ d, d = (scanDups (pureEnv H (fun _ => true)) m.rest.seed h (m.chain (some (a, l))) () m.rest.dups).1 := ⟨_, rfl⟩
          rw [← hd] at hscan
          have hd' : d = (scanDups (pureEnv H (fun _ => true)) m.view.seed h (m.chain (some (a, l))) () m.view.dups).1 := hd
          rw [← hd'] at e
          -- the append does not look at the counters
          obtain ⟨ma, hma⟩ : ∃ ma, ma = (m.append grow (some (a, l)) k) := ⟨_, rfl⟩
          have happ : ∀ r : HT κ, Mem.append grow { m with rest := r } (some (a, l)) k = ({ ma.1 with rest := r }, ma.2) := by
            intro r
            rw [hma]
            unfold Mem.append
            dsimp only
            split <;> rfl
          rw [← hma] at hr1 hr2 hs' hv'
          have hl2 : hdLen (some ma.2) = (m.chain (some (a, l)) ++ [k]).length := by
            have : (m.append grow (some (a, l)) k).2.2 = l + 1 := by
              unfold Mem.append; dsimp only; split <;> rfl
            rw [List.length_append, hl, ← hma] at *
            exact this
          obtain ⟨L, hL⟩ : ∃ L, L = (m.chain (some (a, l)) ++ [k]).length := ⟨_, rfl⟩
          rw [← hL] at hl2 e
          let R : HT κ := { m.rest with dups := d }
          let m3 : Mem κ := { ma.1 with slots := m.slots.set idx.toNat (some ma.2), rest := R }
          have hi3 : m3.slots[idx.toNat]? = some (some ma.2) := by
            show (m.slots.set idx.toNat (some ma.2))[idx.toNat]? = _
            rw [List.getElem?_set, if_pos rfl, if_pos hlt]
          have r3 : Reaches H grow k m (.look h idx cnt pass) m3 (.longest idx) := by
            refine .head (m1 := m) (pc1 := .rng h idx) (by rw [step, hi]; simp [hoa]) ?_
            refine .head (m1 := m) (pc1 := .scan h idx 0 (m.chain (some (a, l))).length) (by rw [step, hi, hl]; rfl) ?_
            refine hscan.trans ?_
            refine .head (m1 := { ma.1 with rest := R }) (pc1 := .put idx ma.2 false) ?_ ?_
            · rw [step]
              show (match m.slots[idx.toNat]? with | none => _ | some hd => _) = _
              rw [hi]
              show some ((Mem.append grow { m with rest := R } (some (a, l)) k).1, Pc.put idx (Mem.append grow { m with rest := R } (some (a, l)) k).2 false) = _
              rw [happ]
            · refine .head (m1 := m3) (pc1 := .longest idx) ?_ .refl
              rw [step]
              show (if idx.toNat < ma.1.slots.length then some (({ ma.1 with rest := R, slots := ma.1.slots.set idx.toNat (some ma.2) } : Mem κ), _) else _) = _
              rw [hr2, if_pos hlt]
              rfl
          let R' : HT κ := { R with longestChain := if L > m.rest.longestChain then L else m.rest.longestChain }
          let m4 : Mem κ := { m3 with rest := R' }
          have r4 : Reaches H grow k m3 (.longest idx) m4 (.inc .nbuckets (.inc .probes .done)) := by
            by_cases hg : L > m.rest.longestChain
            · refine .head (m1 := m3) (pc1 := .setLongest idx) ?_ ?_
              · rw [step, hi3]
                dsimp only
                rw [hl2]
                exact if_pos hg
              · refine .head ?_ .refl
                rw [step, hi3]
                dsimp only
                rw [hl2]
                show some (({ m3 with rest := { R with longestChain := L } } : Mem κ), _) = some (({ m3 with rest := { R with longestChain := if L > m.rest.longestChain then L else m.rest.longestChain } } : Mem κ), _)
                rw [if_pos hg]
            · refine .head ?_ .refl
              rw [step, hi3]
              dsimp only
              rw [hl2]
              show (if L > m.rest.longestChain then _ else _) = some (({ m3 with rest := { R with longestChain := if L > m.rest.longestChain then L else m.rest.longestChain } } : Mem κ), _)
              rw [if_neg hg, if_neg hg]
          refine ⟨{ m4 with rest := { R' with nbuckets := m.rest.nbuckets + 1, probes := m.rest.probes + 1 } }, ?_, ?_, hs'⟩
          · refine r3.trans (r4.trans ?_)
            exact .head rfl (.head rfl (.head rfl (.head rfl .refl)))
          · rw [← e]
            have hv'' : List.map (Mem.chain { m4 with rest := { R' with nbuckets := m.rest.nbuckets + 1, probes := m.rest.probes + 1 } }) (m.slots.set idx.toNat (some ma.2))
                = m.view.buckets.set idx.toNat (m.chain (some (a, l)) ++ [k]) := hv'
            show ({ m.rest with dups := d, longestChain := _, nbuckets := _, probes := _, buckets := List.map _ _ } : HT κ) = _
            rw [hv'']
            rfl

end Verif.Lemmas.HtConc
