import Verif.Spec.StreamHeap
import Verif.Lemmas.KeccakHeap
import Verif.Lemmas.Murmur3

namespace Verif.Lemmas.StreamHeap
open Verif
open Verif.Model.KeccakHeap (Heap Slice Ref nil append overwrite CSlice poke)
open Verif.Model.StreamHeap
open Verif.Spec.StreamHeap
open Verif.Lemmas.KeccakHeap (overwrite_length overwrite_nil read_overwrite set_getD_self read_take read_drop read_nil)

/-! ## Simulation -/

/-- The contents of the array an object owns. -/
def cont (own : τ → Option Nat) (h : Heap) (t : τ) : List U8 :=
  match own t with
  | none => []
  | some i => h.own.getD i []

/-- What a call may do to memory: the caller's arrays stay, and of the objects' arrays only the one owned (`o`) may change; what is owned
afterwards (`o'`) is the same or new. -/
structure Frame (h h' : Heap) (o o' : Option Nat) : Prop where
  caller : h'.caller = h.caller
  len : h.own.length ≤ h'.own.length
  old : ∀ i, i < h.own.length → o ≠ some i → h'.own.getD i [] = h.own.getD i []
  new : ∀ i, o' = some i → i < h'.own.length ∧ (o = some i ∨ h.own.length ≤ i)

theorem Frame.refl {h : Heap} {o : Option Nat} (ho : ∀ i, o = some i → i < h.own.length) : Frame h h o o :=
  ⟨rfl, Nat.le_refl _, fun _ _ _ => rfl, fun i hi => ⟨ho i hi, Or.inl hi⟩⟩

/-- A slice of the caller, as `check` lets it through. -/
structure Arg (h : Heap) (s : Slice) : Prop where
  le : s.len ≤ s.cap
  fits : s.off + s.cap ≤ (h.arr s.ref).length
  who : ∃ i, s.ref = .caller i

theorem Arg.length {h : Heap} {s : Slice} (a : Arg h s) : (h.read s).length = s.len := by
  unfold Heap.read
  have := a.le
  have := a.fits
  rw [List.length_take, List.length_drop]
  omega

theorem read_caller {h h' : Heap} (e : h'.caller = h.caller) {s : Slice} (w : ∃ i, s.ref = .caller i) : h'.read s = h.read s := by
  obtain ⟨i, w⟩ := w
  unfold Heap.read Heap.arr
  rw [w, e]

/-- The objects of `M` behave like those of `I`. -/
structure Sim (M : MemHasher ι τ) (I : Ideal ι σ) where
  own : τ → Option Nat
  R : List U8 → τ → σ → Prop
  new_error : ∀ h k i e, Arg h k → I.new (h.read k) i = .error e → M.new h k i = .error e
  new_ok : ∀ h k i s, Arg h k → I.new (h.read k) i = .ok s → ∃ h' t, M.new h k i = .ok (h', t) ∧ Frame h h' none (own t) ∧ R (cont own h' t) t s
  write : ∀ h t s p, (∀ i, own t = some i → i < h.own.length) → R (cont own h t) t s → Arg h p →
    ∃ h' t', M.write h t p = .ok (h', t', p.len) ∧ Frame h h' (own t) (own t') ∧ R (cont own h' t') t' (I.write s (h.read p))
  reset : ∀ c t s, R c t s → (own (M.reset t) = none ∧ R [] (M.reset t) (I.reset s)) ∨ (own (M.reset t) = own t ∧ R c (M.reset t) (I.reset s))
  sum : ∀ h t s, R (cont own h t) t s → ∃ t', M.sum h t = .ok (t', (I.sum s).2) ∧ own t' = own t ∧ R (cont own h t) t' (I.sum s).1
  value : ∀ h t s, R (cont own h t) t s → ∃ t', M.value h t = .ok (t', (I.value s).2) ∧ own t' = own t ∧ R (cont own h t) t' (I.value s).1

section
variable {M : MemHasher ι τ} {I : Ideal ι σ} (S : Sim M I)

/-- All objects, with separate arrays. -/
structure Inv (h : Heap) (ts : List τ) (ss : List σ) : Prop where
  len : ts.length = ss.length
  rel : ∀ (j : Nat) t s, ts[j]? = some t → ss[j]? = some s → S.R (cont S.own h t) t s
  range : ∀ (j : Nat) t i, ts[j]? = some t → S.own t = some i → i < h.own.length
  apart : ∀ (j : Nat) (j' : Nat) t t' i, j ≠ j' → ts[j]? = some t → ts[j']? = some t' → S.own t = some i → S.own t' ≠ some i

theorem inv_nil (h : Heap) : Inv S h [] [] :=
  ⟨rfl, fun _ _ _ h => by simp at h, fun _ _ _ h => by simp at h, fun _ _ _ _ _ _ h => by simp at h⟩

/-- Storing into the caller's arrays touches no object. -/
theorem Inv.caller {h : Heap} {ts : List τ} {ss : List σ} (v : Inv S h ts ss) (m : List (List U8)) : Inv S { h with caller := m } ts ss :=
  ⟨v.len, fun j t s h1 h2 => v.rel j t s h1 h2, fun j t i h1 h2 => v.range j t i h1 h2, v.apart⟩

/-- One object is replaced. -/
theorem Inv.set {h h' : Heap} {ts : List τ} {ss : List σ} (v : Inv S h ts ss) {j : Nat} {t t' : τ} {s' : σ} (ht : ts[j]? = some t)
    (f : Frame h h' (S.own t) (S.own t')) (r : S.R (cont S.own h' t') t' s') : Inv S h' (ts.set j t') (ss.set j s') := by
  have hj : j < ts.length := by
    by_contra hc
    rw [List.getElem?_eq_none (by omega)] at ht
    exact nomatch ht
  have keep : ∀ k x i, j ≠ k → ts[k]? = some x → S.own x = some i → h'.own.getD i [] = h.own.getD i [] := by
    intro k x i hk hx hi
    refine f.old i (v.range k x i hx hi) fun he => ?_
    exact v.apart j k t x i hk ht hx he hi
  refine ⟨by simp [v.len], ?_, ?_, ?_⟩
  · intro k x y hx hy
    rw [List.getElem?_set] at hx hy
    by_cases hk : j = k
    · subst hk
      rw [if_pos rfl, if_pos hj] at hx
      rw [if_pos rfl, if_pos (by rw [← v.len]; exact hj)] at hy
      cases hx; cases hy
      exact r
    · rw [if_neg hk] at hx hy
      have h1 := v.rel k x y hx hy
      have h2 : cont S.own h' x = cont S.own h x := by
        unfold cont
        cases ho : S.own x with
        | none => rfl
        | some i => exact keep k x i hk hx ho
      rw [h2]; exact h1
  · intro k x i hx hi
    rw [List.getElem?_set] at hx
    by_cases hk : j = k
    · subst hk
      rw [if_pos rfl, if_pos hj] at hx
      cases hx
      exact (f.new i hi).1
    · rw [if_neg hk] at hx
      exact Nat.lt_of_lt_of_le (v.range k x i hx hi) f.len
  · intro k k' x x' i hkk hx hx' hi hi'
    rw [List.getElem?_set] at hx hx'
    by_cases hk : j = k
    · subst hk
      rw [if_pos rfl, if_pos hj] at hx
      rw [if_neg hkk] at hx'
      cases hx
      rcases (f.new i hi).2 with h1 | h1
      · exact v.apart j k' t x' i hkk ht hx' h1 hi'
      · exact absurd (v.range k' x' i hx' hi') (by omega)
    · rw [if_neg hk] at hx
      by_cases hk' : j = k'
      · subst hk'
        rw [if_pos rfl, if_pos hj] at hx'
        cases hx'
        rcases (f.new i hi').2 with h1 | h1
        · exact v.apart j k t x i hk ht hx h1 hi
        · exact absurd (v.range k x i hx hi) (by omega)
      · rw [if_neg hk'] at hx'
        exact v.apart k k' x x' i hkk hx hx' hi hi'

/-- One object more. -/
theorem Inv.add {h h' : Heap} {ts : List τ} {ss : List σ} (v : Inv S h ts ss) {t : τ} {s : σ}
    (f : Frame h h' none (S.own t)) (r : S.R (cont S.own h' t) t s) : Inv S h' (ts ++ [t]) (ss ++ [s]) := by
  have cases1 : ∀ (k : Nat) (x : τ), (ts ++ [t])[k]? = some x → (k < ts.length ∧ ts[k]? = some x) ∨ (k = ts.length ∧ x = t) := by
    intro k x hx
    by_cases hk : k < ts.length
    · rw [List.getElem?_append_left hk] at hx
      exact Or.inl ⟨hk, hx⟩
    · rw [List.getElem?_append_right (by omega)] at hx
      have hz : k - ts.length = 0 := by
        by_contra hc
        rw [List.getElem?_eq_none (by simp; omega)] at hx
        exact nomatch hx
      rw [hz] at hx
      cases hx
      exact Or.inr ⟨by omega, rfl⟩
  have fresh : ∀ i, S.own t = some i → h.own.length ≤ i := fun i hi => by
    rcases (f.new i hi).2 with h1 | h1
    · exact nomatch h1
    · exact h1
  refine ⟨by simp [v.len], ?_, ?_, ?_⟩
  · intro k x y hx hy
    rcases cases1 k x hx with ⟨hk, hx⟩ | ⟨hk, rfl⟩
    · rw [List.getElem?_append_left (by rw [← v.len]; exact hk)] at hy
      have h1 := v.rel k x y hx hy
      have h2 : cont S.own h' x = cont S.own h x := by
        unfold cont
        cases ho : S.own x with
        | none => rfl
        | some i => exact f.old i (v.range k x i hx ho) (fun h => (nomatch h))
      rw [h2]; exact h1
    · rw [List.getElem?_append_right (by rw [← v.len]; omega), hk, v.len, Nat.sub_self] at hy
      cases hy
      exact r
  · intro k x i hx hi
    rcases cases1 k x hx with ⟨hk, hx⟩ | ⟨hk, rfl⟩
    · exact Nat.lt_of_lt_of_le (v.range k x i hx hi) f.len
    · exact (f.new i hi).1
  · intro k k' x x' i hkk hx hx' hi hi'
    rcases cases1 k x hx with ⟨hk, ha⟩ | ⟨hk, rfl⟩
    · rcases cases1 k' x' hx' with ⟨hk', hb⟩ | ⟨hk', rfl⟩
      · exact v.apart k k' x x' i hkk ha hb hi hi'
      · have := fresh i hi'
        have := v.range k x i ha hi
        omega
    · rcases cases1 k' x' hx' with ⟨hk', hb⟩ | ⟨hk', rfl⟩
      · have := fresh i hi
        have := v.range k' x' i hb hi'
        omega
      · omega

theorem get_cases {h : Heap} {ts : List τ} {ss : List σ} (v : Inv S h ts ss) (j : Nat) :
    (∃ t s, ts[j]? = some t ∧ ss[j]? = some s ∧ objAt ts j = .ok t ∧ objAt ss j = .ok s) ∨ (objAt ts j = .error .index ∧ objAt ss j = .error .index) := by
  unfold objAt
  by_cases hj : j < ts.length
  · left
    have hj' : j < ss.length := by rw [← v.len]; exact hj
    refine ⟨ts[j], ss[j], List.getElem?_eq_getElem hj, List.getElem?_eq_getElem hj', ?_, ?_⟩
    · rw [List.getElem?_eq_getElem hj]
    · rw [List.getElem?_eq_getElem hj']
  · right
    rw [List.getElem?_eq_none (by omega), List.getElem?_eq_none (by rw [← v.len]; omega)]
    exact ⟨rfl, rfl⟩

theorem check_arg {h : Heap} {s : CSlice} : (check h.caller s = .ok () ∧ Arg h s.slice) ∨ check h.caller s = .error .slice := by
  unfold check
  split
  · next hv => exact Or.inl ⟨rfl, hv.1, hv.2, s.arr, rfl⟩
  · exact Or.inr rfl

/-- The program cannot tell the objects from ideal ones. -/
theorem run_ideal (grow : Nat → Nat) (ops : List (Op ι)) (hc : NoCopy ops) : ∀ (h : Heap) (ts : List τ) (ss : List σ), Inv S h ts ss →
    run M grow h ts ops = ideal I grow h.caller ss ops := by
  induction ops with
  | nil => intro h ts ss _; rfl
  | cons op ops ih =>
    replace ih := ih fun j hj => hc j (List.mem_cons_of_mem _ hj)
    intro h ts ss v
    cases op with
    | new k i =>
      rw [run, ideal]
      rcases check_arg (h := h) (s := k) with ⟨c, a⟩ | c
      · rw [c, Go.bind_ok, Go.bind_ok]
        have hb : h.read k.slice = bytesOf h.caller k := rfl
        cases hn : I.new (bytesOf h.caller k) i with
        | error e =>
          rw [S.new_error h k.slice i e a (by rw [hb]; exact hn)]
          rfl
        | ok s =>
          obtain ⟨h', t, e, f, r⟩ := S.new_ok h k.slice i s a (by rw [hb]; exact hn)
          rw [e, Go.bind_ok, Go.bind_ok]
          dsimp only
          rw [ih h' (ts ++ [t]) (ss ++ [s]) (v.add S f r), f.caller]
      · rw [c]; rfl
    | write j p =>
      rw [run, ideal]
      rcases check_arg (h := h) (s := p) with ⟨c, a⟩ | c
      · rw [c, Go.bind_ok, Go.bind_ok]
        rcases get_cases S v j with ⟨t, s, h1, h2, e1, e2⟩ | ⟨e1, e2⟩
        · rw [e1, e2, Go.bind_ok, Go.bind_ok]
          obtain ⟨h', t', e, f, r⟩ := S.write h t s p.slice (fun i hi => v.range j t i h1 hi) (v.rel j t s h1 h2) a
          rw [e, Go.bind_ok]
          dsimp only
          rw [ih h' _ _ (v.set S h1 f r), f.caller]
          rfl
        · rw [e1, e2]; rfl
      · rw [c]; rfl
    | sum j b =>
      rw [run, ideal]
      rcases check_arg (h := h) (s := b) with ⟨c, a⟩ | c
      · rw [c, Go.bind_ok, Go.bind_ok]
        rcases get_cases S v j with ⟨t, s, h1, h2, e1, e2⟩ | ⟨e1, e2⟩
        · rw [e1, e2, Go.bind_ok, Go.bind_ok]
          obtain ⟨t', e, o, r⟩ := S.sum h t s (v.rel j t s h1 h2)
          rw [e, Go.bind_ok]
          dsimp only
          have hv : Inv S h (ts.set j t') (ss.set j (I.sum s).1) :=
            v.set S h1 (by rw [o]; exact Frame.refl fun i hi => v.range j t i h1 hi) (by unfold cont; rw [o]; exact r)
          rw [ih _ _ _ (hv.caller S (appendTo grow h.caller b (I.sum s).2))]
          rfl
        · rw [e1, e2]; rfl
      · rw [c]; rfl
    | value j =>
      rw [run, ideal]
      rcases get_cases S v j with ⟨t, s, h1, h2, e1, e2⟩ | ⟨e1, e2⟩
      · rw [e1, e2, Go.bind_ok, Go.bind_ok]
        obtain ⟨t', e, o, r⟩ := S.value h t s (v.rel j t s h1 h2)
        rw [e, Go.bind_ok]
        dsimp only
        have hv : Inv S h (ts.set j t') (ss.set j (I.value s).1) :=
          v.set S h1 (by rw [o]; exact Frame.refl fun i hi => v.range j t i h1 hi) (by unfold cont; rw [o]; exact r)
        rw [ih _ _ _ hv]
      · rw [e1, e2]; rfl
    | reset j =>
      rw [run, ideal]
      rcases get_cases S v j with ⟨t, s, h1, h2, e1, e2⟩ | ⟨e1, e2⟩
      · rw [e1, e2, Go.bind_ok, Go.bind_ok]
        have hv : Inv S h (ts.set j (M.reset t)) (ss.set j (I.reset s)) := by
          rcases S.reset _ t s (v.rel j t s h1 h2) with ⟨o, r⟩ | ⟨o, r⟩
          · refine v.set S h1 ⟨rfl, Nat.le_refl _, fun _ _ _ => rfl, fun i hi => ?_⟩ ?_
            · rw [o] at hi; exact nomatch hi
            · unfold cont; rw [o]; exact r
          · exact v.set S h1 (by rw [o]; exact Frame.refl fun i hi => v.range j t i h1 hi) (by unfold cont at r ⊢; rw [o]; exact r)
        rw [ih _ _ _ hv]
      · rw [e1, e2]; rfl
    | poke a i x =>
      rw [run, ideal]
      exact ih _ _ _ (v.caller S _)
    | copy j => exact absurd (List.mem_cons_self) (hc j)

end

/-! ## Memory -/

theorem put_own {h : Heap} {i pos : Nat} {bs : List U8} (hi : i < h.own.length) :
    (h.put (.own i) pos bs).own.getD i [] = overwrite (h.own.getD i []) pos bs := by
  unfold Heap.put
  dsimp only
  rw [List.getD_eq_getElem?_getD, List.getElem?_set_self hi, Option.getD_some]

theorem put_frame {h : Heap} {i pos : Nat} {bs : List U8} (hi : i < h.own.length) : Frame h (h.put (.own i) pos bs) (some i) (some i) := by
  refine ⟨rfl, ?_, fun k hk hne => ?_, fun k hk => ⟨?_, Or.inl hk⟩⟩
  · show h.own.length ≤ (h.own.set _ _).length
    rw [List.length_set]
  · show (h.own.set _ _).getD k [] = _
    rw [List.getD_eq_getElem?_getD, List.getElem?_set_ne (fun e => hne (by rw [e])), ← List.getD_eq_getElem?_getD]
  · show k < (h.own.set _ _).length
    rw [List.length_set]; cases hk; exact hi

theorem Frame.trans {h1 h2 h3 : Heap} {a b c : Option Nat} (f : Frame h1 h2 a b) (g : Frame h2 h3 b c)
    (hb : ∀ i, i < h1.own.length → b = some i → a = some i) : Frame h1 h3 a c := by
  refine ⟨g.caller.trans f.caller, Nat.le_trans f.len g.len, fun i hi hne => ?_, fun i hi => ?_⟩
  · rw [g.old i (Nat.lt_of_lt_of_le hi f.len) (fun e => hne (hb i hi e)), f.old i hi hne]
  · obtain ⟨p, q⟩ := g.new i hi
    refine ⟨p, ?_⟩
    rcases q with q | q
    · exact (f.new i q).2
    · exact Or.inr (Nat.le_trans f.len q)

end Verif.Lemmas.StreamHeap
