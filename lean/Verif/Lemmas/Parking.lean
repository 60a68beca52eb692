import Verif.Props.Quality
import Mathlib.Data.Finset.Card
import Mathlib.Data.Finset.Image
import Mathlib.Tactic.Linarith

/-! Parking on a circle of `m` slots: what a sequence of home slots does to an open-addressing
table, without keys.  Used by C130 and C131. -/

namespace Verif.Parking
open Verif.Spec.HashTable

/-- `d` occupied slots are stepped over from `a` before a free one is met. -/
structure Steps (m : Nat) (S : Finset Nat) (a d : Nat) : Prop where
  lt : d < m
  free : (a + d) % m ∉ S
  full : ∀ e < d, (a + e) % m ∈ S

theorem Steps.unique {m a d d' : Nat} {S : Finset Nat} (h : Steps m S a d) (h' : Steps m S a d') : d = d' := by
  rcases Nat.lt_trichotomy d d' with hl | hl | hl
  · exact absurd (h'.full d hl) h.free
  · exact hl
  · exact absurd (h.full d' hl) h'.free

/-- The number of occupied slots stepped over from `a`. -/
def steps (m : Nat) (S : Finset Nat) (a : Nat) : Nat := (List.range m).findIdx fun d => decide ((a + d) % m ∉ S)

theorem steps_of {m a d : Nat} {S : Finset Nat} (h : Steps m S a d) : steps m S a = d := by
  unfold steps
  rw [List.findIdx_eq (by simpa using h.lt)]
  refine ⟨by simpa using h.free, fun j hj => by simpa using h.full j hj⟩

theorem cover {m a s : Nat} (ha : a < m) (hs : s < m) : ∃ d < m, (a + d) % m = s := by
  refine ⟨(s + m - a) % m, Nat.mod_lt _ (by omega), ?_⟩
  rw [Nat.add_mod_mod, show a + (s + m - a) = s + m from by omega, Nat.add_mod_right, Nat.mod_eq_of_lt hs]

theorem exists_steps {m a : Nat} {S : Finset Nat} (ha : a < m) (_hS : S ⊆ Finset.range m) (hc : S.card < m) :
    ∃ d, Steps m S a d := by
  have hx : ∃ s ∈ Finset.range m, s ∉ S := by
    apply Classical.byContradiction
    intro hno
    have : Finset.range m ⊆ S := fun s hs => Classical.byContradiction fun h => hno ⟨s, hs, h⟩
    have := Finset.card_le_card this
    rw [Finset.card_range] at this
    omega
  obtain ⟨s, hs, hns⟩ := hx
  obtain ⟨d0, hd0, he⟩ := cover ha (Finset.mem_range.1 hs)
  obtain ⟨d, hd, hmin⟩ := Verif.HashTable.least_of_exists (P := fun d => (a + d) % m ∉ S) ⟨d0, by rw [he]; exact hns⟩
  refine ⟨d, ?_, hd, fun e he => Classical.byContradiction fun h => hmin e he h⟩
  rcases Nat.lt_or_ge d m with h | h
  · exact h
  · exact absurd (by rw [he]; exact hns) (hmin d0 (by omega))

/-- How often the walk of `d` steps from `a` enters slot `h`. -/
def entered (m a d h : Nat) : Nat := (List.range d).countP fun e => decide ((a + e + 1) % m = h)

/-- One insert: the slot taken, and the flow into every slot. -/
def parkOne (m : Nat) (st : Finset Nat × (Nat → Nat)) (a : Nat) : Finset Nat × (Nat → Nat) :=
  (insert ((a + steps m st.1 a) % m) st.1, fun h => st.2 h + entered m a (steps m st.1 a) h)

/-- A sequence of inserts. -/
def parkAll (m : Nat) (l : List Nat) : Finset Nat × (Nat → Nat) := l.foldl (parkOne m) (∅, fun _ => 0)

theorem parkAll_snoc (m : Nat) (l : List Nat) (a : Nat) : parkAll m (l ++ [a]) = parkOne m (parkAll m l) a := by
  unfold parkAll; rw [List.foldl_append]; rfl

/-- The state after `n` inserts. -/
structure Ok (m n : Nat) (st : Finset Nat × (Nat → Nat)) : Prop where
  sub : st.1 ⊆ Finset.range m
  card : st.1.card = n

theorem parkOne_ok {m n a : Nat} {st : Finset Nat × (Nat → Nat)} (h : Ok m n st) (ha : a < m) (hn : n < m) :
    Ok m (n + 1) (parkOne m st a) ∧ Steps m st.1 a (steps m st.1 a) := by
  obtain ⟨d, hd⟩ := exists_steps ha h.sub (by rw [h.card]; exact hn)
  have he := steps_of hd
  refine ⟨⟨?_, ?_⟩, by rw [he]; exact hd⟩
  · intro s hs
    rcases Finset.mem_insert.1 hs with rfl | hs
    · exact Finset.mem_range.2 (Nat.mod_lt _ (by omega))
    · exact h.sub hs
  · have : (a + steps m st.1 a) % m ∉ st.1 := by rw [he]; exact hd.free
    rw [parkOne, Finset.card_insert_of_notMem this, h.card]

theorem parkAll_ok (m : Nat) (l : List Nat) (hl : ∀ a ∈ l, a < m) (hn : l.length ≤ m) : Ok m l.length (parkAll m l) := by
  induction l using List.reverseRecOn with
  | nil => exact ⟨by simp [parkAll], by simp [parkAll]⟩
  | append_singleton l a ih =>
    rw [List.length_append, List.length_singleton] at hn ⊢
    rw [parkAll_snoc]
    exact (parkOne_ok (ih (fun x hx => hl x (by simp [hx])) (by omega)) (hl a (by simp)) (by omega)).1

/-! ### The order of the inserts -/

/-- Continuing a walk: `a` reaches `x` in `d`, `x` is occupied, the next free slot after `x` is `c` further. -/
theorem Steps.next {m a d c : Nat} {S : Finset Nat} (h : Steps m S a d)
    (hc : Steps m (insert ((a + d) % m) S) ((a + d) % m) c) (hlt : d + c < m) :
    Steps m (insert ((a + d) % m) S) a (d + c) := by
  refine ⟨hlt, ?_, ?_⟩
  · have := hc.free
    rwa [Nat.mod_add_mod, Nat.add_assoc] at this
  · intro e he
    rcases Nat.lt_or_ge e d with h1 | h1
    · exact Finset.mem_insert_of_mem (h.full e h1)
    · have := hc.full (e - d) (by omega)
      rwa [Nat.mod_add_mod, show a + d + (e - d) = a + e from by omega] at this

theorem entered_add (m a d c h : Nat) : entered m a (d + c) h = entered m a d h + entered m (a + d) c h := by
  unfold entered
  rw [List.range_add, List.countP_append, List.countP_map]
  congr 2
  funext e
  simp only [Function.comp_apply]
  congr 2
  rw [show a + (d + e) + 1 = a + d + e + 1 from by omega]

theorem entered_mod (m a d h : Nat) : entered m (a % m) d h = entered m a d h := by
  unfold entered
  congr 1
  funext e
  rw [Nat.add_assoc, Nat.mod_add_mod, ← Nat.add_assoc]

theorem Steps.lift {m a d x : Nat} {S : Finset Nat} (h : Steps m S a d) (hx : (a + d) % m ≠ x) : Steps m (insert x S) a d :=
  ⟨h.lt, fun hm => by rcases Finset.mem_insert.1 hm with h1 | h1; exacts [hx h1, h.free h1],
    fun e he => Finset.mem_insert_of_mem (h.full e he)⟩

/-- The walk on from an occupied slot, when another slot is free, does not come back to where the walk started. -/
theorem Steps.short {m a d c : Nat} {S : Finset Nat} (h : Steps m S a d)
    (hc : Steps m (insert ((a + d) % m) S) ((a + d) % m) c) : d + c < m := by
  rcases Nat.lt_or_ge (d + c) m with h1 | h1
  · exact h1
  · exfalso
    have h2 : d + c - m < d := by have := hc.lt; omega
    have h3 := h.full _ h2
    apply hc.free
    rw [Nat.mod_add_mod, show a + d + c = a + (d + c - m) + m from by omega, Nat.add_mod_right]
    exact Finset.mem_insert_of_mem h3

theorem parkOne_comm {m n a b : Nat} {st : Finset Nat × (Nat → Nat)} (h : Ok m n st) (ha : a < m) (hb : b < m) (hn : n + 2 ≤ m) :
    parkOne m (parkOne m st a) b = parkOne m (parkOne m st b) a := by
  obtain ⟨S, C⟩ := st
  have ⟨d, hd⟩ := exists_steps ha h.sub (by rw [h.card]; omega)
  have ⟨e, he⟩ := exists_steps hb h.sub (by rw [h.card]; omega)
  simp only at hd he
  have s1 := steps_of hd
  have s2 := steps_of he
  unfold parkOne
  simp only [s1, s2]
  by_cases hx : (a + d) % m = (b + e) % m
  · -- both reach the same slot
    have hok : Ok m (n + 1) (insert ((a + d) % m) S, C) := by
      have := (parkOne_ok h ha (by omega)).1
      unfold parkOne at this
      simp only [s1] at this
      exact ⟨this.sub, this.card⟩
    obtain ⟨c, hc⟩ := exists_steps (a := (a + d) % m) (Nat.mod_lt _ (by omega)) hok.sub (by rw [hok.card]; omega)
    simp only at hc
    have c1 := hd.next hc (hd.short hc)
    have hc' : Steps m (insert ((b + e) % m) S) ((b + e) % m) c := by rw [← hx]; exact hc
    have c2 := he.next hc' (he.short hc')
    rw [← hx] at c2 hc' ⊢
    rw [steps_of c1, steps_of c2]
    have e1 : (a + (d + c)) % m = (b + (e + c)) % m := by
      rw [← Nat.add_assoc, ← Nat.mod_add_mod, hx, Nat.mod_add_mod, Nat.add_assoc]
    rw [e1]
    congr 1
    funext k
    rw [entered_add, entered_add, ← entered_mod m (a + d), ← entered_mod m (b + e), hx]
    omega
  · have c1 := he.lift (x := (a + d) % m) (fun hh => hx hh.symm)
    have c2 := hd.lift (x := (b + e) % m) hx
    rw [steps_of c1, steps_of c2, Finset.insert_comm]
    congr 1
    funext k
    omega

theorem foldl_perm {m : Nat} {l l' : List Nat} (hp : l.Perm l') : ∀ (n : Nat) (st : Finset Nat × (Nat → Nat)), Ok m n st →
    (∀ a ∈ l, a < m) → n + l.length ≤ m → l.foldl (parkOne m) st = l'.foldl (parkOne m) st := by
  induction hp with
  | nil => intros; rfl
  | cons x p ih =>
    intro n st hok hl hn
    rw [List.length_cons] at hn
    exact ih (n + 1) _ (parkOne_ok hok (hl x (by simp)) (by omega)).1 (fun a ha => hl a (by simp [ha])) (by omega)
  | swap x y l =>
    intro n st hok hl hn
    simp only [List.length_cons] at hn
    simp only [List.foldl_cons]
    rw [parkOne_comm hok (hl y (by simp)) (hl x (by simp)) (by omega)]
  | trans p q ih ih' =>
    intro n st hok hl hn
    rw [ih n st hok hl hn, ih' n st hok (fun a ha => hl a (p.mem_iff.2 ha)) (by rw [← p.length_eq]; exact hn)]

theorem parkAll_perm {m : Nat} {l l' : List Nat} (hp : l.Perm l') (hl : ∀ a ∈ l, a < m) (hn : l.length ≤ m) :
    parkAll m l = parkAll m l' :=
  foldl_perm hp 0 _ ⟨by simp, by simp⟩ hl (by omega)

/-! ### The flow into the slots -/

/-- Total distance walked. -/
def walked (m : Nat) (l : List Nat) : Nat := ∑ h ∈ Finset.range m, (parkAll m l).2 h

theorem sum_entered {m a d : Nat} (hm : 0 < m) : ∑ h ∈ Finset.range m, entered m a d h = d := by
  induction d with
  | zero => simp [entered]
  | succ d ih =>
    have : ∀ h, entered m a (d + 1) h = entered m a d h + if (a + d + 1) % m = h then 1 else 0 := by
      intro h; unfold entered; rw [List.range_succ, List.countP_append]; simp [List.countP_cons]
    simp only [this, Finset.sum_add_distrib, ih, Finset.sum_ite_eq, Finset.mem_range, Nat.mod_lt _ hm, if_true]

theorem walked_snoc (m : Nat) (hm : 0 < m) (l : List Nat) (a : Nat) :
    walked m (l ++ [a]) = walked m l + steps m (parkAll m l).1 a := by
  unfold walked
  rw [parkAll_snoc]
  simp only [parkOne, Finset.sum_add_distrib, sum_entered hm]

theorem entered_home {m a d : Nat} (ha : a < m) (hd : d < m) : entered m a d a = 0 := by
  unfold entered
  rw [List.countP_eq_zero]
  intro e he
  rw [List.mem_range] at he
  simp only [decide_eq_true_eq]
  intro h
  rw [Verif.HashTable.mod_two (by omega)] at h
  split at h <;> omega

theorem balance_step {m a d h : Nat} {S : Finset Nat} {C : Nat → Nat} {l : List Nat} (ha : a < m) (hh : h < m)
    (hs : Steps m S a d) (i1 : C ((h + 1) % m) + (if h ∈ S then 1 else 0) = C h + l.count h)
    (i2 : 0 < C h + l.count h → h ∈ S) :
    C ((h + 1) % m) + entered m a d ((h + 1) % m) + (if h ∈ insert ((a + d) % m) S then 1 else 0) =
        C h + entered m a d h + (l ++ [a]).count h ∧
      (0 < C h + entered m a d h + (l ++ [a]).count h → h ∈ insert ((a + d) % m) S) := by
  have hshift : ∀ e, decide ((a + e + 1) % m = (h + 1) % m) = decide ((a + e) % m = h) := by
    intro e
    apply decide_eq_decide.2
    rw [← Nat.mod_add_mod (a + e)]
    have h1 : (a + e) % m < m := Nat.mod_lt _ (by omega)
    generalize (a + e) % m = x at h1
    rw [Verif.HashTable.mod_two (x := x + 1) (by omega), Verif.HashTable.mod_two (x := h + 1) (by omega)]
    split <;> split <;> omega
  have key : ∀ d, entered m a d ((h + 1) % m) + (if (a + d) % m = h then 1 else 0) = entered m a d h + if a = h then 1 else 0 := by
    intro d
    have h1 : entered m a d ((h + 1) % m) = (List.range d).countP fun e => decide ((a + e) % m = h) := by
      unfold entered
      congr 1
      funext e
      exact hshift e
    rw [h1]
    have h2 := List.range_succ (n := d)
    have h3 := List.range_succ_eq_map (n := d)
    have h4 := congrArg (List.countP fun e => decide ((a + e) % m = h)) (h2.symm.trans h3)
    rw [List.countP_append, List.countP_cons, List.countP_cons, List.countP_nil, List.countP_map] at h4
    simp only [decide_eq_true_eq, Nat.add_zero, Nat.mod_eq_of_lt ha, Nat.zero_add] at h4
    rw [h4]
    congr 1
  constructor
  · have hk := key d
    rw [List.count_append, List.count_singleton]
    simp only [beq_iff_eq]
    have hi : (if h ∈ insert ((a + d) % m) S then 1 else 0) = (if h ∈ S then 1 else 0) + if (a + d) % m = h then 1 else 0 := by
      by_cases h1 : (a + d) % m = h
      · have : h ∉ S := h1 ▸ hs.free
        rw [if_pos h1, if_neg this, h1, if_pos (Finset.mem_insert_self _ _)]
      · rw [if_neg h1]
        have : h ∈ insert ((a + d) % m) S ↔ h ∈ S := by
          rw [Finset.mem_insert]; exact ⟨fun x => x.resolve_left (fun y => h1 y.symm), Or.inr⟩
        simp only [this, Nat.add_zero]
    rw [hi]
    omega
  · intro hpos
    rw [List.count_append, List.count_singleton] at hpos
    simp only [beq_iff_eq] at hpos
    by_cases h0 : 0 < C h + l.count h
    · exact Finset.mem_insert_of_mem (i2 h0)
    · by_cases h1 : a = h
      · subst h1
        rcases Nat.eq_zero_or_pos d with h2 | h2
        · rw [h2, Nat.add_zero, Nat.mod_eq_of_lt ha]; exact Finset.mem_insert_self _ _
        · have := hs.full 0 h2
          rw [Nat.add_zero, Nat.mod_eq_of_lt ha] at this
          exact Finset.mem_insert_of_mem this
      · rw [if_neg h1] at hpos
        have h2 : 0 < entered m a d h := by omega
        unfold entered at h2
        rw [List.countP_pos_iff] at h2
        obtain ⟨e, he, h3⟩ := h2
        rw [List.mem_range] at he
        simp only [decide_eq_true_eq] at h3
        rw [← h3, Nat.add_assoc]
        rcases Nat.lt_or_ge (e + 1) d with h4 | h4
        · exact Finset.mem_insert_of_mem (hs.full _ h4)
        · rw [show e + 1 = d from by omega]; exact Finset.mem_insert_self _ _

/-- Conservation: what flows into `h` and starts there stays there or flows on. -/
theorem balance (m : Nat) (l : List Nat) (hl : ∀ a ∈ l, a < m) (hn : l.length ≤ m) :
    ∀ h < m, (parkAll m l).2 ((h + 1) % m) + (if h ∈ (parkAll m l).1 then 1 else 0) = (parkAll m l).2 h + l.count h ∧
      (0 < (parkAll m l).2 h + l.count h → h ∈ (parkAll m l).1) := by
  induction l using List.reverseRecOn with
  | nil => intro h _; simp [parkAll]
  | append_singleton l a ih =>
    intro h hh
    rw [List.length_append, List.length_singleton] at hn
    have hl' : ∀ x ∈ l, x < m := fun x hx => hl x (by simp [hx])
    have ha := hl a (by simp)
    obtain ⟨i1, i2⟩ := ih hl' (by omega) h hh
    have hok := parkAll_ok m l hl' (by omega)
    obtain ⟨_, hs⟩ := parkOne_ok hok ha (by omega)
    rw [parkAll_snoc]
    exact balance_step ha hh hs i1 i2


theorem sum_rotate (m : Nat) (F : Nat → Nat) : ∑ h ∈ Finset.range m, F ((h + 1) % m) = ∑ h ∈ Finset.range m, F h := by
  cases m with
  | zero => rfl
  | succ k =>
    rw [Finset.sum_range_succ, Nat.mod_self, Finset.sum_range_succ' F]
    congr 1
    refine Finset.sum_congr rfl fun h hh => ?_
    rw [Nat.mod_eq_of_lt (by have := Finset.mem_range.1 hh; omega)]

theorem sum_count (m : Nat) (l : List Nat) (hl : ∀ a ∈ l, a < m) :
    ∑ h ∈ Finset.range m, l.count h * l.count h = l.length + 2 * eqPairs l := by
  have h1 := Verif.Props.Quality.sum_sq id m l hl
  have h2 := Verif.Props.Quality.sum_load id m l hl
  have hc : ∀ i, Verif.Props.Quality.load id l i = l.count i := by
    intro i; unfold Verif.Props.Quality.load; rw [List.count]; rfl
  simp only [hc, List.map_id, Nat.mul_add, Nat.mul_one, Finset.sum_add_distrib] at h1 h2
  omega

/-- The distance walked, from the flow: every key walks as far as the flow it meets at home, plus one
step for every earlier key with the same home. -/
theorem walked_eq (m : Nat) (l : List Nat) (hl : ∀ a ∈ l, a < m) (hn : l.length ≤ m) :
    walked m l = ∑ h ∈ Finset.range m, l.count h * (parkAll m l).2 h + eqPairs l := by
  have hb := balance m l hl hn
  have hr := sum_rotate m fun h => (parkAll m l).2 h * ((parkAll m l).2 h + 1)
  have hc := sum_count m l hl
  have hs : ∑ h ∈ Finset.range m, l.count h = l.length := by
    have h2 := Verif.Props.Quality.sum_load id m l hl
    have hc : ∀ i, Verif.Props.Quality.load id l i = l.count i := by
      intro i; unfold Verif.Props.Quality.load; rw [List.count]; rfl
    simpa only [hc] using h2
  unfold walked
  generalize (parkAll m l).2 = C at *
  generalize (parkAll m l).1 = S at *
  have hstep : ∀ h ∈ Finset.range m, C ((h + 1) % m) * (C ((h + 1) % m) + 1) + C h + l.count h =
      C h * C h + 2 * (l.count h * C h) + l.count h * l.count h := by
    intro h hh
    obtain ⟨b1, b2⟩ := hb h (Finset.mem_range.1 hh)
    by_cases hz : 0 < C h + l.count h
    · rw [if_pos (b2 hz)] at b1
      have : C h = C ((h + 1) % m) + 1 - l.count h ∧ l.count h ≤ C ((h + 1) % m) + 1 := by omega
      zify
      zify at b1
      have e : (C ((h + 1) % m) : Int) = C h + l.count h - 1 := by linarith
      rw [e]; ring
    · have h1 : C h = 0 := by omega
      have h2 : l.count h = 0 := by omega
      have h3 : C ((h + 1) % m) = 0 := by omega
      rw [h1, h2, h3]
  have hsum := Finset.sum_congr rfl hstep
  simp only [Finset.sum_add_distrib, ← Finset.mul_sum, hc, hs, Nat.mul_add, Nat.mul_one] at hsum hr
  omega

end Verif.Parking
