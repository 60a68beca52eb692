import Verif.Model.Trace
import Verif.Lemmas.HashTable5
import Verif.Lemmas.Basic

namespace Verif.Lemmas.Trace
open Verif Verif.HashTable Verif.Model.Trace
open Verif.Spec.Trace

theorem bind_def (x : Out α) (f : α → Out β) : (x >>= f) = match x with
    | ⟨o, .error e⟩ => ⟨o, .error e⟩
    | ⟨o, .ok a⟩ => ⟨o ++ (f a).lines, (f a).result⟩ := rfl

theorem pure_def (a : α) : (pure a : Out α) = ⟨[], .ok a⟩ := rfl

theorem lift_ok (a : α) (f : α → Out β) : (Out.lift (.ok a) >>= f) = f a := by
  rw [bind_def]; simp [Out.lift]

theorem lift_error (e : Fault) (f : α → Out β) : (Out.lift (.error e) >>= f) = ⟨[], .error e⟩ := rfl

theorem mk_ok (o : List Line) (a : α) (f : α → Out β) :
    ((⟨o, .ok a⟩ : Out α) >>= f) = ⟨o ++ (f a).lines, (f a).result⟩ := rfl

theorem mk_error (o : List Line) (e : Fault) (f : α → Out β) :
    ((⟨o, .error e⟩ : Out α) >>= f) = ⟨o, .error e⟩ := rfl

theorem btoi_eq (k : List U8) : btoi k = if 4 ≤ k.length then .ok (shown k) else .error .index := by
  match k with
  | [] => rfl
  | [_] => rfl
  | [_, _] => rfl
  | [_, _, _] => rfl
  | a :: b :: c :: d :: t =>
    have h4 : 4 ≤ (a :: b :: c :: d :: t).length := by simp
    rw [if_pos h4]
    have : btoi (a :: b :: c :: d :: t) =
      .ok (d.toNat <<< 24 ||| c.toNat <<< 16 ||| b.toNat <<< 8 ||| a.toNat) := rfl
    rw [this]
    congr 1
    have ha := a.isLt
    have hb := b.isLt
    have hc := c.isLt
    have hd := d.isLt
    have e1 : c.toNat <<< 16 ||| b.toNat <<< 8 = (c.toNat * 256 + b.toNat) * 256 := by
      rw [show c.toNat <<< 16 = (c.toNat <<< 8) <<< 8 by rw [← Nat.shiftLeft_add], ← Nat.shiftLeft_or_distrib,
        ← Nat.shiftLeft_add_eq_or_of_lt (by omega), Nat.shiftLeft_eq, Nat.shiftLeft_eq]
    have e2 : d.toNat <<< 24 ||| (c.toNat * 256 + b.toNat) * 256 = ((d.toNat * 256 + c.toNat) * 256 + b.toNat) * 256 := by
      rw [show d.toNat <<< 24 = (d.toNat <<< 16) <<< 8 by rw [← Nat.shiftLeft_add],
        show (c.toNat * 256 + b.toNat) * 256 = (c.toNat * 256 + b.toNat) <<< 8 by rw [Nat.shiftLeft_eq],
        ← Nat.shiftLeft_or_distrib, ← Nat.shiftLeft_add_eq_or_of_lt (by omega), Nat.shiftLeft_eq, Nat.shiftLeft_eq]
      omega
    rw [Nat.or_assoc (d.toNat <<< 24), e1, e2]
    rw [show ((d.toNat * 256 + c.toNat) * 256 + b.toNat) * 256 = ((d.toNat * 256 + c.toNat) * 256 + b.toNat) <<< 8 by rw [Nat.shiftLeft_eq],
      ← Nat.shiftLeft_add_eq_or_of_lt (by omega), Nat.shiftLeft_eq]
    simp only [shown, List.take_succ_cons, List.take_zero, leNat]
    omega

theorem traceRecord_ok {trace : Bool} {k : List U8} (hk : trace = true → 4 ≤ k.length)
    (tcnt cnt : Nat) (op : String) (t : Nat) (idx : U64) :
    traceRecord trace tcnt cnt op t idx k =
      ⟨if trace then [.record tcnt cnt op t idx.toNat 0 (shown k) (shown k)] else [],
       .ok (if trace then tcnt + 1 else tcnt)⟩ := by
  cases trace
  · rfl
  · have := btoi_eq k
    rw [if_pos (hk rfl)] at this
    simp only [traceRecord, if_true, this, lift_ok]
    rfl

theorem traceRecord_short {k : List U8} (hk : k.length < 4)
    (tcnt cnt : Nat) (op : String) (t : Nat) (idx : U64) :
    traceRecord true tcnt cnt op t idx k = ⟨[], .error .index⟩ := by
  have := btoi_eq k
  rw [if_neg (by omega)] at this
  simp only [traceRecord, if_true, this, lift_error]

theorem printDup_eq (pd : Bool) (bh h idx : U64) (k k0 : List U8) :
    printDup pd bh h idx k k0 =
      ⟨if pd = true ∧ bh = h then [.dup h idx.toNat k, .dup bh idx.toNat k0] else [], .ok ()⟩ := by
  unfold printDup
  by_cases hb : bh = h
  · cases pd
    · simp only [hb, pure_def]; simp
    · simp [hb]; rfl
  · simp only [hb, pure_def]; simp

/-! ### Tracing does not change the table -/

variable {ω : Type}

/-- The environment of the model without output. -/
def env (hash : ω → List U8 → U64 → U64 × ω) (trace : Bool) : Env ω (List U8) :=
  { hash := hash, traceOK := fun k => !trace || decide (4 ≤ k.length) }

theorem scanDups_env (hash : ω → List U8 → U64 → U64 × ω) (trace : Bool) (seed h : U64)
    (ks : List (List U8)) : ∀ (w : ω) (n : Nat),
    scanDups { hash := hash, traceOK := fun _ => true } seed h ks w n =
      scanDups (env hash trace) seed h ks w n := by
  induction ks with
  | nil => intro w n; rfl
  | cons k ks ih => intro w n; simp only [scanDups, env]; rw [ih]; rfl

/-- Dropping the trace counter from an outcome. -/
def strip (x : Go (ω × HT (List U8) × Nat)) : Go (ω × HT (List U8)) :=
  x.map fun p => (p.1, p.2.1)

theorem trace_cases (hash : ω → List U8 → U64 → U64 × ω) (trace : Bool) (k : List U8) :
    ((trace = true → 4 ≤ k.length) ∧ traceChk (env hash trace) k = .ok ()) ∨
    ((trace = true ∧ k.length < 4) ∧ traceChk (env hash trace) k = .error .index) := by
  cases trace
  · left; exact ⟨fun h => (nomatch h), rfl⟩
  · by_cases h : 4 ≤ k.length
    · left; exact ⟨fun _ => h, by simp [traceChk, env, h]⟩
    · right; exact ⟨⟨rfl, by omega⟩, by simp [traceChk, env]; omega⟩

theorem loop_refines (hash : ω → List U8 → U64 → U64 × ω) (trace : Bool) (k : List U8) (h : U64)
    (fuel : Nat) : ∀ (w : ω) (ht : HT (List U8)) (tcnt : Nat) (idx : U64) (cnt pass : Nat),
    strip (Model.Trace.insertLoop hash trace k h fuel w ht tcnt idx cnt pass).2 =
      HashTable.insertLoop (env hash trace) k h fuel w ht idx cnt pass := by
  induction fuel with
  | zero => intros; rfl
  | succ fuel ih =>
    intro w ht tcnt idx cnt pass
    rw [Model.Trace.insertLoop, HashTable.insertLoop]
    cases hb : Go.idx ht.buckets idx.toNat with
    | error f => rfl
    | ok b =>
      rw [lift_ok, Go.bind_ok]
      split
      · cases hs : Go.set ht.buckets idx.toNat [k] with
        | error f => rfl
        | ok bs =>
          rw [lift_ok, Go.bind_ok]
          rcases trace_cases hash trace k with ⟨h1, h2⟩ | ⟨⟨rfl, h1⟩, h2⟩
          · rw [traceRecord_ok h1, h2, mk_ok, Go.bind_ok]; rfl
          · rw [traceRecord_short h1, h2]; rfl
      · split
        · dsimp only
          rcases trace_cases hash trace k with ⟨h1, h2⟩ | ⟨⟨rfl, h1⟩, h2⟩
          · rw [traceRecord_ok h1, h2, mk_ok, Go.bind_ok]
            dsimp only
            cases hk0 : Go.idx b 0 with
            | error f => rfl
            | ok k0 =>
              rw [lift_ok, Go.bind_ok, printDup_eq, mk_ok]
              change strip (if idx + 1 > ((ht.countProbe cnt).countDup (hash w k0 (ht.countProbe cnt).seed).1 h).size - 1
                then _ else _ : Out _).2 = if idx + 1 > ((ht.countProbe cnt).countDup (hash w k0 (ht.countProbe cnt).seed).1 h).size - 1
                then _ else _
              by_cases hgt : idx + 1 > ((ht.countProbe cnt).countDup (hash w k0 (ht.countProbe cnt).seed).1 h).size - 1
              · rw [if_pos hgt, if_pos hgt]
                by_cases hp : pass + 1 > 1
                · rw [if_pos hp, if_pos hp]; rfl
                · rw [if_neg hp, if_neg hp]; exact ih _ _ _ _ _ _
              · rw [if_neg hgt, if_neg hgt]; exact ih _ _ _ _ _ _
          · rw [traceRecord_short h1, h2]; rfl
        · rw [scanDups_env hash trace]
          dsimp only
          cases hs : Go.set ht.buckets idx.toNat (b ++ [k]) with
          | error f => rfl
          | ok bs =>
            rw [lift_ok, Go.bind_ok]
            rcases trace_cases hash trace k with ⟨h1, h2⟩ | ⟨⟨rfl, h1⟩, h2⟩
            · rw [traceRecord_ok h1, h2, mk_ok, Go.bind_ok]; rfl
            · rw [traceRecord_short h1, h2]; rfl

theorem insert_refines (hash : ω → List U8 → U64 → U64 × ω) (trace : Bool) (w : ω)
    (ht : HT (List U8)) (tcnt : Nat) (k : List U8) :
    strip (Model.Trace.insert hash trace w ht tcnt k).2 =
      HashTable.insert (env hash trace) w ht k := by
  unfold Model.Trace.insert HashTable.insert
  dsimp only [env]
  split
  · split
    · rfl
    · rw [lift_ok, Go.bind_ok]; exact loop_refines ..
  · rw [lift_ok, Go.bind_ok]; exact loop_refines ..

theorem insertAll_refines (hash : ω → List U8 → U64 → U64 × ω) (trace : Bool)
    (ks : List (List U8)) : ∀ (w : ω) (ht : HT (List U8)) (tcnt : Nat),
    strip (Model.Trace.insertAll hash trace w ht tcnt ks).2 =
      HashTable.insertAll (env hash trace) w ht ks := by
  induction ks with
  | nil => intros; rfl
  | cons k ks ih =>
    intro w ht tcnt
    have hr := insert_refines hash trace w ht tcnt k
    rw [Model.Trace.insertAll, HashTable.insertAll, ← hr]
    generalize Model.Trace.insert hash trace w ht tcnt k = X
    obtain ⟨o, r⟩ := X
    cases r with
    | error f => rfl
    | ok p =>
      obtain ⟨w', ht', tc'⟩ := p
      exact ih w' ht' tc'

/-! ### Numbering, counters, replay -/

theorem numbers_append (a b : List Line) : numbers (a ++ b) = numbers a ++ numbers b := by
  induction a with
  | nil => rfl
  | cons l a ih => cases l <;> simp [numbers, ih]

theorem count_append (op : String) (a b : List Line) : count op (a ++ b) = count op a + count op b := by
  induction a with
  | nil => simp [count]
  | cons l a ih => cases l <;> simp [count, ih]; omega

/-- Lines that do not place a key. -/
def NoIns : List Line → Prop
  | [] => True
  | .record _ _ op _ _ _ _ _ :: ls => op ≠ "I" ∧ NoIns ls
  | .dup .. :: ls => NoIns ls

theorem replay_noIns (a b : List Line) (h : NoIns a) : ∀ bs, replay bs (a ++ b) = replay bs b := by
  induction a with
  | nil => intro bs; rfl
  | cons l a ih =>
    intro bs
    cases l with
    | record i ll op t bb s k v =>
      rw [List.cons_append, replay]
      · exact ih h.2 bs
      · intro _ _ _ _ _ _ _ he; cases he; exact h.1 rfl
    | dup hh i key =>
      rw [List.cons_append, replay]
      · exact ih h bs
      · intro _ _ _ _ _ _ _ he; cases he

theorem replay_append (a b : List Line) : ∀ bs, replay bs (a ++ b) = (replay bs a).bind fun c => replay c b := by
  induction a with
  | nil => intro bs; rfl
  | cons l a ih =>
    intro bs
    by_cases hl : ∃ i ll t bb s k v, l = .record i ll "I" t bb s k v
    · obtain ⟨i, ll, t, bb, s, k, v, rfl⟩ := hl
      rw [List.cons_append, replay, replay]
      cases bs[bb]? with
      | none => rfl
      | some c =>
        dsimp only
        split
        · exact ih _
        · rfl
    · have hn : ∀ i ll t bb s k v, l = .record i ll "I" t bb s k v → False :=
        fun i ll t bb s k v h => hl ⟨i, ll, t, bb, s, k, v, h⟩
      rw [List.cons_append, replay, replay]
      · exact ih _
      · exact hn
      · exact hn

/-- What is true of the output of `Insert` under `Trace` in every case. -/
structure Facts (tc : Nat) (ht : HT (List U8)) (n : Nat) (X : Out (ω × HT (List U8) × Nat)) : Prop where
  num : numbers X.1 = List.range' tc (numbers X.1).length
  ok : ∀ w' ht' tc', X.2 = .ok (w', ht', tc') →
    tc' = tc + (numbers X.1).length ∧
    ht'.probes + ht'.cols = ht.probes + ht.cols + (numbers X.1).length ∧
    count "I" X.1 = n ∧
    replay (ht.buckets.map (·.map shown)) X.1 = some (ht'.buckets.map (·.map shown))

theorem facts_error {tc : Nat} {ht : HT (List U8)} {n : Nat} {f : Fault} :
    Facts tc ht n (⟨[], .error f⟩ : Out (ω × HT (List U8) × Nat)) :=
  ⟨rfl, fun _ _ _ h => (nomatch h)⟩

theorem facts_probe {tc : Nat} {ht ht1 : HT (List U8)} {n : Nat} {X : Out (ω × HT (List U8) × Nat)}
    {l : Nat} {b k : Nat} {ds : List Line} (hds : numbers ds = [] ∧ count "I" ds = 0 ∧ NoIns ds)
    (hb : ht1.buckets = ht.buckets) (hp : ht1.probes + ht1.cols = ht.probes + ht.cols + 1)
    (h : Facts (tc + 1) ht1 n X) :
    Facts tc ht n (⟨.record tc l "P" 0 b 0 k k :: (ds ++ X.1), X.2⟩ : Out (ω × HT (List U8) × Nat)) := by
  obtain ⟨h1, h2, h3⟩ := hds
  have hn : numbers (.record tc l "P" 0 b 0 k k :: (ds ++ X.1)) = tc :: numbers X.1 := by
    simp [numbers, numbers_append, h1]
  refine ⟨?_, ?_⟩
  · dsimp only
    rw [hn, List.length_cons, List.range'_succ]
    exact congrArg _ h.num
  · intro w' ht' tc' he
    obtain ⟨a1, a2, a3, a4⟩ := h.ok w' ht' tc' he
    dsimp only
    rw [hn, List.length_cons]
    refine ⟨by omega, by omega, ?_, ?_⟩
    · simp only [count, count_append, h2, a3]; simp
    · rw [replay]
      · rw [replay_noIns _ _ h3, ← hb]; exact a4
      · intro _ _ _ _ _ _ _ he; injection he with _ _ h _ _ _ _ _; exact absurd h (by decide)

theorem facts_ins {tc : Nat} {ht ht1 : HT (List U8)} {w : ω} {l t b : Nat} {k : List U8} {c : List (List U8)}
    (hc : ht.buckets[b]? = some c) (ht' : c.length = t)
    (hb : ht1.buckets = ht.buckets.set b (c ++ [k]))
    (hp : ht1.probes + ht1.cols = ht.probes + ht.cols + 1) :
    Facts tc ht 1 (⟨[.record tc l "I" t b 0 (shown k) (shown k)], .ok (w, ht1, tc + 1)⟩ : Out (ω × HT (List U8) × Nat)) := by
  refine ⟨rfl, ?_⟩
  intro w' ht'' tc' he
  cases he
  refine ⟨rfl, hp, rfl, ?_⟩
  dsimp only
  rw [replay, List.getElem?_map, hc]
  simp only [Option.map_some, List.length_map, ht', if_true, replay, hb, List.map_set, List.map_append,
    List.map_cons, List.map_nil]

theorem idx_some {l : List α} {i : Nat} {a : α} (h : Go.idx l i = .ok a) : l[i]? = some a := by
  unfold Go.idx at h
  cases hl : l[i]? with
  | none => rw [hl] at h; cases h
  | some b => rw [hl] at h; cases h; rfl

theorem set_some {l l' : List α} {i : Nat} {a : α} (h : Go.set l i a = .ok l') : l' = l.set i a := by
  unfold Go.set at h
  split at h
  · exact (Except.ok.inj h).symm
  · cases h

theorem dups_none (pd : Bool) (bh h idx : U64) (k k0 : List U8) :
    let ds : List Line := if pd = true ∧ bh = h then [.dup h idx.toNat k, .dup bh idx.toNat k0] else []
    numbers ds = [] ∧ count "I" ds = 0 ∧ NoIns ds := by
  dsimp only
  split <;> simp [numbers, count, NoIns]

theorem loop_facts (hash : ω → List U8 → U64 → U64 × ω) (k : List U8) (hk : 4 ≤ k.length) (h : U64)
    (fuel : Nat) : ∀ (w : ω) (ht : HT (List U8)) (tcnt : Nat) (idx : U64) (cnt pass : Nat),
    Facts tcnt ht 1 (Model.Trace.insertLoop hash true k h fuel w ht tcnt idx cnt pass) := by
  induction fuel with
  | zero => intros; exact facts_error
  | succ fuel ih =>
    intro w ht tcnt idx cnt pass
    rw [Model.Trace.insertLoop]
    cases hb : Go.idx ht.buckets idx.toNat with
    | error f => exact facts_error
    | ok b =>
      have hbs := idx_some hb
      rw [lift_ok]
      split
      case isTrue hemp =>
        have hb0 : b = [] := List.isEmpty_iff.1 hemp
        subst hb0
        cases hs : Go.set ht.buckets idx.toNat [k] with
        | error f => exact facts_error
        | ok bs =>
          rw [lift_ok, traceRecord_ok (fun _ => hk), mk_ok]
          have := set_some hs
          exact facts_ins (c := []) hbs rfl this (by dsimp only; omega)
      case isFalse hne =>
        split
        · dsimp only
          rw [traceRecord_ok (fun _ => hk), mk_ok]
          have hcp : (ht.countProbe cnt).buckets = ht.buckets ∧
              (ht.countProbe cnt).probes + (ht.countProbe cnt).cols = ht.probes + ht.cols + 1 := by
            unfold HT.countProbe; split <;> exact ⟨rfl, by dsimp only; omega⟩
          obtain ⟨c1, c2⟩ := hcp
          have hcd : ∀ (x y : U64) (ht : HT (List U8)), (ht.countDup x y).buckets = ht.buckets ∧
              (ht.countDup x y).probes = ht.probes ∧ (ht.countDup x y).cols = ht.cols := by
            intro x y ht; unfold HT.countDup; split <;> exact ⟨rfl, rfl, rfl⟩
          cases hk0 : Go.idx b 0 with
          | error f =>
            cases b with
            | nil => exact absurd rfl hne
            | cons x xs => cases hk0
          | ok k0 =>
            rw [lift_ok, printDup_eq, mk_ok]
            have hgo : ∀ (X : Out (ω × HT (List U8) × Nat)),
                Facts (tcnt + 1) ((ht.countProbe cnt).countDup (hash w k0 (ht.countProbe cnt).seed).1 h) 1 X →
                Facts tcnt ht 1 (⟨([.record tcnt cnt "P" 0 idx.toNat 0 (shown k) (shown k)] : List Line) ++
                  ((if (ht.countProbe cnt).pd = true ∧ (hash w k0 (ht.countProbe cnt).seed).1 = h then
                    [.dup h idx.toNat k, .dup (hash w k0 (ht.countProbe cnt).seed).1 idx.toNat k0] else []) ++ X.1), X.2⟩ :
                  Out (ω × HT (List U8) × Nat)) := by
              intro X hX
              obtain ⟨d1, d2, d3⟩ := hcd (hash w k0 (ht.countProbe cnt).seed).1 h (ht.countProbe cnt)
              exact facts_probe (dups_none _ _ _ _ _ _) (d1.trans c1) (by rw [d2, d3]; exact c2) hX
            dsimp only [if_true]
            refine hgo _ ?_
            split
            · split
              · exact facts_error
              · exact ih _ _ _ _ _ _
            · exact ih _ _ _ _ _ _
        · dsimp only
          cases hs : Go.set ht.buckets idx.toNat (b ++ [k]) with
          | error f => exact facts_error
          | ok bs =>
            rw [lift_ok, traceRecord_ok (fun _ => hk), mk_ok]
            have := set_some hs
            exact facts_ins (c := b) hbs (by simp) this (by dsimp only; omega)

theorem insert_facts (hash : ω → List U8 → U64 → U64 × ω) (k : List U8) (hk : 4 ≤ k.length)
    (w : ω) (ht : HT (List U8)) (tcnt : Nat) :
    Facts tcnt ht 1 (Model.Trace.insert hash true w ht tcnt k) := by
  unfold Model.Trace.insert
  have hconv : ∀ (X : Out (ω × HT (List U8) × Nat)), Facts tcnt { ht with inserts := ht.inserts + 1 } 1 X →
    Facts tcnt ht 1 X := fun X h => ⟨h.num, h.ok⟩
  dsimp only
  split
  · split
    · exact facts_error
    · rw [lift_ok]; exact hconv _ (loop_facts hash k hk _ _ _ _ _ _ _ _)
  · rw [lift_ok]; exact hconv _ (loop_facts hash k hk _ _ _ _ _ _ _ _)

theorem range'_join (s m n : Nat) : List.range' s m ++ List.range' (s + m) n = List.range' s (m + n) := by
  rw [← List.range'_append_1]

theorem insertAll_facts (hash : ω → List U8 → U64 → U64 × ω) (ks : List (List U8))
    (hk : ∀ k ∈ ks, 4 ≤ k.length) : ∀ (w : ω) (ht : HT (List U8)) (tcnt : Nat),
    Facts tcnt ht ks.length (Model.Trace.insertAll hash true w ht tcnt ks) := by
  induction ks with
  | nil =>
    intro w ht tcnt
    refine ⟨rfl, ?_⟩
    intro w' ht' tc' he
    cases he
    exact ⟨rfl, rfl, rfl, rfl⟩
  | cons k ks ih =>
    intro w ht tcnt
    have h1 := insert_facts hash k (hk k (by simp)) w ht tcnt
    rw [Model.Trace.insertAll]
    generalize Model.Trace.insert hash true w ht tcnt k = X at h1
    obtain ⟨o, r⟩ := X
    cases r with
    | error f => exact ⟨h1.num, fun _ _ _ h => (nomatch h)⟩
    | ok p =>
      obtain ⟨w1, ht1, tc1⟩ := p
      rw [mk_ok]
      dsimp only
      have h2 := ih (fun k hk' => hk k (by simp [hk'])) w1 ht1 tc1
      obtain ⟨a1, a2, a3, a4⟩ := h1.ok w1 ht1 tc1 rfl
      have hn1 := h1.num
      have hn2 := h2.num
      have h2ok := h2.ok
      dsimp only at a1 a2 a3 a4 hn1
      generalize Model.Trace.insertAll hash true w1 ht1 tc1 ks = Y at *
      obtain ⟨o2, r2⟩ := Y
      dsimp only at hn2 h2ok ⊢
      have hlen : (numbers (o ++ o2)).length = (numbers o).length + (numbers o2).length := by
        rw [numbers_append, List.length_append]
      refine ⟨?_, ?_⟩
      · dsimp only
        rw [hlen, numbers_append, hn2, a1, List.length_range', hn1, List.length_range', range'_join]
      · intro w' ht' tc' he
        obtain ⟨b1, b2, b3, b4⟩ := h2ok w' ht' tc' he
        dsimp only
        rw [hlen]
        refine ⟨by omega, by omega, ?_, ?_⟩
        · rw [count_append, a3, b3, List.length_cons]; omega
        · rw [replay_append, a4]; exact b4

end Verif.Lemmas.Trace
