import Verif.Lemmas.HashTableP
import Verif.Spec.Recover
import Verif.Lemmas.HtMain5

/-!
# C113: a caller that recovers from panics of `Insert`

`insertP` is `Insert` with the state of the table kept at a panic, `recoverAll` a history of calls in which every panic is recovered.
-/

namespace Verif.Props
open Verif Verif.HashTable Verif.Spec.HashTable Verif.Spec.HtMain Verif.Spec.Recover
open Verif.HashTable (HT)

section
variable {ω : Type}

theorem insertLoop_inserts {κ : Type} (e : Env ω κ) (k : κ) (h : U64) (n fuel : Nat) : ∀ (w : ω) (ht : HT κ) (idx : U64) (cnt pass : Nat),
    HashTable.insertLoop e k h fuel w { ht with inserts := n } idx cnt pass =
      (HashTable.insertLoop e k h fuel w ht idx cnt pass).map fun p => (p.1, { p.2 with inserts := n }) := by
  induction fuel with
  | zero => intros; rfl
  | succ fuel ih =>
    intro w ht idx cnt pass
    rw [HashTable.insertLoop, HashTable.insertLoop]
    dsimp only
    cases Go.idx ht.buckets idx.toNat with
    | error f => rfl
    | ok b =>
      rw [Go.bind_ok, Go.bind_ok]
      by_cases hb : b.isEmpty
      · rw [if_pos hb, if_pos hb]
        cases Go.set ht.buckets idx.toNat [k] with
        | error f => rfl
        | ok bs =>
          rw [Go.bind_ok, Go.bind_ok]
          cases traceChk e k <;> rfl
      · rw [if_neg hb, if_neg hb]
        by_cases ho : ht.oa = true
        · rw [if_pos ho, if_pos ho]
          cases traceChk e k with
          | error f => rfl
          | ok u =>
            rw [Go.bind_ok, Go.bind_ok]
            cases Go.idx b 0 with
            | error f => rfl
            | ok k0 =>
              rw [Go.bind_ok, Go.bind_ok]
              have hp : ({ ht with inserts := n } : HT κ).countProbe cnt = { ht.countProbe cnt with inserts := n } := by
                unfold HT.countProbe; split <;> rfl
              have hd : ∀ (x : HT κ) bh, ({ x with inserts := n } : HT κ).countDup bh h = { x.countDup bh h with inserts := n } := by
                intro x bh; unfold HT.countDup; split <;> rfl
              rw [hp]
              dsimp only
              rw [hd]
              dsimp only
              split
              · split
                · rfl
                · exact ih _ _ _ _ _
              · exact ih _ _ _ _ _
        · rw [if_neg ho, if_neg ho]
          cases Go.set ht.buckets idx.toNat (b ++ [k]) with
          | error f => rfl
          | ok bs =>
            rw [Go.bind_ok, Go.bind_ok]
            cases traceChk e k <;> rfl

theorem insert_inserts {κ : Type} (e : Env ω κ) (k : κ) (n : Nat) (w : ω) (ht : HT κ) :
    HashTable.insert e w { ht with inserts := n } k = (HashTable.insert e w ht k).map fun p => (p.1, { p.2 with inserts := n + 1 }) := by
  unfold HashTable.insert
  dsimp only
  have hl : ∀ h w' idx, HashTable.insertLoop e k h (2 * ht.size.toNat + 1) w' { ht with inserts := n + 1 } idx 0 0 =
      (HashTable.insertLoop e k h (2 * ht.size.toNat + 1) w' { ht with inserts := ht.inserts + 1 } idx 0 0).map fun p => (p.1, { p.2 with inserts := n + 1 }) :=
    fun h w' idx => insertLoop_inserts e k h (n + 1) _ w' { ht with inserts := ht.inserts + 1 } idx 0 0
  by_cases hp : ht.prime = true
  · rw [if_pos hp, if_pos hp]
    by_cases h0 : ht.size = 0
    · rw [if_pos h0]; rfl
    · rw [if_neg h0]; exact hl _ _ _
  · rw [if_neg hp, if_neg hp]; exact hl _ _ _

variable {e : EnvP ω (List U8)} {H : List U8 → U64 → Go U64}

theorem toF_ok (he : ∀ w k s, (e.hash w k s).1 = H k s) {k : List U8} {s : U64} (h : hashable (H k s) = true) : e.toF.Ok s k := by
  intro w
  rcases toF_hash e w k s with ⟨v, w', _, h2⟩ | ⟨f, w', h1, _⟩
  · exact ⟨_, h2⟩
  · have := he w k s
    rw [h1] at this
    rw [← this] at h
    exact nomatch h

theorem total_val (he : ∀ w k s, (e.hash w k s).1 = H k s) (w : ω) (k : List U8) (s : U64) : (e.toF.total.hash w k s).1 = valueOf H k s := by
  unfold valueOf
  have h := he w k s
  rcases toF_hash e w k s with ⟨v, w', h1, h2⟩ | ⟨f, w', h1, h2⟩
  · rw [EnvF.total_hash h2]; rw [h1] at h; rw [← h]
  · rw [h1] at h; rw [← h]; unfold EnvF.total; dsimp only; rw [h2]

/-- All the keys in the table can be hashed. -/
def Clean (H : List U8 → U64 → Go U64) (ht : HT (List U8)) : Prop := ∀ b ∈ ht.buckets, ∀ x ∈ b, hashable (H x ht.seed) = true

/-- A key that can be hashed goes in as with a total hash. -/
theorem step_ok (he : ∀ w k s, (e.hash w k s).1 = H k s) {T T' : HT (List U8)} {k : List U8} {u : Unit} (hc : Clean H T) (hk : hashable (H k T.seed) = true)
    (h : HashTable.insert (pureEnv (valueOf H) e.traceOK) () T k = .ok (u, T')) (n : Nat) (w : ω) :
    ∃ w', insertP e w { T with inserts := n } k = ⟨w', { T' with inserts := n + 1 }, none⟩ := by
  have h1 : insertF e.toF w { T with inserts := n } k = HashTable.insert e.toF.total w { T with inserts := n } k :=
    insertF_eq (toF_ok he (s := T.seed) hk w) (fun b hb x hx => toF_ok he (hc b hb x hx))
  have h2 := Lemmas.HtMain.insert_sim (e := e.toF.total) (total_val he) w T k
  rw [show (e.toF.total.traceOK) = e.traceOK from rfl, h] at h2
  rw [insert_inserts] at h1
  cases h3 : HashTable.insert e.toF.total w T k with
  | error f => rw [h3] at h2; exact nomatch h2
  | ok p =>
    obtain ⟨w', T2⟩ := p
    rw [h3] at h2 h1
    have : T2 = T' := Except.ok.inj h2
    subst this
    exact ⟨w', Ended.of_ok ((insertP_out _ _ _ _).trans h1)⟩

theorem step_error (he : ∀ w k s, (e.hash w k s).1 = H k s) {T : HT (List U8)} {k : List U8} {f : Fault} (hk : H k T.seed = .error f) (w : ω) :
    ∃ w', insertP e w T k = ⟨w', { T with inserts := T.inserts + 1 }, some f⟩ := by
  have h := he w k T.seed
  rw [hk] at h
  rcases h1 : e.hash w k T.seed with ⟨f' | v, w'⟩
  · rw [h1] at h
    cases Except.error.inj h
    refine ⟨w', ?_⟩
    unfold insertP
    dsimp only
    rw [h1]
  · rw [h1] at h; exact nomatch h

theorem Clean.step {T T' : HT (List U8)} {k : List U8} {u : Unit} {tr : List U8 → Bool} (hc : Clean H T) (hk : hashable (H k T.seed) = true) (hs : T'.seed = T.seed)
    (h : HashTable.insert (pureEnv (valueOf H) tr) () T k = .ok (u, T')) : Clean H T' := by
  intro b hb x hx
  rw [hs]
  rcases insert_mem h b hb x hx with rfl | ⟨b', hb', hx'⟩
  · exact hk
  · exact hc b' hb' x hx'

theorem Clean.new {np : Int → Int} {size seed extra : Int} {pd oa prime : Bool} {ht0 : HT (List U8)} (hnew : newHashTable np size seed extra pd oa prime = .ok ht0) : Clean H ht0 := by
  intro b hb x hx
  rw [(newHashTable_ok hnew).1] at hb
  rw [List.eq_of_mem_replicate hb] at hx
  exact nomatch hx

/-- C113. `Insert` on a chaining table (no tracing) with a hash that may panic on some keys, by a caller that recovers from every panic: each call on a key
whose hash panics ends with this panic, every other call ends without one; the table is the one that results from inserting only the keys that can be hashed,
except that `Inserts` counts all calls. -/
theorem C113_chain (e : EnvP ω (List U8)) (H : List U8 → U64 → Go U64) (he : ∀ w k s, (e.hash w k s).1 = H k s) (htr : ∀ k, e.traceOK k = true) (np : Int → Int)
    (size seed extra : Int) (pd prime : Bool) (ht0 : HT (List U8)) (hnew : newHashTable np size seed extra pd false prime = .ok ht0) (hpos : 0 < ht0.buckets.length)
    (w : ω) (ks : List (List U8)) :
    ∃ T w', HashTable.insertAll (pureEnv (valueOf H) e.traceOK) () ht0 (ks.filter fun k => hashable (H k ht0.seed)) = .ok ((), T) ∧
      recoverAll e w ht0 ks = (w', { T with inserts := ks.length }, endings none (ks.map fun k => H k ht0.seed)) := by
  have main : ∀ (ks : List (List U8)) (T : HT (List U8)) (w : ω) (n : Nat), WF T → T.oa = false → Clean H T →
      ∃ T' w', HashTable.insertAll (pureEnv (valueOf H) e.traceOK) () T (ks.filter fun k => hashable (H k T.seed)) = .ok ((), T') ∧
        recoverAll e w { T with inserts := n } ks = (w', { T' with inserts := n + ks.length }, endings none (ks.map fun k => H k T.seed)) := by
    intro ks
    induction ks with
    | nil => intro T w n _ _ _; exact ⟨T, w, rfl, rfl⟩
    | cons k ks ih =>
      intro T w n wf ho hc
      rw [recoverAll, List.map_cons]
      cases hk : H k T.seed with
      | error f =>
        obtain ⟨w1, h1⟩ := step_error he (T := { T with inserts := n }) hk w
        rw [h1]
        dsimp only
        obtain ⟨T', w', h2, h3⟩ := ih T w1 (n + 1) wf ho hc
        refine ⟨T', w', ?_, ?_⟩
        · rw [List.filter_cons_of_neg (by rw [hk]; exact Bool.false_ne_true)]; exact h2
        · rw [h3, endings]
          dsimp only
          rw [List.length_cons, show n + 1 + ks.length = n + (ks.length + 1) by omega]
      | ok v =>
        have hh : hashable (H k T.seed) = true := by rw [hk]; rfl
        obtain ⟨T1, hi, hwf, hoa, hsd⟩ : ∃ T1, HashTable.insert (pureEnv (valueOf H) e.traceOK) () T k = .ok ((), T1) ∧ WF T1 ∧ T1.oa = false ∧ T1.seed = T.seed := by
          have hcst := chainNext_const (e := pureEnv (valueOf H) e.traceOK) (w := ()) (ht := T) (k := k)
          exact ⟨_, insert_chain (e := pureEnv (valueOf H) e.traceOK) (w := ()) (k := k) wf ho (htr k), chainNext_wf wf, hcst.1.trans ho, hcst.2.2.2⟩
        obtain ⟨w1, h1⟩ := step_ok he hc hh hi n w
        rw [h1]
        dsimp only
        obtain ⟨T', w', h2, h3⟩ := ih T1 w1 (n + 1) hwf hoa (hc.step hh hsd hi)
        rw [hsd] at h2
        refine ⟨T', w', ?_, ?_⟩
        · rw [List.filter_cons_of_pos (p := fun k => hashable (H k T.seed)) hh, HashTable.insertAll, hi, Go.bind_ok]; exact h2
        · rw [h3, endings, hsd]
          dsimp only
          rw [List.length_cons, show n + 1 + ks.length = n + (ks.length + 1) by omega]
  have wf := newHashTable_wf hnew hpos
  have hok := newHashTable_ok hnew
  obtain ⟨T, w', h1, h2⟩ := main ks ht0 w 0 wf hok.2.2.1 (Clean.new hnew)
  refine ⟨T, w', h1, ?_⟩
  have h0 : ht0 = { ht0 with inserts := 0 } := by rw [← hok.2.2.2.2.1]
  rw [Nat.zero_add] at h2
  rw [← h2, ← h0]

/-- A key that finds the table full: the walk is counted, the key is not stored. -/
theorem step_full (he : ∀ w k s, (e.hash w k s).1 = H k s) {T : HT (List U8)} {k : List U8} (wf : WF T) (ho : T.oa = true) (htr : e.traceOK k = true) (hc : Clean H T)
    (h1 : ∀ b ∈ T.buckets, b.length = 1) (hk : hashable (H k T.seed) = true) (w : ω) :
    ∃ w', insertP e w T k = ⟨w', { T with
      inserts := T.inserts + 1, probes := T.probes + 1, cols := T.cols + (2 * T.size.toNat - 1 - homeOf T.prime T.size.toNat (valueOf H k T.seed)),
      dups := T.dups + ((T.buckets.drop (homeOf T.prime T.size.toNat (valueOf H k T.seed))).flatten.countP (fun x => valueOf H x T.seed = valueOf H k T.seed) +
        T.buckets.flatten.countP (fun x => valueOf H x T.seed = valueOf H k T.seed)) }, some (.explicit "Add: pass")⟩ := by
  have hval : ∀ x, hashable (H x T.seed) = true → H x T.seed = .ok (valueOf H x T.seed) := by
    intro x hx
    unfold valueOf
    cases h : H x T.seed with
    | ok v => rfl
    | error f => rw [h] at hx; exact nomatch hx
  have hh := he w k T.seed
  rw [hval k hk] at hh
  have h0 : T.size ≠ 0 := by intro h; have := wf.pos; rw [h] at this; simp at this
  have hlt := wf.home_lt (valueOf H k T.seed)
  rw [wf.len] at hlt
  have go : ∀ idx : U64, idx.toNat = homeOf T.prime T.size.toNat (valueOf H k T.seed) → ∃ w', insertLoopP e k (valueOf H k T.seed) (2 * T.size.toNat + 1) (e.hash w k T.seed).2
      { T with inserts := T.inserts + 1 } idx 0 0 = ⟨w', { T with
      inserts := T.inserts + 1, probes := T.probes + 1, cols := T.cols + (2 * T.size.toNat - 1 - homeOf T.prime T.size.toNat (valueOf H k T.seed)),
      dups := T.dups + ((T.buckets.drop (homeOf T.prime T.size.toNat (valueOf H k T.seed))).flatten.countP (fun x => valueOf H x T.seed = valueOf H k T.seed) +
        T.buckets.flatten.countP (fun x => valueOf H x T.seed = valueOf H k T.seed)) }, some (.explicit "Add: pass")⟩ := by
    intro idx hi
    have hlt' : idx.toNat < T.size.toNat := by rw [hi]; exact hlt
    obtain ⟨w', h2⟩ := loop_fullP e H he (fun x => valueOf H x T.seed) k (valueOf H k T.seed) htr (T.size.toNat * 2 - idx.toNat) (2 * T.size.toNat + 1) (e.hash w k T.seed).2
      { T with inserts := T.inserts + 1 } idx 0 0 T.size.toNat ⟨wf.len, wf.mask, wf.pos⟩ ho rfl hlt' (by omega) (by omega) rfl h1
      (fun b hb x hx => hval x (hc b hb x hx))
    refine ⟨w', ?_⟩
    rw [h2, hi]
    simp only [if_true]
    rw [show T.size.toNat * 2 - homeOf T.prime T.size.toNat (valueOf H k T.seed) - 1 = 2 * T.size.toNat - 1 - homeOf T.prime T.size.toNat (valueOf H k T.seed) by omega]
  unfold insertP
  dsimp only
  rw [show e.hash w k T.seed = (.ok (valueOf H k T.seed), (e.hash w k T.seed).2) from Prod.ext hh rfl]
  dsimp only
  by_cases hp : T.prime = true
  · rw [if_pos hp, if_neg h0]
    exact go _ (by rw [BitVec.toNat_umod, homeOf, if_pos hp])
  · rw [if_neg hp]
    exact go _ (by rw [BitVec.toNat_and, wf.mask, size_sub_one wf.pos, homeOf, if_neg hp])

/-- What the walks of these keys over a full table add to `Cols`: from the home slot to the end and over the whole table once more, less one. -/
def walked (prime : Bool) (m : Nat) (V : List U8 → U64) (ks : List (List U8)) : Nat := (ks.map fun k => 2 * m - 1 - homeOf prime m (V k)).sum

/-- What they add to `Dups`: the keys of equal hash from the home slot on, and in the whole table. -/
def met (prime : Bool) (V : List U8 → U64) (buckets : List (List (List U8))) (ks : List (List U8)) : Nat :=
  (ks.map fun k => (buckets.drop (homeOf prime buckets.length (V k))).flatten.countP (fun x => V x = V k) + buckets.flatten.countP (fun x => V x = V k)).sum

/-- C113. `Insert` on an open-addressing table (no tracing) with a hash that may panic on some keys, by a caller that recovers from every panic: each call on a
key whose hash panics ends with this panic; of the others, as many as there are slots end without one, the rest with `Add: pass`. The table is the one that
results from inserting only the keys that went in, except that `Inserts` counts all calls, and `Probes`, `Cols` and `Dups` also count the walks over the full table. -/
theorem C113_open (e : EnvP ω (List U8)) (H : List U8 → U64 → Go U64) (he : ∀ w k s, (e.hash w k s).1 = H k s) (htr : ∀ k, e.traceOK k = true) (np : Int → Int)
    (size seed extra : Int) (pd prime : Bool) (ht0 : HT (List U8)) (hnew : newHashTable np size seed extra pd true prime = .ok ht0) (hpos : 0 < ht0.buckets.length)
    (w : ω) (ks : List (List U8)) :
    let good := ks.filter fun k => hashable (H k ht0.seed)
    let late := good.drop ht0.buckets.length
    let V := fun k => valueOf H k ht0.seed
    ∃ T w', HashTable.insertAll (pureEnv (valueOf H) e.traceOK) () ht0 (good.take ht0.buckets.length) = .ok ((), T) ∧
      recoverAll e w ht0 ks = (w', { T with
        inserts := ks.length, probes := T.probes + late.length, cols := T.cols + walked prime ht0.buckets.length V late,
        dups := T.dups + met prime V T.buckets late }, endings (some ht0.buckets.length) (ks.map fun k => H k ht0.seed)) := by
  have full : ∀ (ks : List (List U8)) (T : HT (List U8)) (w : ω) (n p c d : Nat), WF T → T.oa = true → Clean H T → (∀ b ∈ T.buckets, b.length = 1) →
      ∃ w', recoverAll e w { T with inserts := n, probes := p, cols := c, dups := d } ks = (w', { T with
        inserts := n + ks.length, probes := p + (ks.filter fun k => hashable (H k T.seed)).length,
        cols := c + walked T.prime T.buckets.length (fun k => valueOf H k T.seed) (ks.filter fun k => hashable (H k T.seed)),
        dups := d + met T.prime (fun k => valueOf H k T.seed) T.buckets (ks.filter fun k => hashable (H k T.seed)) }, endings (some 0) (ks.map fun k => H k T.seed)) := by
    intro ks
    induction ks with
    | nil => intro T w n p c d _ _ _ _; exact ⟨w, rfl⟩
    | cons k ks ih =>
      intro T w n p c d wf ho hc h1
      rw [recoverAll, List.map_cons]
      cases hk : H k T.seed with
      | error f =>
        obtain ⟨w1, h2⟩ := step_error he (T := { T with inserts := n, probes := p, cols := c, dups := d }) hk w
        rw [h2]
        obtain ⟨w', h3⟩ := ih T w1 (n + 1) p c d wf ho hc h1
        refine ⟨w', ?_⟩
        dsimp only
        rw [h3, endings, List.filter_cons_of_neg (by rw [hk]; exact Bool.false_ne_true)]
        dsimp only
        rw [List.length_cons, show n + 1 + ks.length = n + (ks.length + 1) by omega]
      | ok v =>
        have hh : hashable (H k T.seed) = true := by rw [hk]; rfl
        obtain ⟨w1, h2⟩ := step_full he (T := { T with inserts := n, probes := p, cols := c, dups := d }) ⟨wf.len, wf.mask, wf.pos⟩ ho (htr k) hc h1 hh w
        rw [h2]
        dsimp only
        obtain ⟨w', h3⟩ := ih T w1 (n + 1) (p + 1) (c + (2 * T.size.toNat - 1 - homeOf T.prime T.size.toNat (valueOf H k T.seed)))
          (d + ((T.buckets.drop (homeOf T.prime T.size.toNat (valueOf H k T.seed))).flatten.countP (fun x => valueOf H x T.seed = valueOf H k T.seed) +
            T.buckets.flatten.countP (fun x => valueOf H x T.seed = valueOf H k T.seed))) wf ho hc h1
        refine ⟨w', ?_⟩
        rw [h3, endings, List.filter_cons_of_pos (p := fun k => hashable (H k T.seed)) hh]
        dsimp only
        unfold walked met
        rw [List.length_cons, List.length_cons, List.map_cons, List.map_cons, List.sum_cons, List.sum_cons, wf.len, show n + 1 + ks.length = n + (ks.length + 1) by omega,
          show ∀ x : Nat, p + 1 + x = p + (x + 1) by omega, Nat.add_assoc c, Nat.add_assoc d]
  have main : ∀ (ks : List (List U8)) (done : List (List U8)) (T : HT (List U8)) (w : ω) (n : Nat), OAInv (valueOf H) prime ht0.size ht0.seed done T → Clean H T → done.length ≤ ht0.size.toNat →
      ∃ T' w', HashTable.insertAll (pureEnv (valueOf H) e.traceOK) () T ((ks.filter fun k => hashable (H k ht0.seed)).take (ht0.size.toNat - done.length)) = .ok ((), T') ∧
        recoverAll e w { T with inserts := n } ks = (w', { T' with
          inserts := n + ks.length, probes := T'.probes + ((ks.filter fun k => hashable (H k ht0.seed)).drop (ht0.size.toNat - done.length)).length,
          cols := T'.cols + walked prime ht0.size.toNat (fun k => valueOf H k ht0.seed) ((ks.filter fun k => hashable (H k ht0.seed)).drop (ht0.size.toNat - done.length)),
          dups := T'.dups + met prime (fun k => valueOf H k ht0.seed) T'.buckets ((ks.filter fun k => hashable (H k ht0.seed)).drop (ht0.size.toNat - done.length)) },
          endings (some (ht0.size.toNat - done.length)) (ks.map fun k => H k ht0.seed)) := by
    intro ks
    induction ks with
    | nil =>
      intro done T w n inv hc hd
      refine ⟨T, w, by rw [List.filter_nil, List.take_nil]; rfl, ?_⟩
      rw [List.filter_nil, List.drop_nil]; rfl
    | cons k ks ih =>
      intro done T w n inv hc hd
      by_cases hr : done.length = ht0.size.toNat
      · -- full
        have hlen : T.buckets.length = ht0.size.toNat := by rw [inv.wf.len, inv.hsize]
        have h1 : ∀ b ∈ T.buckets, b.length = 1 := by
          intro b hb
          have h2 := inv.len1 b hb
          have hne := (Lemmas.HtMain.all_full inv.len1).2 (by rw [inv.perm.length_eq, hlen, hr]) b hb
          cases b with
          | nil => exact absurd rfl hne
          | cons a l => simp at h2 ⊢; exact h2
        obtain ⟨w', h2⟩ := full (k :: ks) T w n T.probes T.cols T.dups inv.wf inv.oa hc h1
        rw [hr, Nat.sub_self, List.take_zero, List.drop_zero]
        refine ⟨T, w', rfl, ?_⟩
        rw [← inv.hprime, ← hlen, ← inv.hseed]
        exact h2
      · rw [recoverAll, List.map_cons]
        obtain ⟨r, hr'⟩ : ∃ r, ht0.size.toNat - done.length = r + 1 := ⟨ht0.size.toNat - done.length - 1, by omega⟩
        cases hk : H k ht0.seed with
        | error f =>
          obtain ⟨w1, h2⟩ := step_error he (T := { T with inserts := n }) (by rw [← inv.hseed] at hk; exact hk) w
          rw [h2]
          obtain ⟨T', w', h3, h4⟩ := ih done T w1 (n + 1) inv hc hd
          rw [List.filter_cons_of_neg (by rw [hk]; exact Bool.false_ne_true)]
          refine ⟨T', w', h3, ?_⟩
          dsimp only
          rw [h4, endings]
          dsimp only
          rw [List.length_cons, show n + 1 + ks.length = n + (ks.length + 1) by omega]
        | ok v =>
          have hh : hashable (H k ht0.seed) = true := by rw [hk]; rfl
          obtain ⟨T1, hi, inv1⟩ := oa_step (k := k) (tr := e.traceOK) inv (by omega) (htr k)
          have hh' : hashable (H k T.seed) = true := by rw [inv.hseed]; exact hh
          obtain ⟨w1, h2⟩ := step_ok he hc hh' hi n w
          rw [h2]
          obtain ⟨T', w', h3, h4⟩ := ih (done ++ [k]) T1 w1 (n + 1) inv1 (hc.step hh' (by rw [inv1.hseed, inv.hseed]) hi) (by rw [List.length_append, List.length_singleton]; omega)
          rw [List.length_append, List.length_singleton, show ht0.size.toNat - (done.length + 1) = r by omega] at h3 h4
          rw [List.filter_cons_of_pos (p := fun k => hashable (H k ht0.seed)) hh, hr', List.take_succ_cons, List.drop_succ_cons]
          refine ⟨T', w', ?_, ?_⟩
          · rw [HashTable.insertAll, hi, Go.bind_ok]; exact h3
          · dsimp only
            rw [h4, endings]
            dsimp only
            rw [List.length_cons, show n + 1 + ks.length = n + (ks.length + 1) by omega]
  intro good late V
  have wf := newHashTable_wf hnew hpos
  have hok := newHashTable_ok hnew
  have inv0 : OAInv (valueOf H) prime ht0.size ht0.seed [] ht0 := by
    obtain ⟨x, h1, h2⟩ := oa_main (valueOf H) (fun _ => true) np size seed extra pd prime ht0 [] (fun _ h => (nomatch h)) hnew (by simp) hpos
    cases Except.ok.inj h1
    exact h2
  obtain ⟨T, w', h1, h2⟩ := main ks [] ht0 w 0 inv0 (Clean.new hnew) (by simp)
  rw [List.length_nil, Nat.sub_zero, ← wf.len] at h1 h2
  refine ⟨T, w', h1, ?_⟩
  have h0 : ht0 = { ht0 with inserts := 0 } := by rw [← hok.2.2.2.2.1]
  rw [Nat.zero_add] at h2
  rw [← h0] at h2
  exact h2

/-- C113. Whatever the hash function and the table: a call that panics has counted itself in `Inserts`, but never in `Heads` or `Nbuckets`; unless it panics
because the key is too short to be traced, the buckets, `LongestChain` and the table's parameters are what they were. -/
theorem C113_frame {κ : Type} (e : EnvP ω κ) (w : ω) (ht : HT κ) (k : κ) (f : Fault) (h : (insertP e w ht k).panic = some f) :
    let ht' := (insertP e w ht k).ht
    ht'.inserts = ht.inserts + 1 ∧ ht'.heads = ht.heads ∧ ht'.nbuckets = ht.nbuckets ∧
      (e.traceOK k = true → ht'.buckets = ht.buckets ∧ ht'.longestChain = ht.longestChain ∧ ht'.size = ht.size ∧ ht'.sizeMask = ht.sizeMask ∧ ht'.seed = ht.seed ∧
        ht'.oa = ht.oa ∧ ht'.prime = ht.prime) := by
  have loop : ∀ v w' idx fuel, (insertLoopP e k v fuel w' { ht with inserts := ht.inserts + 1 } idx 0 0).panic = some f →
      (insertLoopP e k v fuel w' { ht with inserts := ht.inserts + 1 } idx 0 0).ht.inserts = ht.inserts + 1 ∧
      (insertLoopP e k v fuel w' { ht with inserts := ht.inserts + 1 } idx 0 0).ht.heads = ht.heads ∧
      (insertLoopP e k v fuel w' { ht with inserts := ht.inserts + 1 } idx 0 0).ht.nbuckets = ht.nbuckets ∧
      (e.traceOK k = true → Frame { ht with inserts := ht.inserts + 1 } (insertLoopP e k v fuel w' { ht with inserts := ht.inserts + 1 } idx 0 0).ht) := by
    intro v w' idx fuel hp
    by_cases hk : e.traceOK k = true
    · have hfr := insertLoopP_frame e k v hk fuel w' { ht with inserts := ht.inserts + 1 } idx 0 0 f hp
      exact ⟨hfr.inserts, hfr.heads, hfr.nbuckets, fun _ => hfr⟩
    · refine (fun (hh : (_ = _) ∧ (_ = _) ∧ (_ = _)) => ⟨hh.1, hh.2.1, hh.2.2, fun h => absurd h hk⟩) ?_
      cases fuel with
      | zero => exact ⟨rfl, rfl, rfl⟩
      | succ fuel =>
        rw [insertLoopP]
        dsimp only
        cases ht.buckets[idx.toNat]? with
        | none => exact ⟨rfl, rfl, rfl⟩
        | some b =>
          dsimp only
          split
          · exact ⟨rfl, rfl, rfl⟩
          · split
            · have hfr := frame_probe { ht with inserts := ht.inserts + 1 } 0
              exact ⟨hfr.inserts, hfr.heads, hfr.nbuckets⟩
            · rcases scanDupsP e ht.seed v b w' ht.dups with ⟨d, w2, _ | f'⟩
              · exact ⟨rfl, rfl, rfl⟩
              · exact ⟨rfl, rfl, rfl⟩
  have fin : ∀ x : HT κ, (x.inserts = ht.inserts + 1 ∧ x.heads = ht.heads ∧ x.nbuckets = ht.nbuckets ∧ (e.traceOK k = true → Frame { ht with inserts := ht.inserts + 1 } x)) →
      x.inserts = ht.inserts + 1 ∧ x.heads = ht.heads ∧ x.nbuckets = ht.nbuckets ∧
      (e.traceOK k = true → x.buckets = ht.buckets ∧ x.longestChain = ht.longestChain ∧ x.size = ht.size ∧ x.sizeMask = ht.sizeMask ∧ x.seed = ht.seed ∧ x.oa = ht.oa ∧ x.prime = ht.prime) :=
    fun x hx => ⟨hx.1, hx.2.1, hx.2.2.1, fun hk => let g := hx.2.2.2 hk; ⟨g.buckets, g.longestChain, g.size, g.sizeMask, g.seed, g.oa, g.prime⟩⟩
  refine fin _ ?_
  revert h
  unfold insertP
  dsimp only
  rcases e.hash w k ht.seed with ⟨f' | v, w'⟩
  · intro _; exact ⟨rfl, rfl, rfl, fun _ => Frame.refl _⟩
  · dsimp only
    split
    · split
      · intro _; exact ⟨rfl, rfl, rfl, fun _ => Frame.refl _⟩
      · exact loop _ _ _ _
    · exact loop _ _ _ _

theorem scan_clean (he : ∀ w k s, (e.hash w k s).1 = H k s) (seed v : U64) (b : List (List U8)) (hb : ∀ x ∈ b, hashable (H x seed) = true) : ∀ (w : ω) (n : Nat),
    ∃ d w', scanDupsP e seed v b w n = (d, w', none) := by
  induction b with
  | nil => intro w n; exact ⟨n, w, rfl⟩
  | cons x b ih =>
    intro w n
    rw [scanDupsP]
    have h1 := he w x seed
    have h2 := hb x (by simp)
    rw [← h1] at h2
    rcases hx : e.hash w x seed with ⟨f' | bh, w'⟩
    · rw [hx] at h2; exact nomatch h2
    · exact ih (fun y hy => hb y (List.mem_cons_of_mem _ hy)) _ _

/-- C113. With tracing on, a key that is too short to be traced makes `Insert` panic with an index out of range, but with chaining, and with open addressing if its
home slot is free, it is in the table all the same, though none of `Probes`, `Heads` and `Nbuckets` counts it; if the home slot is taken, it is not. -/
theorem C113_trace (e : EnvP ω (List U8)) (H : List U8 → U64 → Go U64) (he : ∀ w k s, (e.hash w k s).1 = H k s) (w : ω) (ht : HT (List U8)) (wf : WF ht) (hc : Clean H ht)
    (k : List U8) (hk : hashable (H k ht.seed) = true) (htr : e.traceOK k = false) :
    let r := insertP e w ht k
    let home := homeOf ht.prime ht.size.toNat (valueOf H k ht.seed)
    r.panic = some .index ∧ r.ht.inserts = ht.inserts + 1 ∧ r.ht.heads = ht.heads ∧ r.ht.nbuckets = ht.nbuckets ∧
      ∃ b, ht.buckets[home]? = some b ∧
        if ht.oa = true ∧ b ≠ [] then r.ht.buckets = ht.buckets ∧ r.ht.probes = ht.probes + 1 else r.ht.buckets = ht.buckets.set home (b ++ [k]) ∧ r.ht.probes = ht.probes := by
  intro r home
  have hn : ¬ e.traceOK k = true := by rw [htr]; exact Bool.false_ne_true
  have hlt : home < ht.buckets.length := wf.home_lt (valueOf H k ht.seed)
  have h0 : ht.size ≠ 0 := by intro h; have := wf.pos; rw [h] at this; simp at this
  have hv : H k ht.seed = .ok (valueOf H k ht.seed) := by
    unfold valueOf
    cases h : H k ht.seed with
    | ok v => rfl
    | error f => rw [h] at hk; exact nomatch hk
  have key : ∀ (idx : U64) (w' : ω), idx.toNat = home →
      let q := insertLoopP e k (valueOf H k ht.seed) (2 * ht.size.toNat + 1) w' { ht with inserts := ht.inserts + 1 } idx 0 0
      q.panic = some .index ∧ q.ht.inserts = ht.inserts + 1 ∧ q.ht.heads = ht.heads ∧ q.ht.nbuckets = ht.nbuckets ∧
      ∃ b, ht.buckets[home]? = some b ∧
        if ht.oa = true ∧ b ≠ [] then q.ht.buckets = ht.buckets ∧ q.ht.probes = ht.probes + 1 else q.ht.buckets = ht.buckets.set home (b ++ [k]) ∧ q.ht.probes = ht.probes := by
    intro idx w' hi q
    have hq : q = insertLoopP e k (valueOf H k ht.seed) (2 * ht.size.toNat + 1) w' { ht with inserts := ht.inserts + 1 } idx 0 0 := rfl
    rw [insertLoopP] at hq
    dsimp only at hq
    rw [hi, List.getElem?_eq_getElem hlt] at hq
    dsimp only at hq
    have hmem := List.getElem_mem hlt
    rw [List.getElem?_eq_getElem hlt]
    generalize ht.buckets[home] = b at *
    cases b with
    | nil =>
      rw [if_pos (show ([] : List (List U8)).isEmpty = true from rfl), if_neg hn] at hq
      rw [hq]
      exact ⟨rfl, rfl, rfl, rfl, [], rfl, by rw [if_neg (fun h => h.2 rfl)]; exact ⟨rfl, rfl⟩⟩
    | cons x l =>
      rw [if_neg (by simp)] at hq
      by_cases ho : ht.oa = true
      · rw [if_pos ho, if_neg hn] at hq
        rw [hq]
        have hfr := frame_probe { ht with inserts := ht.inserts + 1 } 0
        exact ⟨rfl, hfr.inserts, hfr.heads, hfr.nbuckets, x :: l, rfl, by rw [if_pos ⟨ho, by simp⟩]; exact ⟨hfr.buckets, rfl⟩⟩
      · rw [if_neg ho] at hq
        obtain ⟨d, w2, hs⟩ := scan_clean he ht.seed (valueOf H k ht.seed) (x :: l) (fun y hy => hc _ hmem y hy) w' ht.dups
        rw [hs] at hq
        dsimp only at hq
        rw [if_neg hn] at hq
        rw [hq]
        exact ⟨rfl, rfl, rfl, rfl, x :: l, rfl, by rw [if_neg (fun h => ho h.1)]; exact ⟨rfl, rfl⟩⟩
  have hr : r = insertP e w ht k := rfl
  unfold insertP at hr
  dsimp only at hr
  have hh := he w k ht.seed
  rw [hv] at hh
  rw [show e.hash w k ht.seed = (.ok (valueOf H k ht.seed), (e.hash w k ht.seed).2) from Prod.ext hh rfl] at hr
  dsimp only at hr
  by_cases hp : ht.prime = true
  · rw [if_pos hp, if_neg h0] at hr
    rw [hr]
    exact key _ _ (by rw [BitVec.toNat_umod]; show _ = homeOf _ _ _; rw [homeOf, if_pos hp])
  · rw [if_neg hp] at hr
    rw [hr]
    exact key _ _ (by rw [BitVec.toNat_and, wf.mask, size_sub_one wf.pos]; show _ = homeOf _ _ _; rw [homeOf, if_neg hp])

/-- An example hash: it panics on the empty key. -/
def headHash : List U8 → U64 → Go U64
  | [], _ => .error .index
  | b :: _, s => .ok (b.setWidth 64 + s)

def headEnv (trace : Bool) : EnvP Unit (List U8) := ⟨fun w k s => (headHash k s, w), fun k => !trace || decide (4 ≤ k.length)⟩

theorem scan_stops (he : ∀ w k s, (e.hash w k s).1 = H k s) (seed v : U64) (x : List U8) (f : Fault) (hx : H x seed = .error f) (post : List (List U8)) :
    ∀ (pre : List (List U8)), (∀ y ∈ pre, hashable (H y seed) = true) → ∀ (w : ω) (n : Nat),
    ∃ w', scanDupsP e seed v (pre ++ x :: post) w n = (n + (pre.filter fun y => valueOf H y seed = v).length, w', some f) := by
  intro pre
  induction pre with
  | nil =>
    intro _ w n
    have h1 := he w x seed
    rw [hx] at h1
    refine ⟨(e.hash w x seed).2, ?_⟩
    rw [List.nil_append, scanDupsP, show e.hash w x seed = (.error f, (e.hash w x seed).2) from Prod.ext h1 rfl]
    rfl
  | cons y pre ih =>
    intro hb w n
    have h1 := he w y seed
    have h2 := hb y (by simp)
    have hv : H y seed = .ok (valueOf H y seed) := by
      unfold valueOf
      cases h : H y seed with
      | ok v => rfl
      | error f => rw [h] at h2; exact nomatch h2
    rw [hv] at h1
    rw [List.cons_append, scanDupsP, show e.hash w y seed = (.ok (valueOf H y seed), (e.hash w y seed).2) from Prod.ext h1 rfl]
    dsimp only
    obtain ⟨w', hw⟩ := ih (fun z hz => hb z (List.mem_cons_of_mem _ hz)) (e.hash w y seed).2 (if valueOf H y seed = v then n + 1 else n)
    refine ⟨w', hw.trans ?_⟩
    by_cases hyv : valueOf H y seed = v
    · rw [if_pos hyv, List.filter_cons, if_pos (by simpa using hyv), List.length_cons]
      congr 1; omega
    · rw [if_neg hyv, List.filter_cons, if_neg (by simpa using hyv)]

/-- C113. If the hash of a key that is in the table already panics (the selected hash was changed since), `Insert` of a key of that chain ends with this panic; the key
is not in the table, and `Dups` counts the keys of equal hash that come before the one that cannot be hashed. -/
theorem C113_stored (e : EnvP ω (List U8)) (H : List U8 → U64 → Go U64) (he : ∀ w k s, (e.hash w k s).1 = H k s) (w : ω) (ht : HT (List U8)) (wf : WF ht) (hoa : ht.oa = false)
    (k : List U8) (hk : hashable (H k ht.seed) = true) (pre post : List (List U8)) (x : List U8) (f : Fault)
    (hb : ht.buckets[homeOf ht.prime ht.size.toNat (valueOf H k ht.seed)]? = some (pre ++ x :: post))
    (hpre : ∀ y ∈ pre, hashable (H y ht.seed) = true) (hx : H x ht.seed = .error f) :
    let r := insertP e w ht k
    r.panic = some f ∧
      r.ht = { ht with inserts := ht.inserts + 1, dups := ht.dups + (pre.filter fun y => valueOf H y ht.seed = valueOf H k ht.seed).length } := by
  intro r
  have h0 : ht.size ≠ 0 := by intro h; have := wf.pos; rw [h] at this; simp at this
  have hv : H k ht.seed = .ok (valueOf H k ht.seed) := by
    unfold valueOf
    cases h : H k ht.seed with
    | ok v => rfl
    | error f => rw [h] at hk; exact nomatch hk
  have key : ∀ (idx : U64) (w' : ω), idx.toNat = homeOf ht.prime ht.size.toNat (valueOf H k ht.seed) →
      let q := insertLoopP e k (valueOf H k ht.seed) (2 * ht.size.toNat + 1) w' { ht with inserts := ht.inserts + 1 } idx 0 0
      q.panic = some f ∧
      q.ht = { ht with inserts := ht.inserts + 1, dups := ht.dups + (pre.filter fun y => valueOf H y ht.seed = valueOf H k ht.seed).length } := by
    intro idx w' hi q
    have hq : q = insertLoopP e k (valueOf H k ht.seed) (2 * ht.size.toNat + 1) w' { ht with inserts := ht.inserts + 1 } idx 0 0 := rfl
    rw [insertLoopP] at hq
    dsimp only at hq
    rw [hi, hb] at hq
    dsimp only at hq
    rw [if_neg (by simp), if_neg (by rw [hoa]; exact Bool.false_ne_true)] at hq
    obtain ⟨w2, hs⟩ := scan_stops he ht.seed (valueOf H k ht.seed) x f hx post pre hpre w' ht.dups
    rw [hs] at hq
    dsimp only at hq
    rw [hq]
    exact ⟨rfl, rfl⟩
  have hr : r = insertP e w ht k := rfl
  unfold insertP at hr
  dsimp only at hr
  have hh := he w k ht.seed
  rw [hv] at hh
  rw [show e.hash w k ht.seed = (.ok (valueOf H k ht.seed), (e.hash w k ht.seed).2) from Prod.ext hh rfl] at hr
  dsimp only at hr
  by_cases hp : ht.prime = true
  · rw [if_pos hp, if_neg h0] at hr
    rw [hr]
    exact key _ _ (by rw [BitVec.toNat_umod]; show _ = homeOf _ _ _; rw [homeOf, if_pos hp])
  · rw [if_neg hp] at hr
    rw [hr]
    exact key _ _ (by rw [BitVec.toNat_and, wf.mask, size_sub_one wf.pos]; show _ = homeOf _ _ _; rw [homeOf, if_neg hp])

/-- A table with a key that `headHash` cannot hash (it was inserted with another hash): the second key of the chain counts as duplicate of the new one, the third stops. -/
def storedTable : HT (List U8) :=
  { buckets := [[], [[3], [1], [], [1, 2]]], inserts := 4, cols := 0, probes := 4, heads := 1, dups := 0, nbuckets := 3, longestChain := 4, lines := 0, size := 2,
    sizeLog2 := 1, sizeMask := 1, seed := 0, extra := 0, pd := false, oa := false, prime := false }

example : (insertP (headEnv false) () storedTable [1, 7]).panic = some .index ∧ (insertP (headEnv false) () storedTable [1, 7]).ht.dups = 1 ∧
    (insertP (headEnv false) () storedTable [1, 7]).ht.buckets = storedTable.buckets := by
  obtain ⟨a, b⟩ := C113_stored (headEnv false) headHash (fun _ _ _ => rfl) () storedTable ⟨rfl, rfl, by decide⟩ rfl [1, 7] rfl [[3], [1]] [[1, 2]] [] .index
    (by decide +kernel) (by decide) rfl
  exact ⟨a, by rw [b]; decide +kernel, by rw [b]⟩

/-- C113. The expected 'a call of Insert that panics leaves the table as it was, so a caller that recovers can go on' is refuted: in a history of three calls the
second panics, and `Inserts` is 3 for the two keys in the table; with tracing, a call panics and its key is in the table, but not counted as a head. -/
theorem C113_violated : (∃ ht0, newHashTable id 2 0 0 false false false = .ok ht0 ∧
      (recoverAll (headEnv false) () ht0 [[1], [], [2]]).2.2 = [none, some .index, none] ∧
      (recoverAll (headEnv false) () ht0 [[1], [], [2]]).2.1.inserts = 3 ∧ (recoverAll (headEnv false) () ht0 [[1], [], [2]]).2.1.buckets = [[[2]], [[1]]]) ∧
    ∃ ht0, newHashTable id 2 0 0 false false false = .ok ht0 ∧
      (insertP (headEnv true) () ht0 [1]).panic = some .index ∧ (insertP (headEnv true) () ht0 [1]).ht.buckets = [[], [[1]]] ∧ (insertP (headEnv true) () ht0 [1]).ht.heads = 0 := by
  refine ⟨⟨_, rfl, by decide +kernel, by decide +kernel, by decide +kernel⟩, ⟨_, rfl, by decide +kernel, by decide +kernel, by decide +kernel⟩⟩

/-- The hypotheses of `C113_chain` are met, with a key that can be hashed and one that cannot. -/
example : ∃ ht0 T, newHashTable id 2 0 0 false false false = .ok ht0 ∧ HashTable.insertAll (pureEnv (valueOf headHash) fun _ => true) () ht0 [[1], [2]] = .ok ((), T) ∧
    (recoverAll (headEnv false) () ht0 [[1], [], [2]]).2 = ({ T with inserts := 3 }, [none, some .index, none]) := by
  obtain ⟨T, w', h1, h2⟩ := C113_chain (headEnv false) headHash (fun _ _ _ => rfl) (fun _ => rfl) id 2 0 0 false false _ rfl (by decide) () [[1], [], [2]]
  exact ⟨_, T, rfl, h1, by rw [h2]; rfl⟩

/-- The hypotheses of `C113_open` are met: two slots, three keys that can be hashed. -/
example : ∃ ht0 T, newHashTable id 2 0 0 false true false = .ok ht0 ∧ HashTable.insertAll (pureEnv (valueOf headHash) fun _ => true) () ht0 [[1], [2]] = .ok ((), T) ∧
    (recoverAll (headEnv false) () ht0 [[1], [], [2], [3]]).2 =
      ({ T with inserts := 4, probes := T.probes + 1, cols := T.cols + 2, dups := T.dups + 0 }, [none, some .index, none, some (.explicit "Add: pass")]) := by
  obtain ⟨T, w', h1, h2⟩ := C113_open (headEnv false) headHash (fun _ _ _ => rfl) (fun _ => rfl) id 2 0 0 false false _ rfl (by decide) () [[1], [], [2], [3]]
  refine ⟨_, T, rfl, h1, ?_⟩
  have hT : T.buckets = [[[2]], [[1]]] := by cases Except.ok.inj h1; rfl
  rw [h2, hT]; rfl

/-- The hypotheses of `C113_trace` and `C113_frame` are met. -/
example : ∃ ht0, newHashTable id 2 0 0 false false false = .ok ht0 ∧ (insertP (headEnv true) () ht0 [1]).panic = some .index ∧
    (insertP (headEnv true) () ht0 [1]).ht.inserts = 1 :=
  ⟨_, rfl, (C113_trace (headEnv true) headHash (fun _ _ _ => rfl) () _ ⟨rfl, rfl, by decide⟩ (Clean.new (np := id) (size := 2) (seed := 0) (extra := 0) (pd := false) (oa := false)
    (prime := false) rfl) [1] rfl rfl).1, (C113_frame (headEnv true) () _ [1] .index (by decide +kernel)).1⟩

end

end Verif.Props
