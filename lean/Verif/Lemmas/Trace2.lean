import Verif.Lemmas.Trace

namespace Verif.Lemmas.Trace
open Verif Verif.HashTable Verif.Model.Trace
open Verif.Spec.Trace Verif.Spec.HashTable


/-- Prefixing output. -/
def pre (o : List Line) (X : Out α) : Out α := ⟨o ++ X.1, X.2⟩

theorem pre_pre (a b : List Line) (X : Out α) : pre a (pre b X) = pre (a ++ b) X := by
  simp [pre, List.append_assoc]

theorem pre_nil (X : Out α) : pre [] X = X := rfl

/-- The lines of a sequence of probes from slot `a` on, beginning with probe number `c`. -/
def probesLines (trace pd : Bool) (H : List U8 → U64) (first : Nat) (k : List U8) (n a : Nat)
    (met : List (List U8)) (c : Nat) : List Line :=
  (met.zipIdx c).flatMap fun p => probeLines trace pd H first k p.1 p.2 ((a + p.2) % n)

theorem probesLines_cons (trace pd : Bool) (H : List U8 → U64) (first : Nat) (k : List U8) (n a : Nat)
    (m : List U8) (met : List (List U8)) (c : Nat) :
    probesLines trace pd H first k n a (m :: met) c =
      probeLines trace pd H first k m c ((a + c) % n) ++ probesLines trace pd H first k n a met (c + 1) := by
  simp [probesLines]

/-- One occupied slot. -/
theorem one_probe (H : List U8 → U64 → U64) (trace : Bool) (k : List U8) (hk : trace = true → 4 ≤ k.length)
    (fuel : Nat) (ht : HT (List U8)) (tc : Nat) (idx : U64) (cnt pass n a : Nat) (m : List U8) (bt : List (List U8))
    (first : Nat) (htc : trace = true → tc = first + cnt)
    (wf : WF ht) (hoa : ht.oa = true) (hn : ht.size.toNat = n) (hi : idx.toNat < n)
    (ha : (a + cnt) % n = idx.toNat) (hm : ht.buckets[idx.toNat]? = some (m :: bt)) :
    Model.Trace.insertLoop (pureHash H) trace k (H k ht.seed) (fuel + 1) () ht tc idx cnt pass =
      pre (probeLines trace ht.pd (H · ht.seed) first k m cnt ((a + cnt) % n))
        (if idx.toNat + 1 = n then
          if pass + 1 > 1 then Out.lift (Go.panic "Add: pass")
          else Model.Trace.insertLoop (pureHash H) trace k (H k ht.seed) fuel ()
            ((ht.countProbe cnt).countDup (H m ht.seed) (H k ht.seed)) (if trace then tc + 1 else tc) 0 (cnt + 1) (pass + 1)
        else Model.Trace.insertLoop (pureHash H) trace k (H k ht.seed) fuel ()
            ((ht.countProbe cnt).countDup (H m ht.seed) (H k ht.seed)) (if trace then tc + 1 else tc) (idx + 1) (cnt + 1) pass) := by
  have hlt : idx.toNat < ht.buckets.length := by rw [wf.len, hn]; exact hi
  have hbi : Go.idx ht.buckets idx.toNat = .ok (m :: bt) := by unfold Go.idx; rw [hm]
  obtain ⟨hgt, hsucc⟩ := next_idx hn hi
  have hseed : (ht.countProbe cnt).seed = ht.seed := by unfold HT.countProbe; split <;> rfl
  have hpd : (ht.countProbe cnt).pd = ht.pd := by unfold HT.countProbe; split <;> rfl
  have hsz : ((ht.countProbe cnt).countDup (H m ht.seed) (H k ht.seed)).size = ht.size := by
    unfold HT.countDup HT.countProbe; split <;> split <;> rfl
  rw [Model.Trace.insertLoop, hbi, lift_ok]
  simp only [List.isEmpty_cons, Bool.false_eq_true, if_false, hoa, if_true]
  rw [traceRecord_ok hk, mk_ok]
  have h0 : Go.idx (m :: bt) 0 = .ok m := rfl
  rw [h0, lift_ok, printDup_eq, mk_ok]
  dsimp only [pureHash]
  simp only [hseed, hpd, hsz]
  have hcond : ∀ (X Y : Out (Unit × HT (List U8) × Nat)),
      (if idx + 1 > ht.size - 1 then X else Y) = if idx.toNat + 1 = n then X else Y := by
    intro X Y
    by_cases h : idx.toNat + 1 = n
    · rw [if_pos h, if_pos (hgt.2 h)]
    · rw [if_neg h, if_neg (fun h' => h (hgt.1 h'))]
  rw [hcond]
  unfold pre probeLines dupLines
  dsimp only
  rw [ha, List.append_assoc]
  have hdl : (if ht.pd = true ∧ H m ht.seed = H k ht.seed then
        [Line.dup (H k ht.seed) idx.toNat k, Line.dup (H m ht.seed) idx.toNat m] else []) =
      (if ht.pd = true ∧ H m ht.seed = H k ht.seed then
        [Line.dup (H k ht.seed) idx.toNat k, Line.dup (H k ht.seed) idx.toNat m] else []) := by
    by_cases hd : ht.pd = true ∧ H m ht.seed = H k ht.seed
    · rw [if_pos hd, if_pos hd, hd.2]
    · rw [if_neg hd, if_neg hd]
  rw [hdl]
  cases trace
  · rfl
  · rw [htc rfl]

theorem probes_run (H : List U8 → U64 → U64) (trace : Bool) (k : List U8) (hk : trace = true → 4 ≤ k.length)
    (first n a : Nat) (bs : List (List (List U8))) (seed : U64) (pd : Bool) (met : List (List U8)) :
    ∀ (fuel : Nat) (ht : HT (List U8)) (tc : Nat) (idx : U64) (cnt pass : Nat),
    (trace = true → tc = first + cnt) → WF ht → ht.oa = true → ht.size.toNat = n → ht.buckets = bs →
    ht.seed = seed → ht.pd = pd → idx.toNat < n → (a + cnt) % n = idx.toNat →
    n * pass + idx.toNat + met.length < 2 * n →
    (∀ i (hi : i < met.length), ∃ bt, bs[(a + (cnt + i)) % n]? = some (met[i] :: bt)) →
    ∃ (ht' : HT (List U8)) (tc' : Nat) (idx' : U64) (pass' : Nat),
      (trace = true → tc' = first + (cnt + met.length)) ∧ WF ht' ∧ ht'.oa = true ∧ ht'.size.toNat = n ∧ ht'.buckets = bs ∧
      ht'.seed = seed ∧ ht'.pd = pd ∧ idx'.toNat < n ∧ (a + (cnt + met.length)) % n = idx'.toNat ∧
      n * pass' + idx'.toNat = n * pass + idx.toNat + met.length ∧
      Model.Trace.insertLoop (pureHash H) trace k (H k seed) (fuel + met.length) () ht tc idx cnt pass =
        pre (probesLines trace pd (H · seed) first k n a met cnt)
          (Model.Trace.insertLoop (pureHash H) trace k (H k seed) fuel () ht' tc' idx' (cnt + met.length) pass') := by
  induction met with
  | nil =>
    intro fuel ht tc idx cnt pass htc wf hoa hn hbs hs hpd hi ha hlim hmet
    exact ⟨ht, tc, idx, pass, htc, wf, hoa, hn, hbs, hs, hpd, hi, ha, rfl, rfl⟩
  | cons m met ih =>
    intro fuel ht tc idx cnt pass htc wf hoa hn hbs hs hpd hi ha hlim hmet
    obtain ⟨bt, hm⟩ := hmet 0 (by simp)
    rw [Nat.add_zero, ha, ← hbs] at hm
    have hstep := one_probe H trace k hk (fuel + met.length) ht tc idx cnt pass n a m bt first htc wf hoa hn hi ha hm
    rw [List.length_cons] at hlim ⊢
    obtain ⟨hgt, hsucc⟩ := next_idx hn hi
    generalize hh2 : (ht.countProbe cnt).countDup (H m ht.seed) (H k ht.seed) = ht2 at hstep
    have hs2 : ht2.seed = ht.seed ∧ ht2.size = ht.size ∧ ht2.buckets = ht.buckets ∧
        ht2.oa = true ∧ WF ht2 ∧ ht2.pd = ht.pd := by
      rw [← hh2]
      unfold HT.countDup HT.countProbe
      split <;> split <;> exact ⟨rfl, rfl, rfl, hoa, ⟨wf.len, wf.mask, wf.pos⟩, rfl⟩
    obtain ⟨q1, q2, q3, q4, q5, q6⟩ := hs2
    have htc2 : trace = true → (if trace then tc + 1 else tc) = first + (cnt + 1) := by
      intro h; have := htc h; rw [h, if_pos rfl, this]; omega
    have hmet2 : ∀ i (hi : i < met.length), ∃ bt, bs[(a + (cnt + 1 + i)) % n]? = some (met[i] :: bt) := by
      intro i hi'
      have := hmet (i + 1) (by simpa using hi')
      rw [show cnt + 1 + i = cnt + (i + 1) by omega]
      exact this
    rw [show fuel + (met.length + 1) = fuel + met.length + 1 by omega, show cnt + (met.length + 1) = cnt + 1 + met.length by omega]
    rw [hs] at hstep q1
    rw [hpd] at hstep q6
    rw [hstep, probesLines_cons]
    by_cases hw : idx.toNat + 1 = n
    · rw [if_pos hw]
      have hp0 : pass = 0 := by
        rcases Nat.eq_zero_or_pos pass with h | h
        · exact h
        · have : n * 1 ≤ n * pass := Nat.mul_le_mul_left _ h
          omega
      subst hp0
      rw [if_neg (by omega)]
      obtain ⟨ht', tc', idx', pass', r1, r2, r3, r4, r5, r6, r7, r8, r9, r10, r11⟩ :=
        ih fuel ht2 (if trace then tc + 1 else tc) 0 (cnt + 1) (0 + 1) htc2 q5 q4 (by rw [q2, hn]) (q3.trans hbs) q1 q6
          (by simp; omega) (by rw [← Nat.add_assoc, Nat.add_mod, ha]; simp only [BitVec.toNat_zero, BitVec.ofNat_eq_ofNat]
                               rw [← hw]
                               rcases Nat.eq_zero_or_pos idx.toNat with h | h
                               · rw [h]
                               · rw [Nat.mod_eq_of_lt (a := 1) (by omega), Nat.mod_self])
          (by simp; omega) hmet2
      refine ⟨ht', tc', idx', pass', r1, r2, r3, r4, r5, r6, r7, r8, r9, ?_, ?_⟩
      · simp only [Nat.zero_add, Nat.mul_one, BitVec.toNat_zero, BitVec.ofNat_eq_ofNat] at r10; omega
      · rw [r11, pre_pre]
    · rw [if_neg hw]
      obtain ⟨ht', tc', idx', pass', r1, r2, r3, r4, r5, r6, r7, r8, r9, r10, r11⟩ :=
        ih fuel ht2 (if trace then tc + 1 else tc) (idx + 1) (cnt + 1) pass htc2 q5 q4 (by rw [q2, hn]) (q3.trans hbs) q1 q6
          (by rw [hsucc]; omega) (by
            rw [← Nat.add_assoc, Nat.add_mod, ha, hsucc]
            rw [Nat.mod_eq_of_lt (a := 1) (by omega), Nat.mod_eq_of_lt (by omega)])
          (by rw [hsucc]; omega) hmet2
      refine ⟨ht', tc', idx', pass', r1, r2, r3, r4, r5, r6, r7, r8, r9, ?_, ?_⟩
      · rw [r10, hsucc]; omega
      · rw [r11, pre_pre]

/-- The slot at the end is free. -/
theorem last_free (H : List U8 → U64 → U64) (trace : Bool) (k : List U8) (hk : trace = true → 4 ≤ k.length) (h : U64)
    (fuel : Nat) (ht : HT (List U8)) (tc : Nat) (idx : U64) (cnt pass : Nat) (first : Nat)
    (htc : trace = true → tc = first + cnt) (hb : ht.buckets[idx.toNat]? = some []) :
    (Model.Trace.insertLoop (pureHash H) trace k h (fuel + 1) () ht tc idx cnt pass).1 =
      insertLines trace first k cnt 0 idx.toNat ∧
    ∃ ht' tc', (Model.Trace.insertLoop (pureHash H) trace k h (fuel + 1) () ht tc idx cnt pass).2 = .ok ((), ht', tc') := by
  have hlt : idx.toNat < ht.buckets.length := by
    rcases Nat.lt_or_ge idx.toNat ht.buckets.length with h | h
    · exact h
    · rw [List.getElem?_eq_none h] at hb; cases hb
  have hbi : Go.idx ht.buckets idx.toNat = .ok [] := by unfold Go.idx; rw [hb]
  have hst : Go.set ht.buckets idx.toNat [k] = .ok (ht.buckets.set idx.toNat [k]) := by unfold Go.set; rw [if_pos hlt]
  rw [Model.Trace.insertLoop, hbi, lift_ok]
  simp only [List.isEmpty_nil, if_true]
  rw [hst, lift_ok, traceRecord_ok hk, mk_ok]
  refine ⟨?_, _, _, rfl⟩
  unfold insertLines
  rw [pure_def]
  cases trace
  · rfl
  · rw [htc rfl]; rfl

/-- `Insert` starts its loop at the home slot. -/
theorem insertT_eq (hash : ω → List U8 → U64 → U64 × ω) (trace : Bool) (w : ω) (ht : HT (List U8)) (tcnt : Nat)
    (k : List U8) (wf : WF ht) : ∃ idx : U64, idx.toNat = ht.home (hash w k ht.seed).1 ∧
    Model.Trace.insert hash trace w ht tcnt k =
      Model.Trace.insertLoop hash trace k (hash w k ht.seed).1 (2 * ht.size.toNat + 1)
        (hash w k ht.seed).2 { ht with inserts := ht.inserts + 1 } tcnt idx 0 0 := by
  have h0 : ht.size ≠ 0 := by
    intro h; have := wf.pos; rw [h] at this; simp at this
  unfold Model.Trace.insert
  cases hp : ht.prime
  · refine ⟨(hash w k ht.seed).1 &&& ht.sizeMask, ?_, ?_⟩
    · simp only [HT.home, homeOf, hp, wf.mask, BitVec.toNat_and, size_sub_one wf.pos]
      rfl
    · simp only [Bool.false_eq_true, if_false, lift_ok]
  · refine ⟨(hash w k ht.seed).1 % ht.size, ?_, ?_⟩
    · simp [HT.home, homeOf, hp, BitVec.toNat_umod]
    · simp only [if_neg h0, if_true, lift_ok]

/-- With a short key under `Trace`, every insert dies before printing anything. -/
theorem insertT_short (hash : ω → List U8 → U64 → U64 × ω) (w : ω) (ht : HT (List U8)) (tcnt : Nat)
    (k : List U8) (wf : WF ht) (hk : k.length < 4) :
    Model.Trace.insert hash true w ht tcnt k = ⟨[], .error .index⟩ := by
  obtain ⟨idx, hidx, he⟩ := insertT_eq hash true w ht tcnt k wf
  have hlt : idx.toNat < ht.buckets.length := by rw [hidx]; exact wf.home_lt _
  rw [he, Model.Trace.insertLoop]
  dsimp only
  rw [Go.idx_eq hlt, lift_ok]
  have hst : ∀ b, Go.set ht.buckets idx.toNat b = .ok (ht.buckets.set idx.toNat b) := by
    intro b; unfold Go.set; rw [if_pos hlt]
  split
  · rw [hst, lift_ok, traceRecord_short hk, mk_error]
  · split
    · rw [traceRecord_short hk, mk_error]
    · rw [hst, lift_ok, traceRecord_short hk, mk_error]

/-- Chaining prints one record. -/
theorem insertT_chain (hash : ω → List U8 → U64 → U64 × ω) (trace : Bool) (w : ω) (ht : HT (List U8)) (tcnt : Nat)
    (k : List U8) (wf : WF ht) (hoa : ht.oa = false) (hk : trace = true → 4 ≤ k.length) :
    (Model.Trace.insert hash trace w ht tcnt k).1 =
      insertLines trace tcnt k 0 ((ht.buckets[ht.home (hash w k ht.seed).1]?).getD []).length (ht.home (hash w k ht.seed).1) := by
  obtain ⟨idx, hidx, he⟩ := insertT_eq hash trace w ht tcnt k wf
  have hlt : idx.toNat < ht.buckets.length := by rw [hidx]; exact wf.home_lt _
  rw [he, Model.Trace.insertLoop]
  dsimp only
  rw [Go.idx_eq hlt, lift_ok, ← hidx, List.getElem?_eq_getElem hlt, Option.getD_some]
  have hst : ∀ b, Go.set ht.buckets idx.toNat b = .ok (ht.buckets.set idx.toNat b) := by
    intro b; unfold Go.set; rw [if_pos hlt]
  split
  case isTrue hemp =>
    have hb0 := List.isEmpty_iff.1 hemp
    rw [hst, lift_ok, traceRecord_ok hk, mk_ok, pure_def, hb0]
    cases trace <;> rfl
  case isFalse hne =>
    rw [hoa]
    simp only [Bool.false_eq_true, if_false]
    rw [hst, lift_ok, traceRecord_ok hk, mk_ok, pure_def]
    simp only [List.length_append, List.length_singleton, Nat.add_sub_cancel]
    cases trace <;> rfl

/-- `traceOK` matters only for the key inserted. -/
theorem loop_env (hash : ω → List U8 → U64 → U64 × ω) (t1 t2 : List U8 → Bool) (k : List U8) (ht12 : t1 k = t2 k)
    (h : U64) (fuel : Nat) : ∀ (w : ω) (ht : HT (List U8)) (idx : U64) (cnt pass : Nat),
    HashTable.insertLoop { hash := hash, traceOK := t1 } k h fuel w ht idx cnt pass =
      HashTable.insertLoop { hash := hash, traceOK := t2 } k h fuel w ht idx cnt pass := by
  have hc : traceChk { hash := hash, traceOK := t1 } k = traceChk { hash := hash, traceOK := t2 } k := by
    simp only [traceChk, ht12]
  have hsd : ∀ seed h ks w n, scanDups { hash := hash, traceOK := t1 } seed h ks w n =
      scanDups { hash := hash, traceOK := t2 } seed h ks w n := by
    intro seed h ks
    induction ks with
    | nil => intro w n; rfl
    | cons k ks ih => intro w n; simp only [scanDups]; rw [ih]
  induction fuel with
  | zero => intros; rfl
  | succ fuel ih =>
    intro w ht idx cnt pass
    rw [HashTable.insertLoop, HashTable.insertLoop, hc]
    simp only [ih, hsd]

theorem insertAll_env (hash : ω → List U8 → U64 → U64 × ω) (t1 t2 : List U8 → Bool) (ks : List (List U8))
    (hks : ∀ k ∈ ks, t1 k = t2 k) : ∀ (w : ω) (ht : HT (List U8)),
    HashTable.insertAll { hash := hash, traceOK := t1 } w ht ks =
      HashTable.insertAll { hash := hash, traceOK := t2 } w ht ks := by
  induction ks with
  | nil => intros; rfl
  | cons k ks ih =>
    intro w ht
    have h1 : HashTable.insert { hash := hash, traceOK := t1 } w ht k =
        HashTable.insert { hash := hash, traceOK := t2 } w ht k := by
      unfold HashTable.insert
      simp only [loop_env hash t1 t2 k (hks k (by simp))]
    rw [HashTable.insertAll, HashTable.insertAll, h1]
    simp only [ih (fun k hk => hks k (by simp [hk]))]

/-- What a reachable table looks like under open addressing. -/
structure OA1 (ht0 ht : HT (List U8)) : Prop where
  same : Same ht0 ht
  pd : ht.pd = ht0.pd
  len1 : ht0.oa = true → ∀ b ∈ ht.buckets, b.length ≤ 1

theorem insert_oa1 {e : Env ω (List U8)} {w w' : ω} {ht0 ht ht' : HT (List U8)} {k : List U8}
    (h : OA1 ht0 ht) (hk : e.traceOK k = true) (hi : HashTable.insert e w ht k = .ok (w', ht')) : OA1 ht0 ht' := by
  have wf := h.same.wf
  cases hoa : ht.oa
  · have hc := insert_chain (e := e) (w := w) (k := k) wf hoa hk
    rw [hi] at hc
    have he : ht' = (chainNext e w ht k).2 := by rw [← Except.ok.inj hc]
    have hcc := chainNext_const (e := e) (w := w) (ht := ht) (k := k)
    rw [he]
    refine ⟨⟨chainNext_wf wf, hcc.1.trans h.same.oa, hcc.2.1.trans h.same.prime, hcc.2.2.1.trans h.same.size,
      hcc.2.2.2.trans h.same.seed⟩, ?_, ?_⟩
    · rw [← h.pd]; unfold chainNext; dsimp only; split <;> rfl
    · intro h0; rw [← h.same.oa, hoa] at h0; cases h0
  · obtain ⟨idx, hidx, he⟩ := insert_eq (e := e) (w := w) (k := k) wf
    have hlt := wf.home_lt (e.hash w k ht.seed).1
    rw [wf.len] at hlt
    have hwf' : WF { ht with inserts := ht.inserts + 1 } := ⟨wf.len, wf.mask, wf.pos⟩
    by_cases hfree : ∃ b ∈ ht.buckets, b = []
    · obtain ⟨d, hd, hemp, hmin⟩ := exists_free hlt wf.len hfree
      have hloop := loop_found e k (e.hash w k ht.seed).1 hk d (2 * ht.size.toNat + 1)
        (e.hash w k ht.seed).2
        { ht with inserts := ht.inserts + 1 } idx 0 0 ht.size.toNat hwf' hoa rfl
        (by rw [hidx]; exact hlt) (by omega) (by omega) (by rw [hidx]; omega)
        (by rw [hidx]; exact hmin) (by rw [hidx]; exact hemp)
      rw [← he, hi] at hloop
      have he' := congrArg Prod.snd (Except.ok.inj hloop)
      dsimp only at he'
      rw [he']
      refine ⟨⟨⟨by simpa using wf.len, wf.mask, wf.pos⟩, hoa ▸ h.same.oa, h.same.prime, h.same.size, h.same.seed⟩, h.pd, ?_⟩
      intro h0 b hb
      rcases List.mem_or_eq_of_mem_set hb with hb | hb
      · exact h.len1 h0 b hb
      · rw [hb]; simp
    · exfalso
      have hne : ∀ b ∈ ht.buckets, b ≠ [] := fun b hb e => hfree ⟨b, hb, e⟩
      have := loop_full e k (e.hash w k ht.seed).1 hk (2 * ht.size.toNat) (2 * ht.size.toNat + 1) (e.hash w k ht.seed).2
        { ht with inserts := ht.inserts + 1 } idx 0 0
        ht.size.toNat hwf' hoa rfl (by rw [hidx]; exact hlt) (by omega) (by omega) (by omega) hne
      rw [he, this] at hi
      cases hi

theorem insertT_ok {hash : ω → List U8 → U64 → U64 × ω} {trace : Bool} {w w' : ω} {ht0 ht ht' : HT (List U8)} {tc tc' : Nat}
    {k : List U8} (h : OA1 ht0 ht) (hi : (Model.Trace.insert hash trace w ht tc k).2 = .ok (w', ht', tc')) : OA1 ht0 ht' := by
  have hr := insert_refines hash trace w ht tc k
  rw [hi] at hr
  rcases trace_cases hash trace k with ⟨h1, _⟩ | ⟨⟨rfl, h1⟩, _⟩
  · exact insert_oa1 h (by unfold env; cases trace <;> simp; exact h1 rfl) hr.symm
  · rw [insertT_short hash w ht tc k h.same.wf h1] at hi; cases hi

theorem insertAllT_ok {hash : ω → List U8 → U64 → U64 × ω} {trace : Bool} {ht0 : HT (List U8)} (ks : List (List U8)) :
    ∀ {w w' : ω} {ht ht' : HT (List U8)} {tc tc' : Nat}, OA1 ht0 ht →
    (Model.Trace.insertAll hash trace w ht tc ks).2 = .ok (w', ht', tc') → OA1 ht0 ht' := by
  induction ks with
  | nil => intro w w' ht ht' tc tc' h hi; cases hi; exact h
  | cons k ks ih =>
    intro w w' ht ht' tc tc' h hi
    rw [Model.Trace.insertAll] at hi
    generalize hX : Model.Trace.insert hash trace w ht tc k = X at hi
    obtain ⟨o, r⟩ := X
    cases r with
    | error f => cases hi
    | ok p =>
      obtain ⟨w1, ht1, tc1⟩ := p
      rw [mk_ok] at hi
      exact ih (insertT_ok (w := w) (tc := tc) (k := k) h (by rw [hX])) hi

theorem oa1_new {np : Int → Int} {size seed extra : Int} {pd oa prime : Bool} {ht0 : HT (List U8)}
    (hnew : newHashTable np size seed extra pd oa prime = .ok ht0) (hpos : 0 < ht0.buckets.length) : OA1 ht0 ht0 := by
  refine ⟨⟨newHashTable_wf hnew hpos, rfl, rfl, rfl, rfl⟩, rfl, ?_⟩
  intro _ b hb
  rw [(newHashTable_ok hnew).1] at hb
  rw [List.eq_of_mem_replicate hb]; simp

end Verif.Lemmas.Trace
