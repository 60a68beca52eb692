import Verif.Lemmas.Trace2

/-! # C111: what `Insert` prints

`Model.Trace.insert hash trace w ht tcnt k` is `ht.Insert(k)` with the package variable
`Trace = trace` and the trace counter `ht.Tcnt = tcnt`: the lines printed, and how it ends. -/

namespace Verif.Props
open Verif Verif.HashTable
open Verif.Spec.Trace Verif.Spec.HashTable
open Verif.Spec.Trace (pureHash)

variable {ω : Type}

/-- A table made by `NewHashTable` (with at least one bucket) and a history of inserts with
tracing on or off, and the trace counter it has reached. -/
def TraceReachable (hash : ω → List U8 → U64 → U64 × ω) (trace : Bool) (pd oa prime : Bool)
    (w : ω) (ht : HT (List U8)) (tcnt : Nat) : Prop :=
  ∃ (np : Int → Int) (size seed extra : Int) (ht0 : HT (List U8)) (w0 : ω) (ks : List (List U8)),
    newHashTable np size seed extra pd oa prime = .ok ht0 ∧ 0 < ht0.buckets.length ∧
    (Model.Trace.insertAll hash trace w0 ht0 0 ks).result = .ok (w, ht, tcnt)

theorem reach_oa1 {hash : ω → List U8 → U64 → U64 × ω} {trace pd oa prime : Bool}
    {w : ω} {ht : HT (List U8)} {tcnt : Nat} (h : TraceReachable hash trace pd oa prime w ht tcnt) :
    WF ht ∧ ht.oa = oa ∧ ht.prime = prime ∧ ht.pd = pd ∧ (oa = true → ∀ b ∈ ht.buckets, b.length ≤ 1) := by
  obtain ⟨np, size, seed, extra, ht0, w0, ks, hnew, hpos, hall⟩ := h
  have h1 := Lemmas.Trace.insertAllT_ok (hash := hash) (trace := trace) ks (Lemmas.Trace.oa1_new hnew hpos) hall
  have h2 := newHashTable_ok hnew
  have hpd : ht0.pd = pd := by
    simp only [newHashTable] at hnew
    split at hnew
    · rw [← Except.ok.inj hnew]
    · cases hnew
  refine ⟨h1.same.wf, h1.same.oa.trans h2.2.2.1, h1.same.prime.trans h2.2.2.2.1, h1.pd.trans hpd, ?_⟩
  intro h; exact h1.len1 (h2.2.2.1.trans h)

/-- Tracing does not change what happens to the table: with it or without, for every hash function
(even a stateful one), table and history of keys of at least four bytes, the outcome is that of the
same history of `Insert`s as modelled without output. -/
theorem C111_table_unchanged (hash : ω → List U8 → U64 → U64 × ω) (trace : Bool) (w : ω) (ht : HT (List U8))
    (tcnt : Nat) (ks : List (List U8)) (hks : trace = true → ∀ k ∈ ks, 4 ≤ k.length) :
    (Model.Trace.insertAll hash trace w ht tcnt ks).result.map (fun p => (p.1, p.2.1)) =
      HashTable.insertAll { hash := hash, traceOK := fun _ => true } w ht ks := by
  refine (Lemmas.Trace.insertAll_refines hash trace ks w ht tcnt).trans ?_
  refine Lemmas.Trace.insertAll_env hash _ _ ks ?_ w ht
  intro k hk
  cases trace
  · rfl
  · simpa using hks rfl k hk

/-- Whatever was inserted before, inserting a key of fewer than four bytes while tracing panics
with an index out of range and prints nothing. -/
theorem C111_short_key (hash : ω → List U8 → U64 → U64 × ω) (trace pd oa prime : Bool) (w : ω)
    (ht : HT (List U8)) (tcnt : Nat) (hr : TraceReachable hash trace pd oa prime w ht tcnt)
    (k : List U8) (hk : k.length < 4) :
    Model.Trace.insert hash true w ht tcnt k = ⟨[], .error .index⟩ :=
  Lemmas.Trace.insertT_short hash w ht tcnt k (reach_oa1 hr).1 hk

/-- Chaining: an insert prints exactly one `"I"` record when tracing and nothing otherwise: bucket
`b` is the one its hash selects, `t` the number of keys already there, `l` is 0. In particular `pd`
("print duplicates") never prints anything. -/
theorem C111_chain (hash : ω → List U8 → U64 → U64 × ω) (trace trace' pd prime : Bool) (w : ω)
    (ht : HT (List U8)) (tcnt : Nat) (hr : TraceReachable hash trace' pd false prime w ht tcnt)
    (k : List U8) (hk : trace = true → 4 ≤ k.length) :
    ∃ c, ht.buckets[homeOf prime ht.buckets.length (hash w k ht.seed).1]? = some c ∧
      (Model.Trace.insert hash trace w ht tcnt k).lines =
        if trace then [.record tcnt 0 "I" c.length (homeOf prime ht.buckets.length (hash w k ht.seed).1) 0
          (shown k) (shown k)] else [] := by
  obtain ⟨wf, hoa, hp, _, _⟩ := reach_oa1 hr
  have h := Lemmas.Trace.insertT_chain hash trace w ht tcnt k wf hoa hk
  have hlt := wf.home_lt (hash w k ht.seed).1
  have hh : ht.home (hash w k ht.seed).1 = homeOf prime ht.buckets.length (hash w k ht.seed).1 := by
    rw [HT.home, hp, wf.len]
  rw [List.getElem?_eq_getElem hlt, Option.getD_some] at h
  refine ⟨_, by rw [← hh]; exact List.getElem?_eq_getElem hlt, ?_⟩
  rw [h, ← hh]
  rfl

/-- Open addressing with a free slot: the insert probes the slots from the one its hash selects,
circularly. It meets the keys `met` and then a free slot. Each probe prints (when tracing) a `"P"`
record with its number `l` and slot `b`, and then (with `pd`) two lines exactly if the key met has
the same hash; the end prints an `"I"` record with `l` the number of keys met and `b` the free slot. -/
theorem C111_open_addressing (H : List U8 → U64 → U64) (trace trace' pd prime : Bool)
    (ht : HT (List U8)) (tcnt : Nat) (hr : TraceReachable (pureHash H) trace' pd true prime () ht tcnt)
    (k : List U8) (hk : trace = true → 4 ≤ k.length) (hfree : ∃ b ∈ ht.buckets, b = []) :
    ∃ met : List (List U8),
      (∀ l (hl : l < met.length), ht.buckets[(homeOf prime ht.buckets.length (H k ht.seed) + l) % ht.buckets.length]? = some [met[l]]) ∧
      ht.buckets[(homeOf prime ht.buckets.length (H k ht.seed) + met.length) % ht.buckets.length]? = some [] ∧
      (Model.Trace.insert (pureHash H) trace () ht tcnt k).lines =
        (met.zipIdx.flatMap fun p => probeLines trace pd (H · ht.seed) tcnt k p.1 p.2
          ((homeOf prime ht.buckets.length (H k ht.seed) + p.2) % ht.buckets.length)) ++
        insertLines trace tcnt k met.length 0
          ((homeOf prime ht.buckets.length (H k ht.seed) + met.length) % ht.buckets.length) ∧
      ∃ ht' tcnt', (Model.Trace.insert (pureHash H) trace () ht tcnt k).result = .ok ((), ht', tcnt') := by
  obtain ⟨wf, hoa, hp, hpd, hl1⟩ := reach_oa1 hr
  have hl1 := hl1 rfl
  obtain ⟨idx, hidx, he⟩ := Lemmas.Trace.insertT_eq (pureHash H) trace () ht tcnt k wf
  have hhome : ht.home (pureHash H () k ht.seed).1 = homeOf prime ht.buckets.length (H k ht.seed) := by
    rw [HT.home, hp, wf.len]; rfl
  rw [hhome] at hidx
  have halt : homeOf prime ht.buckets.length (H k ht.seed) < ht.buckets.length :=
    homeOf_lt _ (by rw [wf.len]; exact wf.pos) _
  generalize homeOf prime ht.buckets.length (H k ht.seed) = a at *
  obtain ⟨d, hd, hemp, hmin⟩ := exists_free halt rfl hfree
  let met : List (List U8) := (List.range d).map fun i => ((ht.buckets[(a + i) % ht.buckets.length]?).getD []).headD []
  have hlen : met.length = d := by simp [met]
  have hmet : ∀ l (hl : l < met.length), ht.buckets[(a + l) % ht.buckets.length]? = some [met[l]] := by
    intro l hl
    have hml : (a + l) % ht.buckets.length < ht.buckets.length := Nat.mod_lt _ (by omega)
    have h1 := hmin l (by omega)
    have h2 := hl1 _ (List.getElem_mem hml)
    simp only [met, List.getElem_map, List.getElem_range]
    rw [List.getElem?_eq_getElem hml] at h1 ⊢
    simp only [Option.getD_some]
    generalize ht.buckets[(a + l) % ht.buckets.length] = b at h1 h2
    match b, h1, h2 with
    | [], h1, _ => exact absurd rfl h1
    | [x], _, _ => rfl
    | x :: y :: z, _, h2 => simp at h2
  refine ⟨met, hmet, by rw [hlen]; exact hemp, ?_⟩
  rw [he]
  have hn := wf.len
  obtain ⟨ht', tc', idx', pass', r1, r2, r3, r4, r5, r6, r7, r8, r9, r10, r11⟩ :=
    Lemmas.Trace.probes_run H trace k hk tcnt ht.buckets.length a ht.buckets ht.seed pd met (2 * ht.size.toNat + 1 - met.length)
      { ht with inserts := ht.inserts + 1 } tcnt idx 0 0 (fun _ => rfl) ⟨wf.len, wf.mask, wf.pos⟩ hoa hn.symm rfl rfl hpd
      (by omega) (by rw [hidx, Nat.add_zero]; exact Nat.mod_eq_of_lt halt) (by omega)
      (fun i hi => ⟨[], by rw [Nat.zero_add]; exact hmet i hi⟩)
  rw [Nat.zero_add] at r1 r9 r11
  rw [show 2 * ht.size.toNat + 1 - met.length + met.length = 2 * ht.size.toNat + 1 by omega] at r11
  have hlast := Lemmas.Trace.last_free H trace k hk (H k ht.seed) (2 * ht.size.toNat - met.length) ht' tc' idx' met.length pass' tcnt r1
    (by rw [← r9, r5, hlen]; exact hemp)
  rw [show 2 * ht.size.toNat - met.length + 1 = 2 * ht.size.toNat + 1 - met.length by omega] at hlast
  obtain ⟨hl, ht2, tc2, hl2⟩ := hlast
  change (Model.Trace.insertLoop (pureHash H) trace k (H k ht.seed) _ () _ tcnt idx 0 0).lines = _ ∧
    ∃ ht' tcnt', (Model.Trace.insertLoop (pureHash H) trace k (H k ht.seed) _ () _ tcnt idx 0 0).result = _
  rw [r11]
  refine ⟨?_, ht2, tc2, hl2⟩
  unfold Lemmas.Trace.pre Lemmas.Trace.probesLines
  dsimp only
  rw [hl, ← r9]

/-- Open addressing without a free slot: the insert probes from the slot its hash selects to the
end of the table and then the whole table once more, printing as above, and panics. -/
theorem C111_full (H : List U8 → U64 → U64) (trace trace' pd prime : Bool)
    (ht : HT (List U8)) (tcnt : Nat) (hr : TraceReachable (pureHash H) trace' pd true prime () ht tcnt)
    (k : List U8) (hk : trace = true → 4 ≤ k.length) (hfull : ∀ b ∈ ht.buckets, b ≠ []) :
    ∃ met : List (List U8),
      met.length = 2 * ht.buckets.length - homeOf prime ht.buckets.length (H k ht.seed) ∧
      (∀ l (hl : l < met.length), ht.buckets[(homeOf prime ht.buckets.length (H k ht.seed) + l) % ht.buckets.length]? = some [met[l]]) ∧
      Model.Trace.insert (pureHash H) trace () ht tcnt k =
        ⟨met.zipIdx.flatMap fun p => probeLines trace pd (H · ht.seed) tcnt k p.1 p.2
          ((homeOf prime ht.buckets.length (H k ht.seed) + p.2) % ht.buckets.length), .error (.explicit "Add: pass")⟩ := by
  obtain ⟨wf, hoa, hp, hpd, hl1⟩ := reach_oa1 hr
  have hl1 := hl1 rfl
  obtain ⟨idx, hidx, he⟩ := Lemmas.Trace.insertT_eq (pureHash H) trace () ht tcnt k wf
  have hhome : ht.home (pureHash H () k ht.seed).1 = homeOf prime ht.buckets.length (H k ht.seed) := by
    rw [HT.home, hp, wf.len]; rfl
  rw [hhome] at hidx
  have halt : homeOf prime ht.buckets.length (H k ht.seed) < ht.buckets.length :=
    homeOf_lt _ (by rw [wf.len]; exact wf.pos) _
  generalize homeOf prime ht.buckets.length (H k ht.seed) = a at *
  let occ : Nat → List U8 := fun i => ((ht.buckets[(a + i) % ht.buckets.length]?).getD []).headD []
  have hocc : ∀ l, ht.buckets[(a + l) % ht.buckets.length]? = some [occ l] := by
    intro l
    have hml : (a + l) % ht.buckets.length < ht.buckets.length := Nat.mod_lt _ (by omega)
    have h1 := hfull _ (List.getElem_mem hml)
    have h2 := hl1 _ (List.getElem_mem hml)
    simp only [occ]
    rw [List.getElem?_eq_getElem hml]
    simp only [Option.getD_some]
    generalize ht.buckets[(a + l) % ht.buckets.length] = b at h1 h2
    match b, h1, h2 with
    | [], h1, _ => exact absurd rfl h1
    | [x], _, _ => rfl
    | x :: y :: z, _, h2 => simp at h2
  have hn := wf.len
  -- all probes but the last
  let met0 : List (List U8) := (List.range (2 * ht.buckets.length - a - 1)).map occ
  have hlen0 : met0.length = 2 * ht.buckets.length - a - 1 := by simp [met0]
  refine ⟨met0 ++ [occ (2 * ht.buckets.length - a - 1)], by simp [hlen0]; omega, ?_, ?_⟩
  · intro l hl
    rw [hocc l]
    congr 2
    rcases Nat.lt_or_ge l met0.length with h | h
    · rw [List.getElem_append_left h]; simp [met0]
    · have : l = met0.length := by simp at hl; omega
      subst this
      rw [List.getElem_append_right (by omega)]
      simp [hlen0]
  · rw [he]
    obtain ⟨ht', tc', idx', pass', r1, r2, r3, r4, r5, r6, r7, r8, r9, r10, r11⟩ :=
      Lemmas.Trace.probes_run H trace k hk tcnt ht.buckets.length a ht.buckets ht.seed pd met0 (2 * ht.size.toNat + 1 - met0.length)
        { ht with inserts := ht.inserts + 1 } tcnt idx 0 0 (fun _ => rfl) ⟨wf.len, wf.mask, wf.pos⟩ hoa hn.symm rfl rfl hpd
        (by omega) (by rw [hidx, Nat.add_zero]; exact Nat.mod_eq_of_lt halt) (by omega)
        (fun i hi => ⟨[], by rw [Nat.zero_add, hocc]; simp [met0]⟩)
    rw [Nat.zero_add] at r1 r9 r11
    rw [show 2 * ht.size.toNat + 1 - met0.length + met0.length = 2 * ht.size.toNat + 1 by omega] at r11
    change Model.Trace.insertLoop (pureHash H) trace k (H k ht.seed) _ () _ tcnt idx 0 0 = _
    rw [r11]
    have hend : pass' = 1 ∧ idx'.toNat + 1 = ht.buckets.length := by
      have hsum : ht.buckets.length * pass' + idx'.toNat = 2 * ht.buckets.length - 1 := by omega
      rcases Nat.lt_or_ge pass' 1 with h | h
      · have : pass' = 0 := by omega
        subst this; omega
      · rcases Nat.lt_or_ge pass' 2 with h2 | h2
        · have : pass' = 1 := by omega
          subst this; omega
        · have := Nat.mul_le_mul_left ht.buckets.length h2
          omega
    have hst := Lemmas.Trace.one_probe H trace k hk (2 * ht.size.toNat - met0.length) ht' tc' idx' met0.length pass' ht.buckets.length a
      (occ met0.length) [] tcnt r1 r2 r3 r4 r8 r9 (by rw [← r9, r5]; exact hocc _)
    rw [r6, if_pos hend.2, if_pos (by omega), show 2 * ht.size.toNat - met0.length + 1 = 2 * ht.size.toNat + 1 - met0.length by omega] at hst
    rw [hst, Lemmas.Trace.pre_pre, r7]
    unfold Lemmas.Trace.pre Lemmas.Trace.probesLines Model.Trace.Out.lift Go.panic
    dsimp only
    rw [List.append_nil, List.zipIdx_append, List.flatMap_append, ← hlen0]
    simp

/-- Over every history of inserts of keys of at least four bytes into a new table while tracing,
for every hash function (even a stateful one), the records are numbered 0, 1, 2, …, also if the
history ends in a panic. If it does not: `Tcnt` is the number of records and is `Probes + Cols`;
there is one `"I"` record per insert; and replaying the `"I"` records (each puts `v` at position
`t` of bucket `b`) rebuilds the buckets of the table, each key shown as its first four bytes. -/
theorem C111_trace_rebuilds (hash : ω → List U8 → U64 → U64 × ω) (np : Int → Int) (size seed extra : Int)
    (pd oa prime : Bool) (ht0 : HT (List U8)) (w0 : ω) (ks : List (List U8)) (hk : ∀ k ∈ ks, 4 ≤ k.length)
    (hnew : newHashTable np size seed extra pd oa prime = .ok ht0) :
    numbers (Model.Trace.insertAll hash true w0 ht0 0 ks).lines =
      List.range (numbers (Model.Trace.insertAll hash true w0 ht0 0 ks).lines).length ∧
    ∀ w ht tcnt, (Model.Trace.insertAll hash true w0 ht0 0 ks).result = .ok (w, ht, tcnt) →
      tcnt = (numbers (Model.Trace.insertAll hash true w0 ht0 0 ks).lines).length ∧
      tcnt = ht.probes + ht.cols ∧
      count "I" (Model.Trace.insertAll hash true w0 ht0 0 ks).lines = ks.length ∧
      replay (List.replicate ht0.size.toNat []) (Model.Trace.insertAll hash true w0 ht0 0 ks).lines =
        some (ht.buckets.map (·.map shown)) := by
  have h := Lemmas.Trace.insertAll_facts hash ks hk w0 ht0 0
  have hn := newHashTable_ok hnew
  refine ⟨by rw [List.range_eq_range']; exact h.num, ?_⟩
  intro w ht tcnt he
  obtain ⟨a1, a2, a3, a4⟩ := h.ok w ht tcnt he
  rw [hn.2.2.2.2.2.1, hn.2.2.2.2.2.2.1] at a2
  refine ⟨by omega, by omega, a3, ?_⟩
  rw [hn.1] at a4
  simpa using a4

/-! Concrete cases: a table of four slots, hash = first byte. -/

def traceH : List U8 → U64 → U64 := fun k _ => BitVec.ofNat 64 (leNat (k.take 1))

/-- Open addressing: the second key with hash 3 is pushed to slot 0. -/
example : ∃ ht0 ht : HT (List U8), newHashTable id 4 0 0 true true false = .ok ht0 ∧
    Model.Trace.insertAll (pureHash traceH) true () ht0 0 [[3, 1, 0, 0], [3, 2, 0, 0]] =
      ⟨[.record 0 0 "I" 0 3 0 259 259, .record 1 0 "P" 0 3 0 515 515, .dup 3 3 [3, 2, 0, 0], .dup 3 3 [3, 1, 0, 0],
        .record 2 1 "I" 0 0 0 515 515], .ok ((), ht, 3)⟩ ∧ (∃ b ∈ ht.buckets, b = []) :=
  ⟨_, _, rfl, rfl, by decide⟩

/-- Chaining: the same keys; `pd` prints nothing. -/
example : ∃ ht0 ht : HT (List U8), newHashTable id 4 0 0 true false false = .ok ht0 ∧
    Model.Trace.insertAll (pureHash traceH) true () ht0 0 [[3, 1, 0, 0], [3, 2, 0, 0]] =
      ⟨[.record 0 0 "I" 0 3 0 259 259, .record 1 0 "I" 1 3 0 515 515], .ok ((), ht, 2)⟩ :=
  ⟨_, _, rfl, rfl⟩

/-- A full table: two slots, home 1: probes 1, 0, 1 and a panic. -/
example : ∃ ht0 ht : HT (List U8), newHashTable id 2 0 0 false true false = .ok ht0 ∧
    Model.Trace.insertAll (pureHash traceH) true () ht0 0 [[3, 1, 0, 0], [2, 2, 0, 0]] =
      ⟨[.record 0 0 "I" 0 1 0 259 259, .record 1 0 "I" 0 0 0 514 514], .ok ((), ht, 2)⟩ ∧
    Model.Trace.insert (pureHash traceH) true () ht 2 [1, 0, 0, 0] =
      ⟨[.record 2 0 "P" 0 1 0 1 1, .record 3 1 "P" 0 0 0 1 1, .record 4 2 "P" 0 1 0 1 1], .error (.explicit "Add: pass")⟩ :=
  ⟨_, _, rfl, rfl, rfl⟩

end Verif.Props
