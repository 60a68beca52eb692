import Verif.Model.HashTableP
import Verif.Lemmas.HashTableF
import Verif.Lemmas.HtMain

/-! # The state a panicking `Insert` leaves behind -/

namespace Verif.HashTable
open Verif

section
variable {ω κ : Type}

theorem toF_hash (e : EnvP ω κ) (w : ω) (k : κ) (s : U64) :
    (∃ h w', e.hash w k s = (.ok h, w') ∧ e.toF.hash w k s = .ok (h, w')) ∨ (∃ f w', e.hash w k s = (.error f, w') ∧ e.toF.hash w k s = .error f) := by
  rcases he : e.hash w k s with ⟨h | h, w'⟩
  · right; refine ⟨h, w', rfl, ?_⟩; unfold EnvP.toF; dsimp only; rw [he]
  · left; refine ⟨h, w', rfl, ?_⟩; unfold EnvP.toF; dsimp only; rw [he]

theorem scanDupsP_eq (e : EnvP ω κ) (seed h : U64) (ks : List κ) : ∀ (w : ω) (n : Nat),
    (∃ d w', scanDupsP e seed h ks w n = (d, w', none) ∧ scanDupsF e.toF seed h ks w n = .ok (d, w')) ∨
    (∃ d w' f, scanDupsP e seed h ks w n = (d, w', some f) ∧ scanDupsF e.toF seed h ks w n = .error f) := by
  induction ks with
  | nil => intro w n; exact Or.inl ⟨n, w, rfl, rfl⟩
  | cons k ks ih =>
    intro w n
    rw [scanDupsP, scanDupsF]
    rcases toF_hash e w k seed with ⟨bh, w', h1, h2⟩ | ⟨f, w', h1, h2⟩
    · rw [h1, h2, Go.bind_ok]; exact ih _ _
    · rw [h1, h2]; exact Or.inr ⟨_, _, f, rfl, rfl⟩

theorem traceF_cases (e : EnvP ω κ) (k : κ) : traceChkF e.toF k = if e.traceOK k = true then .ok () else .error .index := rfl

theorem insertLoopP_out (e : EnvP ω κ) (k : κ) (h : U64) (fuel : Nat) : ∀ (w : ω) (ht : HT κ) (idx : U64) (cnt pass : Nat),
    (insertLoopP e k h fuel w ht idx cnt pass).out = insertLoopF e.toF k h fuel w ht idx cnt pass := by
  induction fuel with
  | zero => intros; rfl
  | succ fuel ih =>
    intro w ht idx cnt pass
    rw [insertLoopP, insertLoopF]
    simp only [traceF_cases]
    by_cases hi : idx.toNat < ht.buckets.length
    · rw [Go.idx_eq hi, Go.bind_ok, List.getElem?_eq_getElem hi]
      dsimp only
      generalize ht.buckets[idx.toNat] = b
      have hset : ∀ x, Go.set ht.buckets idx.toNat x = .ok (ht.buckets.set idx.toNat x) := by intro x; simp [Go.set, hi]
      by_cases hb : b.isEmpty
      · rw [if_pos hb, if_pos hb, hset, Go.bind_ok]
        by_cases ht' : e.traceOK k = true
        · rw [if_pos ht', if_pos ht']; rfl
        · rw [if_neg ht', if_neg ht']; rfl
      · rw [if_neg hb, if_neg hb]
        by_cases ho : ht.oa = true
        · rw [if_pos ho, if_pos ho]
          by_cases ht' : e.traceOK k = true
          · rw [if_pos ht', if_pos ht', Go.bind_ok]
            have h0 : 0 < b.length := by cases b; exact absurd rfl hb; simp
            rw [Go.idx_eq h0, Go.bind_ok, List.getElem?_eq_getElem h0]
            dsimp only
            rcases toF_hash e w b[0] (ht.countProbe cnt).seed with ⟨bh, w', h1, h2⟩ | ⟨f, w', h1, h2⟩
            · rw [h1, h2, Go.bind_ok]
              dsimp only
              split
              · split
                · rfl
                · exact ih _ _ _ _ _
              · exact ih _ _ _ _ _
            · rw [h1, h2]; rfl
          · rw [if_neg ht', if_neg ht']; rfl
        · rw [if_neg ho, if_neg ho]
          rcases scanDupsP_eq e ht.seed h b w ht.dups with ⟨d, w', h1, h2⟩ | ⟨d, w', f, h1, h2⟩
          · rw [h1, h2, Go.bind_ok]
            dsimp only
            rw [hset, Go.bind_ok]
            by_cases ht' : e.traceOK k = true
            · rw [if_pos ht', if_pos ht']; rfl
            · rw [if_neg ht', if_neg ht']; rfl
          · rw [h1, h2]; rfl
    · have h1 : Go.idx ht.buckets idx.toNat = .error .index := by unfold Go.idx; rw [List.getElem?_eq_none (by omega)]
      rw [h1, List.getElem?_eq_none (by omega)]; rfl

/-- Without the state at a panic this is `Insert` as modelled before. -/
theorem insertP_out (e : EnvP ω κ) (w : ω) (ht : HT κ) (k : κ) : (insertP e w ht k).out = insertF e.toF w ht k := by
  unfold insertP insertF
  dsimp only
  rcases toF_hash e w k ht.seed with ⟨h, w', h1, h2⟩ | ⟨f, w', h1, h2⟩
  · rw [h1, h2, Go.bind_ok]
    dsimp only
    by_cases hp : ht.prime = true
    · rw [if_pos hp, if_pos hp]
      by_cases h0 : ht.size = 0
      · rw [if_pos h0, if_pos h0]; rfl
      · rw [if_neg h0, if_neg h0]; exact insertLoopP_out _ _ _ _ _ _ _ _ _
    · rw [if_neg hp, if_neg hp]; exact insertLoopP_out _ _ _ _ _ _ _ _ _
  · rw [h1, h2]; rfl

theorem Ended.of_ok {r : Ended ω κ} {w : ω} {ht : HT κ} (h : r.out = .ok (w, ht)) : r = ⟨w, ht, none⟩ := by
  obtain ⟨w', ht', p⟩ := r
  cases p with
  | none => cases Except.ok.inj h; rfl
  | some f => exact nomatch h

/-- Nothing but the counters of the walk has changed. -/
structure Frame (ht ht' : HT κ) : Prop where
  buckets : ht'.buckets = ht.buckets
  heads : ht'.heads = ht.heads
  nbuckets : ht'.nbuckets = ht.nbuckets
  longestChain : ht'.longestChain = ht.longestChain
  inserts : ht'.inserts = ht.inserts
  lines : ht'.lines = ht.lines
  size : ht'.size = ht.size
  sizeLog2 : ht'.sizeLog2 = ht.sizeLog2
  sizeMask : ht'.sizeMask = ht.sizeMask
  seed : ht'.seed = ht.seed
  extra : ht'.extra = ht.extra
  pd : ht'.pd = ht.pd
  oa : ht'.oa = ht.oa
  prime : ht'.prime = ht.prime

theorem Frame.refl (ht : HT κ) : Frame ht ht := ⟨rfl, rfl, rfl, rfl, rfl, rfl, rfl, rfl, rfl, rfl, rfl, rfl, rfl, rfl⟩

theorem Frame.trans {a b c : HT κ} (h : Frame a b) (g : Frame b c) : Frame a c :=
  ⟨g.buckets.trans h.buckets, g.heads.trans h.heads, g.nbuckets.trans h.nbuckets, g.longestChain.trans h.longestChain, g.inserts.trans h.inserts, g.lines.trans h.lines,
    g.size.trans h.size, g.sizeLog2.trans h.sizeLog2, g.sizeMask.trans h.sizeMask, g.seed.trans h.seed, g.extra.trans h.extra, g.pd.trans h.pd, g.oa.trans h.oa, g.prime.trans h.prime⟩

theorem frame_probe (ht : HT κ) (cnt : Nat) : Frame ht (ht.countProbe cnt) := by
  unfold HT.countProbe; split <;> exact ⟨rfl, rfl, rfl, rfl, rfl, rfl, rfl, rfl, rfl, rfl, rfl, rfl, rfl, rfl⟩

theorem frame_dup (ht : HT κ) (bh h : U64) : Frame ht (ht.countDup bh h) := by
  unfold HT.countDup; split <;> exact ⟨rfl, rfl, rfl, rfl, rfl, rfl, rfl, rfl, rfl, rfl, rfl, rfl, rfl, rfl⟩

/-- A panic that is not one of tracing: only the counters of the walk have changed. -/
theorem insertLoopP_frame (e : EnvP ω κ) (k : κ) (h : U64) (hk : e.traceOK k = true) (fuel : Nat) : ∀ (w : ω) (ht : HT κ) (idx : U64) (cnt pass : Nat) (f : Fault),
    (insertLoopP e k h fuel w ht idx cnt pass).panic = some f → Frame ht (insertLoopP e k h fuel w ht idx cnt pass).ht := by
  induction fuel with
  | zero => intro w ht idx cnt pass f _; exact Frame.refl ht
  | succ fuel ih =>
    intro w ht idx cnt pass f
    rw [insertLoopP]
    rw [if_pos hk]
    cases ht.buckets[idx.toNat]? with
    | none => intro _; exact Frame.refl ht
    | some b =>
      dsimp only
      split
      · intro hp; exact nomatch hp
      · split
        · cases b[0]? with
          | none => intro _; exact frame_probe ht cnt
          | some k0 =>
            dsimp only
            rcases he : e.hash w k0 (ht.countProbe cnt).seed with ⟨f' | bh, w'⟩
            · intro _; exact frame_probe ht cnt
            · dsimp only
              have hfr := (frame_probe ht cnt).trans (frame_dup (ht.countProbe cnt) bh h)
              split
              · split
                · intro _; exact hfr
                · intro hp; exact hfr.trans (ih _ _ _ _ _ f hp)
              · intro hp; exact hfr.trans (ih _ _ _ _ _ f hp)
        · rcases scanDupsP e ht.seed h b w ht.dups with ⟨d, w', _ | f'⟩
          · intro hp; exact nomatch hp
          · intro _; exact ⟨rfl, rfl, rfl, rfl, rfl, rfl, rfl, rfl, rfl, rfl, rfl, rfl, rfl, rfl⟩

/-- The walk over a full table: from the home slot to the end, over the whole table once more, and a panic. -/
theorem loop_fullP (e : EnvP ω κ) (H : κ → U64 → Go U64) (he : ∀ w k s, (e.hash w k s).1 = H k s) (V : κ → U64) (k : κ) (h : U64) (hk : e.traceOK k = true) (m : Nat) :
    ∀ (fuel : Nat) (w : ω) (ht : HT κ) (idx : U64) (cnt pass n : Nat), WF ht → ht.oa = true → ht.size.toNat = n → idx.toNat < n → m ≤ fuel → pass ≤ 1 →
      n * (2 - pass) - idx.toNat = m → (∀ b ∈ ht.buckets, b.length = 1) → (∀ b ∈ ht.buckets, ∀ x ∈ b, H x ht.seed = .ok (V x)) →
      ∃ w', insertLoopP e k h fuel w ht idx cnt pass = ⟨w', { ht with
        probes := ht.probes + (if cnt = 0 then 1 else 0), cols := ht.cols + (if cnt = 0 then m - 1 else m),
        dups := ht.dups + ((ht.buckets.drop idx.toNat).flatten.countP (fun x => V x = h) + if pass = 0 then ht.buckets.flatten.countP (fun x => V x = h) else 0) },
        some (.explicit "Add: pass")⟩ := by
  induction m with
  | zero =>
    intro fuel w ht idx cnt pass n wf hoa hn hi hf hp hb hne
    rcases Nat.lt_or_ge pass 1 with h | h
    · have : pass = 0 := by omega
      subst this; omega
    · have : pass = 1 := by omega
      subst this; omega
  | succ r ih =>
    intro fuel w ht idx cnt pass n wf hoa hn hi hf hp hm h1 hV
    obtain ⟨fuel, rfl⟩ : ∃ f, fuel = f + 1 := ⟨fuel - 1, by omega⟩
    have hlt : idx.toNat < ht.buckets.length := by rw [wf.len, hn]; exact hi
    obtain ⟨k0, hb0⟩ : ∃ k0, ht.buckets[idx.toNat] = [k0] := List.length_eq_one_iff.1 (h1 _ (List.getElem_mem hlt))
    have hk0 : H k0 ht.seed = .ok (V k0) := hV _ (List.getElem_mem hlt) k0 (by rw [hb0]; simp)
    have hdrop : (ht.buckets.drop idx.toNat).flatten.countP (fun x => V x = h) = (if V k0 = h then 1 else 0) + (ht.buckets.drop (idx.toNat + 1)).flatten.countP (fun x => V x = h) := by
      rw [List.drop_eq_getElem_cons hlt, hb0, List.flatten_cons, List.singleton_append, List.countP_cons]
      by_cases hv : V k0 = h <;> simp [hv]; omega
    have hf1 := frame_probe ht cnt
    obtain ⟨w1, hw1⟩ : ∃ w1, e.hash w k0 (ht.countProbe cnt).seed = (.ok (V k0), w1) := by
      rw [hf1.seed]
      refine ⟨(e.hash w k0 ht.seed).2, Prod.ext ?_ rfl⟩
      rw [he, hk0]
    rw [insertLoopP, List.getElem?_eq_getElem hlt, hb0]
    dsimp only
    rw [if_neg (by simp), if_pos hoa, if_pos hk]
    rw [show ([k0] : List κ)[0]? = some k0 from rfl]
    dsimp only
    rw [hw1]
    dsimp only
    obtain ⟨hgt, hsucc⟩ := next_idx hn hi
    have hfr := hf1.trans (frame_dup (ht.countProbe cnt) (V k0) h)
    have hpr : ((ht.countProbe cnt).countDup (V k0) h).probes = ht.probes + (if cnt = 0 then 1 else 0) := by
      unfold HT.countDup HT.countProbe
      by_cases hc : cnt = 0 <;> by_cases hv : V k0 = h <;> simp [hc, hv]
    have hco : ((ht.countProbe cnt).countDup (V k0) h).cols = ht.cols + (if cnt = 0 then 0 else 1) := by
      unfold HT.countDup HT.countProbe
      by_cases hc : cnt = 0 <;> by_cases hv : V k0 = h <;> simp [hc, hv]
    have hdu : ((ht.countProbe cnt).countDup (V k0) h).dups = ht.dups + (if V k0 = h then 1 else 0) := by
      unfold HT.countDup HT.countProbe
      by_cases hc : cnt = 0 <;> by_cases hv : V k0 = h <;> simp [hc, hv]
    generalize (ht.countProbe cnt).countDup (V k0) h = ht2 at *
    have key : ∀ (p c d : Nat), p = ht.probes + (if cnt = 0 then 1 else 0) → { ht2 with probes := p, cols := c, dups := d } = { ht with probes := ht.probes + (if cnt = 0 then 1 else 0), cols := c, dups := d } := by
      intro p c d hp
      obtain ⟨a1, a2, a3, a4, a5, a6, a7, a8, a9, a10, a11, a12, a13, a14⟩ := hfr
      cases ht2; cases ht
      simp only at a1 a2 a3 a4 a5 a6 a7 a8 a9 a10 a11 a12 a13 a14 hp
      subst a1 a2 a3 a4 a5 a6 a7 a8 a9 a10 a11 a12 a13 a14 hp
      rfl
    have wf2 : WF ht2 := ⟨by rw [hfr.buckets, hfr.size, wf.len], by rw [hfr.sizeMask, hfr.size, wf.mask], by rw [hfr.size]; exact wf.pos⟩
    rw [hfr.size]
    by_cases hw : idx.toNat + 1 = n
    · rw [if_pos (hgt.2 hw)]
      have hd0 : (ht.buckets.drop (idx.toNat + 1)).flatten.countP (fun x => V x = h) = 0 := by
        rw [List.drop_eq_nil_of_le (by rw [wf.len]; omega)]; rfl
      by_cases hpass : pass = 0
      · subst hpass
        rw [if_neg (by omega)]
        obtain ⟨w', hw'⟩ := ih fuel w1 ht2 0 (cnt + 1) (0 + 1) n wf2 (by rw [hfr.oa, hoa]) (by rw [hfr.size, hn]) (by show 0 < n; omega) (by omega) (by omega)
          (by show n * 1 - 0 = r; omega) (by rw [hfr.buckets]; exact h1) (by rw [hfr.buckets, hfr.seed]; exact hV)
        refine ⟨w', ?_⟩
        rw [hw', key _ _ _ (by rw [hpr]; simp)]
        rw [hco, hdu, hdrop, hd0, hfr.buckets]
        simp only [Nat.succ_ne_zero, if_false, if_true]
        have e1 : ht.cols + (if cnt = 0 then 0 else 1) + r = ht.cols + (if cnt = 0 then r + 1 - 1 else r + 1) := by split <;> omega
        have e2 : ∀ x y : Nat, ht.dups + y + (x + 0) = ht.dups + (y + 0 + x) := by intros; omega
        rw [e1]
        congr 2
        rw [show BitVec.toNat (0 : U64) = 0 from rfl, List.drop_zero]
        exact e2 _ _
      · have : pass = 1 := by omega
        subst this
        rw [if_pos (by omega)]
        refine ⟨w1, ?_⟩
        have hr : r = 0 := by omega
        subst hr
        congr 1
        rw [hdrop, hd0]
        have := key ht2.probes ht2.cols ht2.dups hpr
        refine (show ht2 = { ht2 with probes := ht2.probes, cols := ht2.cols, dups := ht2.dups } from rfl).trans (this.trans ?_)
        rw [hco, hdu]
        simp
    · rw [if_neg (fun h => hw (hgt.1 h))]
      obtain ⟨w', hw'⟩ := ih fuel w1 ht2 (idx + 1) (cnt + 1) pass n wf2 (by rw [hfr.oa, hoa]) (by rw [hfr.size, hn]) (by rw [hsucc]; omega) (by omega) (by omega)
        (by rw [hsucc]; omega) (by rw [hfr.buckets]; exact h1) (by rw [hfr.buckets, hfr.seed]; exact hV)
      refine ⟨w', ?_⟩
      rw [hw', key _ _ _ (by rw [hpr]; simp)]
      rw [hco, hdu, hdrop, hfr.buckets, hsucc]
      simp only [Nat.succ_ne_zero, if_false]
      have e1 : ht.cols + (if cnt = 0 then 0 else 1) + r = ht.cols + (if cnt = 0 then r + 1 - 1 else r + 1) := by split <;> omega
      have e2 : ∀ x y z : Nat, ht.dups + y + (x + z) = ht.dups + (y + x + z) := by intros; omega
      rw [e1]
      congr 2
      exact e2 _ _ _

end

end Verif.HashTable
