import Verif.Lemmas.HashTableF
import Verif.Spec.HtMain
import Verif.Lemmas.Ht
import Verif.Lemmas.HashTable5
import Verif.Props.HashTable
import Verif.Props.Ht
import Mathlib.Data.List.Forall2

/-! Lemmas for C99, C100. -/

namespace Verif.Lemmas.HtMain
open Verif Verif.Spec.HtMain Verif.Spec.HashTable Verif.Model.HtMain
open Verif.HashTable

/-! ## A hash function whose results do not depend on its state -/

section sim
variable {ω : Type} {e : Env ω (List U8)} {H : List U8 → U64 → U64}

theorem scanDups_fst (he : ∀ w k s, (e.hash w k s).1 = H k s) (seed h : U64) (ks : List (List U8)) :
    ∀ w n, (scanDups e seed h ks w n).1 = (scanDups (pureEnv H e.traceOK) seed h ks () n).1 := by
  induction ks with
  | nil => intro w n; rfl
  | cons k ks ih =>
    intro w n
    simp only [scanDups]
    rw [ih, he]
    rfl

theorem insertLoop_sim (he : ∀ w k s, (e.hash w k s).1 = H k s) (k : List U8) (h : U64) (fuel : Nat) :
    ∀ w ht idx cnt pass, (insertLoop e k h fuel w ht idx cnt pass).map Prod.snd =
      (insertLoop (pureEnv H e.traceOK) k h fuel () ht idx cnt pass).map Prod.snd := by
  induction fuel with
  | zero => intros; rfl
  | succ fuel ih =>
    intro w ht idx cnt pass
    rw [insertLoop, insertLoop]
    cases hb : Go.idx ht.buckets idx.toNat with
    | error f => rfl
    | ok b =>
      rw [Go.bind_ok, Go.bind_ok]
      by_cases hbe : b.isEmpty
      · rw [if_pos hbe, if_pos hbe]
        cases Go.set ht.buckets idx.toNat [k] with
        | error f => rfl
        | ok bs =>
          rw [Go.bind_ok, Go.bind_ok]
          show (traceChk e k >>= _).map _ = (traceChk e k >>= _).map _
          cases traceChk e k <;> rfl
      · rw [if_neg hbe, if_neg hbe]
        by_cases ho : ht.oa
        · rw [if_pos ho, if_pos ho]
          show (traceChk e k >>= _).map _ = (traceChk e k >>= _).map _
          cases traceChk e k with
          | error f => rfl
          | ok u =>
            rw [Go.bind_ok, Go.bind_ok]
            cases Go.idx b 0 with
            | error f => rfl
            | ok k0 =>
              rw [Go.bind_ok, Go.bind_ok]
              dsimp only
              rw [show ((pureEnv H e.traceOK).hash () k0 (ht.countProbe cnt).seed).1 = (e.hash w k0 (ht.countProbe cnt).seed).1 from (he _ _ _).symm]
              split
              · split
                · rfl
                · exact ih _ _ _ _ _
              · exact ih _ _ _ _ _
        · rw [if_neg ho, if_neg ho]
          dsimp only
          rw [scanDups_fst he]
          cases Go.set ht.buckets idx.toNat (b ++ [k]) with
          | error f => rfl
          | ok bs =>
            rw [Go.bind_ok, Go.bind_ok]
            show (traceChk e k >>= _).map _ = (traceChk e k >>= _).map _
            cases traceChk e k <;> rfl

theorem insert_sim (he : ∀ w k s, (e.hash w k s).1 = H k s) (w : ω) (ht : HT (List U8)) (k : List U8) :
    (insert e w ht k).map Prod.snd = (insert (pureEnv H e.traceOK) () ht k).map Prod.snd := by
  unfold HashTable.insert
  dsimp only
  rw [show ((pureEnv H e.traceOK).hash () k ht.seed).1 = (e.hash w k ht.seed).1 from (he _ _ _).symm]
  split
  · by_cases h0 : ht.size = 0
    · rw [if_pos h0]; rfl
    · rw [if_neg h0]
      exact insertLoop_sim he _ _ _ _ _ _ _ _
  · exact insertLoop_sim he _ _ _ _ _ _ _ _

end sim

/-! ## Sequences of inserts -/

section keys
variable {ω : Type} (sys : Sys ω) (fl : Flags) (name : String)

/-- The tracing output does not panic on these keys. -/
def Traces (ks : List (List U8)) : Prop := ∀ k ∈ ks, (env sys fl name).traceOK k = true

variable {sys fl name}

/-- No hash of a key in the table panics. -/
def Fine (sys : Sys ω) (name : String) (ht : HT (List U8)) : Prop := ∀ b ∈ ht.buckets, ∀ x ∈ b, ∀ w, ∃ r, sys.hash w name x ht.seed = .ok r

theorem insert1_eq {w : ω} {ht : HT (List U8)} {k : List U8} (hf : Fine sys name ht) (h : ∃ r, sys.hash w name k ht.seed = .ok r) :
    insert1 sys fl name w ht k = HashTable.insert (env sys fl name).total w ht k := insertF_eq (e := env sys fl name) h hf

theorem Fine.step {w w' : ω} {ht ht' : HT (List U8)} {k : List U8} (hf : Fine sys name ht) (hs : ht'.seed = ht.seed) (hk : ∀ w, ∃ r, sys.hash w name k ht.seed = .ok r)
    (h : HashTable.insert (env sys fl name).total w ht k = .ok (w', ht')) : Fine sys name ht' := by
  intro b hb x hx
  rw [hs]
  rcases insert_mem h b hb x hx with rfl | ⟨b', hb', hx'⟩
  · exact hk
  · exact hf b' hb' x hx'

/-- What is known about an open-addressing table without knowing the hash function. -/
structure OpenStats (done : List (List U8)) (ht : HT (List U8)) : Prop where
  wf : WF ht
  oa : ht.oa = true
  opened : Opened done ht

/-- What is known about a table without knowing the hash function. -/
def Stats (fl : Flags) (done : List (List U8)) (ht : HT (List U8)) : Prop := (fl.oa = false → ChainStats done ht) ∧ (fl.oa = true → OpenStats done ht)

theorem Stats.wf {done : List (List U8)} {ht : HT (List U8)} (h : Stats fl done ht) : WF ht := by
  cases ho : fl.oa
  · exact (h.1 ho).wf
  · exact (h.2 ho).wf

theorem open_step {e : Env ω (List U8)} {w : ω} {ht : HT (List U8)} {k : List U8} {done : List (List U8)} (h : OpenStats done ht) (hroom : done.length < ht.size.toNat)
    (hk : e.traceOK k = true) : ∃ w' ht', HashTable.insert e w ht k = .ok (w', ht') ∧ OpenStats (done ++ [k]) ht' ∧ ht'.size = ht.size ∧ ht'.seed = ht.seed := by
  have wf := h.wf
  have hfree : ∃ b ∈ ht.buckets, b = [] := by
    apply Classical.byContradiction
    intro hno
    have := flatten_length_full (bs := ht.buckets) (fun b hb e => hno ⟨b, hb, e⟩)
    rw [h.opened.contents.length_eq, wf.len] at this
    omega
  obtain ⟨idx, hidx, he⟩ := insert_eq (e := e) (w := w) (k := k) wf
  have hlt := wf.home_lt (e.hash w k ht.seed).1
  rw [wf.len] at hlt
  have hwf' : WF { ht with inserts := ht.inserts + 1 } := ⟨wf.len, wf.mask, wf.pos⟩
  obtain ⟨d, hd, hemp, hmin⟩ := exists_free hlt wf.len hfree
  have hloop := loop_found e k (e.hash w k ht.seed).1 hk d (2 * ht.size.toNat + 1)
    (e.hash w k ht.seed).2
    { ht with inserts := ht.inserts + 1 } idx 0 0 ht.size.toNat hwf' h.oa rfl
    (by rw [hidx]; exact hlt) (by omega) (by omega) (by rw [hidx]; omega)
    (by rw [hidx]; exact hmin) (by rw [hidx]; exact hemp)
  rw [hidx] at hloop
  refine ⟨_, _, he.trans hloop, ⟨⟨by simpa using wf.len, wf.mask, wf.pos⟩, h.oa, ?_⟩, rfl, rfl⟩
  refine ⟨?_, ?_, h.opened.nbuckets, h.opened.longestChain, ?_, ?_⟩
  · simp [h.opened.inserts]
  · simp [h.opened.heads]
  · intro b hb
    rcases List.mem_or_eq_of_mem_set hb with h1 | h1
    · exact h.opened.single b h1
    · rw [h1]; simp
  · exact (flatten_set hemp).trans (h.opened.contents.append_right [k])

theorem stats_step {w : ω} {ht : HT (List U8)} {k : List U8} {done : List (List U8)} (h : Stats fl done ht) (hroom : fl.oa = true → done.length < ht.size.toNat)
    (hk : (env sys fl name).traceOK k = true) :
    ∃ w' ht', HashTable.insert (env sys fl name).total w ht k = .ok (w', ht') ∧ Stats fl (done ++ [k]) ht' ∧ ht'.size = ht.size ∧ ht'.seed = ht.seed := by
  cases ho : fl.oa
  · have hc := h.1 ho
    exact ⟨_, _, insert_chain hc.wf hc.oa hk, ⟨fun _ => chainStats_step hc, fun h => (by rw [ho] at h; exact nomatch h)⟩, chainNext_const.2.2.1, chainNext_const.2.2.2⟩
  · obtain ⟨w', ht', h1, h2, h3, h4⟩ := open_step (e := (env sys fl name).total) (w := w) (h.2 ho) (hroom ho) hk
    exact ⟨w', ht', h1, ⟨fun h => (by rw [ho] at h; exact nomatch h), fun _ => h2⟩, h3, h4⟩

/-- The keys go in, and the counters are right. -/
theorem insertKeys_stats (seed : U64) (ks : List (List U8)) (hh : Hashes sys name seed ks) (htr : Traces sys fl name ks) :
    ∀ (done : List (List U8)) (w : ω) (ht : HT (List U8)), ht.seed = seed → Fine sys name ht → Stats fl done ht → (fl.oa = true → (done ++ ks).length ≤ ht.size.toNat) →
      ∃ w' ht', insertKeys sys fl name w ht ks = .ok (w', ht') ∧ Stats fl (done ++ ks) ht' ∧ ht'.size = ht.size ∧ ht'.seed = ht.seed ∧ Fine sys name ht' := by
  induction ks with
  | nil => intro done w ht hs hf hc _; exact ⟨w, ht, rfl, by simpa using hc, rfl, rfl, hf⟩
  | cons k ks ih =>
    intro done w ht hs hf hc hroom
    obtain ⟨w1, ht1, h1, h5, h6, h7⟩ := stats_step (w := w) hc (fun ho => by have := hroom ho; simp at this; omega) (htr k (by simp))
    have hf1 := hf.step h7 (by rw [hs]; exact hh k (by simp)) h1
    rw [← insert1_eq hf (by rw [hs]; exact hh k (by simp) w)] at h1
    obtain ⟨w', ht', h2, h3, h4, h8, h9⟩ := ih (fun x hx => hh x (List.mem_cons_of_mem _ hx)) (fun x hx => htr x (List.mem_cons_of_mem _ hx)) (done ++ [k])
      w1 ht1 (by rw [h7, hs]) hf1 h5 (fun ho => by rw [h6, List.append_assoc]; exact hroom ho)
    refine ⟨w', ht', ?_, by rw [List.append_assoc] at h3; exact h3, by rw [h4, h6], by rw [h8, h7], h9⟩
    rw [insertKeys, h1, Go.bind_ok]
    exact h2

theorem insertL_stats (seed : U64) (ks : List (List U8)) (hh : Hashes sys name seed ks) (htr : Traces sys fl name ks) :
    ∀ (done : List (List U8)) (w : ω) (ht : HT (List U8)) (hs : List U64), ht.seed = seed → Fine sys name ht → Stats fl done ht → (fl.oa = true → (done ++ ks).length ≤ ht.size.toNat) →
      ∃ w' ht' hs', insertL sys fl name w ht hs ks = .ok (w', ht', hs') ∧ Stats fl (done ++ ks) ht' ∧ ht'.size = ht.size ∧ ht'.seed = ht.seed ∧ Fine sys name ht' := by
  induction ks with
  | nil => intro done w ht hs e hf hc _; exact ⟨w, ht, hs, rfl, by simpa using hc, rfl, rfl, hf⟩
  | cons k ks ih =>
    intro done w ht hs e hf hc hroom
    obtain ⟨⟨r1, r2⟩, hr⟩ := hh k (by simp) w
    obtain ⟨w1, ht1, h1, h5, h6, h7⟩ := stats_step (w := r2) hc (fun ho => by have := hroom ho; simp at this; omega) (htr k (by simp))
    have hf1 := hf.step h7 (by rw [e]; exact hh k (by simp)) h1
    rw [← insert1_eq hf (by rw [e]; exact hh k (by simp) r2)] at h1
    obtain ⟨w', ht', hs', h2, h3, h4, h8, h9⟩ := ih (fun x hx => hh x (List.mem_cons_of_mem _ hx)) (fun x hx => htr x (List.mem_cons_of_mem _ hx)) (done ++ [k])
      w1 ht1 (hs ++ [r1]) (by rw [h7, e]) hf1 h5 (fun ho => by rw [h6, List.append_assoc]; exact hroom ho)
    refine ⟨w', ht', hs', ?_, by rw [List.append_assoc] at h3; exact h3, by rw [h4, h6], by rw [h8, h7], h9⟩
    rw [insertL, e, hr, Go.bind_ok]
    dsimp only
    rw [h1, Go.bind_ok]
    exact h2

theorem env_hash {G : List U8 → U64 → Go U64} (hd : Determined sys name G) (w : ω) (k : List U8) (s : U64) :
    ((env sys fl name).total.hash w k s).1 = valueOf G k s := by
  have h := hd w k s
  unfold valueOf
  rw [← h]
  unfold EnvF.total env
  dsimp only
  cases sys.hash w name k s <;> rfl

/-- One step: the table is that of the pure hash. -/
theorem insert1_pure {G : List U8 → U64 → Go U64} (hd : Determined sys name G) {w : ω} {ht : HT (List U8)} {k : List U8}
    (hf : Fine sys name ht) (hh : ∃ r, sys.hash w name k ht.seed = .ok r) :
    (insert1 sys fl name w ht k).map Prod.snd = (HashTable.insert (pureEnv (valueOf G) (env sys fl name).traceOK) () ht k).map Prod.snd := by
  rw [insert1_eq hf hh]
  exact insert_sim (e := (env sys fl name).total) (env_hash hd) w ht k

theorem map_snd_cases {α β γ : Type} {x : Go (α × γ)} {y : Go (β × γ)} (h : x.map Prod.snd = y.map Prod.snd) :
    (∃ f, x = .error f ∧ y = .error f) ∨ ∃ a b c, x = .ok (a, c) ∧ y = .ok (b, c) := by
  cases x with
  | error f =>
    cases y with
    | error g => left; cases Except.error.inj h; exact ⟨f, rfl, rfl⟩
    | ok q => exact nomatch h
  | ok p =>
    cases y with
    | error g => exact nomatch h
    | ok q =>
      right
      obtain ⟨a, c⟩ := p
      obtain ⟨b, d⟩ := q
      have : c = d := Except.ok.inj h
      subst this
      exact ⟨a, b, c, rfl, rfl⟩

theorem pure_same {H : List U8 → U64 → U64} {tr : List U8 → Bool} {ht ht' : HT (List U8)} {k : List U8} {u : Unit} (wf : WF ht) (hk : tr k = true)
    (h : HashTable.insert (pureEnv H tr) () ht k = .ok (u, ht')) : Same ht ht' := by
  rcases insert_cases (e := pureEnv H tr) (w := ()) wf hk with ⟨_, _, h3⟩ | ⟨_, w2, ht2, h3, h4⟩
  · rw [h] at h3; exact nomatch h3
  · rw [h] at h3
    cases Except.ok.inj h3
    exact h4

theorem insertKeys_pure {G : List U8 → U64 → Go U64} (hd : Determined sys name G) (seed : U64) (ks : List (List U8)) (hh : Hashes sys name seed ks) (htr : Traces sys fl name ks) :
    ∀ (w : ω) (ht : HT (List U8)), WF ht → ht.seed = seed → Fine sys name ht →
      (insertKeys sys fl name w ht ks).map Prod.snd = (insertAll (pureEnv (valueOf G) (env sys fl name).traceOK) () ht ks).map Prod.snd := by
  induction ks with
  | nil => intro w ht wf e _; rfl
  | cons k ks ih =>
    intro w ht wf e hf
    rw [insertKeys, insertAll]
    rcases map_snd_cases (insert1_pure (fl := fl) hd (w := w) hf (by rw [e]; exact hh k (by simp) w)) with ⟨f, h1, h2⟩ | ⟨w1, u, ht1, h1, h2⟩
    · rw [h1, h2]; rfl
    · rw [h1, h2, Go.bind_ok, Go.bind_ok]
      have hs := pure_same wf (htr k (by simp)) h2
      exact ih (fun x hx => hh x (List.mem_cons_of_mem _ hx)) (fun x hx => htr x (List.mem_cons_of_mem _ hx)) _ _ hs.wf (by rw [hs.seed, e])
        (hf.step hs.seed (by rw [e]; exact hh k (by simp)) (by rw [← insert1_eq hf (by rw [e]; exact hh k (by simp) w)]; exact h1))

theorem insertL_pure {G : List U8 → U64 → Go U64} (hd : Determined sys name G) (seed : U64) (ks : List (List U8)) (hh : Hashes sys name seed ks) (htr : Traces sys fl name ks) :
    ∀ (w : ω) (ht : HT (List U8)) (hs : List U64), WF ht → ht.seed = seed → Fine sys name ht →
      (insertL sys fl name w ht hs ks).map Prod.snd =
        (insertAll (pureEnv (valueOf G) (env sys fl name).traceOK) () ht ks).map fun p => (p.2, hs ++ ks.map fun k => valueOf G k seed) := by
  induction ks with
  | nil => intro w ht hs wf e _; rw [List.map_nil, List.append_nil]; rfl
  | cons k ks ih =>
    intro w ht hs wf e hf
    rw [insertL, insertAll]
    obtain ⟨⟨r1, r2⟩, hr⟩ := hh k (by simp) w
    have hv : valueOf G k seed = r1 := by
      have := hd w k seed
      rw [hr] at this
      unfold valueOf
      rw [← this]; rfl
    rw [e, hr, Go.bind_ok]
    dsimp only
    rcases map_snd_cases (insert1_pure (fl := fl) hd (w := r2) hf (by rw [e]; exact hh k (by simp) r2)) with ⟨f, h1, h2⟩ | ⟨w1, u, ht1, h1, h2⟩
    · rw [h1, h2]; rfl
    · rw [h1, h2, Go.bind_ok, Go.bind_ok]
      have hs2 := pure_same wf (htr k (by simp)) h2
      rw [List.map_cons, hv, show hs ++ r1 :: ks.map (fun k => valueOf G k seed) = (hs ++ [r1]) ++ ks.map (fun k => valueOf G k seed) by simp]
      exact ih (fun x hx => hh x (List.mem_cons_of_mem _ hx)) (fun x hx => htr x (List.mem_cons_of_mem _ hx)) _ _ _ hs2.wf (by rw [hs2.seed, e])
        (hf.step hs2.seed (by rw [e]; exact hh k (by simp)) (by rw [← insert1_eq hf (by rw [e]; exact hh k (by simp) r2)]; exact h1))

end keys

end Verif.Lemmas.HtMain
