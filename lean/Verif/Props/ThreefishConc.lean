import Verif.Lemmas.ThreefishConc2
import Verif.Props.Threefish

/-!
# C115: one Threefish cipher shared by goroutines

`Spec.ThreefishConc.aloneAll p mem calls` makes the calls one after the other on a cipher `p` that nobody else uses; what each does is the
subject of C60 to C63. `World.run` interleaves the memory accesses of any number of goroutines that share one cipher.
-/

namespace Verif.Props.ThreefishConc
open Verif Verif.Model.Threefish Verif.Model.ThreefishConc Verif.Spec.ThreefishConc
open Verif.Lemmas.ThreefishConc (Ready Rest)
open Verif.Props.Threefish (Made Origin shown made_good)
open Verif.Spec.Threefish (encryptWords toWords toBytes readAt writeAt)

theorem made_tmp2 {o : Origin} {key : List U64} {t0 t1 : U64} {c : Cipher} (h : Made o key t0 t1 c) : c.int.tmpData2.length = c.int.size.words := by
  have blank_ok : ∀ (s : Size) (tw : Option (List U64)) (i : Internal), blank s tw = .ok i → i.size = s ∧ i.tmpData2.length = s.words := by
    intro s tw i e
    unfold blank at e
    cases e1 : setTweak tw (List.replicate 3 0#64) with
    | error f => rw [e1] at e; cases e
    | ok t => rw [e1] at e; cases e; exact ⟨rfl, List.length_replicate⟩
  have nb : ∀ (s : Size) (k : Option (List U8)) (tw : Option (List U64)) (i : Internal), newBytes s k tw = .ok i → i.tmpData2.length = i.size.words := by
    intro s k tw i e
    unfold newBytes at e
    cases e1 : blank s tw with
    | error f => rw [e1] at e; cases e
    | ok b =>
      rw [e1, Go.bind_ok] at e
      obtain ⟨h1, h2⟩ := blank_ok s tw b e1
      cases k with
      | none => cases e; rw [h1, h2]
      | some k =>
        dsimp only at e
        cases e2 : Go.forRange 0 s.words (keyWord k) (List.replicate (s.words + 1) 0#64) with
        | error f => rw [e2] at e; cases e
        | ok tk =>
          rw [e2, Go.bind_ok] at e
          cases e3 : setKey tk b.expanedKey with
          | error f => rw [e3] at e; cases e
          | ok ek => rw [e3] at e; cases e; show b.tmpData2.length = b.size.words; rw [h1, h2]
  have nw : ∀ (s : Size) (k : List U64) (tw : Option (List U64)) (i : Internal), newWords s k tw = .ok i → i.tmpData2.length = i.size.words := by
    intro s k tw i e
    unfold newWords at e
    cases e1 : blank s tw with
    | error f => rw [e1] at e; cases e
    | ok b =>
      rw [e1, Go.bind_ok] at e
      obtain ⟨h1, h2⟩ := blank_ok s tw b e1
      cases e3 : setKey k b.expanedKey with
      | error f => rw [e3] at e; cases e
      | ok ek => rw [e3] at e; cases e; show b.tmpData2.length = b.size.words; rw [h1, h2]
  have fin : ∀ (x : Go Internal) (z : Nat) (c : Cipher), (∀ i, x = .ok i → i.tmpData2.length = i.size.words) → (do let i ← x; return Except.ok ⟨z, i⟩ : Go (Except Int Cipher)) = .ok (.ok c) →
      c.int.tmpData2.length = c.int.size.words := by
    intro x z c hx e
    cases x with
    | error f => cases e
    | ok i => cases e; exact hx i rfl
  have hnew : ∀ (key : List U8) (tw : Option (List U64)) (c : Cipher), New key tw = .ok (.ok c) → c.int.tmpData2.length = c.int.size.words := by
    intro key tw c e
    unfold New at e
    split at e
    · exact fin _ _ c (nb _ _ _) e
    · split at e
      · exact fin _ _ c (nb _ _ _) e
      · split at e
        · exact fin _ _ c (nb _ _ _) e
        · cases e
  have hnew64 : ∀ (key : List U64) (tw : Option (List U64)) (c : Cipher), New64 key tw = .ok (.ok c) → c.int.tmpData2.length = c.int.size.words := by
    intro key tw c e
    unfold New64 at e
    split at e
    · exact fin _ _ c (nw _ _ _) e
    · split at e
      · exact fin _ _ c (nw _ _ _) e
      · split at e
        · exact fin _ _ c (nw _ _ _) e
        · cases e
  have hsize : ∀ (n : Int) (c : Cipher), NewSize n = .ok (.ok c) → c.int.tmpData2.length = c.int.size.words := by
    intro n c e
    unfold NewSize at e
    split at e
    · exact fin _ _ c (nb _ _ _) e
    · split at e
      · exact fin _ _ c (nb _ _ _) e
      · split at e
        · exact fin _ _ c (nb _ _ _) e
        · cases e
  induction h with
  | new key t0 t1 rest c h => exact hnew _ _ c h
  | newNil key c h => exact hnew _ _ c h
  | new64 key t0 t1 rest c h => exact hnew64 _ _ c h
  | new64Nil key c h => exact hnew64 _ _ c h
  | newSize n c h => exact hsize _ c h
  | setKey o key t0 t1 c hc k c' h ih =>
    unfold Cipher.SetKey at h
    cases e : Model.Threefish.setKey k c.int.expanedKey with
    | error f => rw [e] at h; cases h
    | ok ek => rw [e] at h; cases h; exact ih
  | setTweak o key t0 t1 c hc a b rest c' h ih => cases h; exact ih
  | setTweakNil o key t0 t1 c hc c' h ih => cases h; exact ih
  | encrypt o key t0 t1 c hc mem dst src hd hs r h ih =>
    change Lemmas.ThreefishConc.bytesCall c true mem dst src = _ at h
    rw [Lemmas.ThreefishConc.bytesCall_eq (made_good hc).1 true mem dst src hd hs] at h
    split at h
    · cases h; exact Lemmas.ThreefishConc.body_length c true (toWords (readAt mem src.off (8 * shown o key.length)) ++ List.replicate (key.length - shown o key.length) 0#64)
    · cases h
  | decrypt o key t0 t1 c hc mem dst src hd hs r h ih =>
    change Lemmas.ThreefishConc.bytesCall c false mem dst src = _ at h
    rw [Lemmas.ThreefishConc.bytesCall_eq (made_good hc).1 false mem dst src hd hs] at h
    split at h
    · cases h; exact Lemmas.ThreefishConc.body_length c false (toWords (readAt mem src.off (8 * shown o key.length)) ++ List.replicate (key.length - shown o key.length) 0#64)
    · cases h

theorem made_ready {o : Origin} {key : List U64} {t0 t1 : U64} {c : Cipher} (h : Made o key t0 t1 c) : Ready c (shown o key.length) key t0 t1 :=
  ⟨(made_good h).1, by rw [made_tmp2 h, (made_good h).1.keyed.len]⟩

/-- What the theorems ask of the goroutines: each is compared with one that has a cipher `q.2` of its own, made in the same way with the same key
and tweak; its slices lie in its memory, and its calls succeed there. -/
def Jobs (o : Origin) (key : List U64) (t0 t1 : U64) (jobs : List Job) : Prop :=
  ∀ q ∈ jobs, Made o key t0 t1 q.2 ∧ (∀ k ∈ q.1.2, Call.Fits q.1.1 k) ∧ ∃ r, aloneAll q.2 q.1.1 q.1.2 = .ok r

/-- C115: goroutines that share a cipher, never two of them inside `Encrypt` or `Decrypt` at once. Under every such schedule no call
panics, and whenever a goroutine is not inside a call its memory is what the calls it has made produce on a cipher of its own. -/
theorem C115_exclusive {o : Origin} {key : List U64} {t0 t1 : U64} {c : Cipher} (hc : Made o key t0 t1 c) (jobs : List Job) (hj : Jobs o key t0 t1 jobs) (sched : List Nat)
    (hex : Exclusive (start c (jobs.map Prod.fst)) sched) :
    ∃ w, (start c (jobs.map Prod.fst)).run sched = .ok w ∧ w.threads.length = jobs.length ∧
      ∀ (j : Nat) (t : Thread) (q : Job), w.threads[j]? = some t → jobs[j]? = some q →
        ∃ done, q.1.2 = done ++ t.running.toList ++ t.calls ∧
          (t.running = none → ∃ c', aloneAll q.2 q.1.1 done = .ok (c', (t.loc.bytes, t.loc.words))) := by
  obtain ⟨w, e, h⟩ := Lemmas.ThreefishConc.WInv.run sched (Lemmas.ThreefishConc.start_inv (made_ready hc) jobs fun q hq => ⟨(made_good (hj q hq).1).1, (hj q hq).2.1, (hj q hq).2.2⟩) hex
  refine ⟨w, e, h.len, fun j t q ht hq => ?_⟩
  cases h.inv j t q ht hq with
  | idle done calls cd mem regs h1 h2 h3 => exact ⟨done, by rw [h1]; simp, fun _ => ⟨cd, h2⟩⟩
  | words done calls k cd mem l todo regs hk h1 h2 h3 h4 h5 => exact ⟨done, by rw [h1]; simp, fun e => nomatch e⟩
  | bytes done calls k cd c'' mem l todo regs hk h1 h2 h3 h4 h5 => exact ⟨done, by rw [h1]; simp, fun e => nomatch e⟩

/-- C115: a goroutine that gets as many steps as its calls have, finishes; with `C115_exclusive`, its memory is then what all its calls
produce on a cipher of its own. -/
theorem C115_finish {o : Origin} {key : List U64} {t0 t1 : U64} {c : Cipher} (hc : Made o key t0 t1 c) (jobs : List Job) (hj : Jobs o key t0 t1 jobs) (sched : List Nat)
    (hex : Exclusive (start c (jobs.map Prod.fst)) sched) (j : Nat) (q : Job) (hq : jobs[j]? = some q)
    (hn : (q.1.2.map (cost key.length (shown o key.length))).sum ≤ sched.count j) :
    ∃ w t, (start c (jobs.map Prod.fst)).run sched = .ok w ∧ w.threads[j]? = some t ∧ Finished t ∧ ∃ c', aloneAll q.2 q.1.1 q.1.2 = .ok (c', (t.loc.bytes, t.loc.words)) := by
  obtain ⟨w, e, hl, h⟩ := C115_exclusive hc jobs hj sched hex
  have h0 : (start c (jobs.map Prod.fst)).threads[j]? = some ⟨⟨q.1.1.1, q.1.1.2, []⟩, none, [], q.1.2⟩ := by
    unfold start
    rw [List.map_map, List.getElem?_map, hq]; rfl
  obtain ⟨t, ht, hlt⟩ := Lemmas.ThreefishConc.run_left sched (made_good hc).1.fixed e j _ h0
  have hz : Lemmas.ThreefishConc.left key.length (shown o key.length) t = 0 := by
    rw [hlt]
    unfold Lemmas.ThreefishConc.left
    simp only [List.length_nil, if_true]
    omega
  have hfin := Lemmas.ThreefishConc.finished_of_left hz
  obtain ⟨done, hd, hm⟩ := h j t q ht hq
  rw [hfin.1, hfin.2] at hd
  have hdone : q.1.2 = done := by simpa using hd
  exact ⟨w, t, e, ht, hfin, hdone ▸ hm hfin.1⟩

/-- C115: if at most one of the goroutines calls `Encrypt` or `Decrypt` - the others call `Encrypt64` and `Decrypt64` only - every
schedule is exclusive. -/
theorem C115_one_byte_user (c : Cipher) (ps : List ((List U8 × List U64) × List Call))
    (h : ∀ (i j : Nat) (p q : (List U8 × List U64) × List Call), ps[i]? = some p → ps[j]? = some q → (∃ k ∈ p.2, Call.isBytes k = true) → (∃ k ∈ q.2, Call.isBytes k = true) → i = j)
    (sched : List Nat) : Exclusive (start c ps) sched := by
  intro pre post w' _ hr i j s t hs ht hbs hbt
  have main : ∀ (i : Nat) (s : Thread), w'.threads[i]? = some s → Busy s → ∃ p, ps[i]? = some p ∧ ∃ k ∈ p.2, Call.isBytes k = true := by
    intro i s hs ⟨k, hk, hb⟩
    obtain ⟨t, ht, k', hk', hb'⟩ := Lemmas.ThreefishConc.run_calls (fun k => Call.isBytes k = true) pre hr i s hs ⟨k, .inl hk, hb⟩
    unfold start at ht
    rw [List.getElem?_map] at ht
    cases hp : ps[i]? with
    | none => rw [hp] at ht; cases ht
    | some p =>
      rw [hp] at ht
      cases ht
      rcases hk' with hk' | hk'
      · cases hk'
      · exact ⟨p, rfl, k', hk', hb'⟩
  obtain ⟨p, hp, hkp⟩ := main i s hs hbs
  obtain ⟨q, hq, hkq⟩ := main j t ht hbt
  exact h i j p q hp hq hkp hkq

/-- C115: without that, a caller can be given the encryption of someone else's plaintext. For every key, tweak and pair of blocks there is a schedule of
two `Encrypt` calls on one cipher after which the first has returned with the encryption of the second's block in its destination. -/
theorem C115_shared_violated {key : List U64} {t0 t1 : U64} {c : Cipher} (hc : Made .bytes key t0 t1 c) (p q : List U8) (hp : p.length = 8 * key.length) (hq : q.length = 8 * key.length) :
    ∃ sched w t, (start c [((p, []), [.bytes true ⟨0, p.length, p.length⟩ ⟨0, p.length, p.length⟩]), ((q, []), [.bytes true ⟨0, q.length, q.length⟩ ⟨0, q.length, q.length⟩])]).run sched = .ok w ∧
      w.threads[0]? = some t ∧ Finished t ∧ t.loc.bytes = toBytes (encryptWords key t0 t1 (toWords q)) := by
  have hr := made_ready hc
  have hm : c.stateSize / 64 = key.length := hr.good.m_eq
  have hw : c.int.size.words = key.length := hr.good.keyed.len.symm
  have hfill : ∀ (t : List U64) (b : List U8) (l : Loc), t.length = key.length → b.length = 8 * key.length → l.bytes = b →
      Lemmas.ThreefishConc.runIns (setTmp1 c t) l ((List.range' 0 (c.stateSize / 64)).map (Ins.fill ⟨0, b.length, b.length⟩)) = .ok (setTmp1 c (toWords b), l) := by
    intro t b l ht hb hl
    rw [Lemmas.ThreefishConc.fills_eq, hm, hl]
    show (Go.forRange 0 key.length (loadBytes b ⟨0, b.length, b.length⟩) t >>= _) = _
    rw [Lemmas.Threefish.loadLoop b _ t _ (by omega) (by dsimp only; omega) (by dsimp only; omega), Go.bind_ok, List.drop_of_length_le (by omega), List.append_nil]
    show Except.ok (setTmp1 c (toWords ((b.drop 0).take (8 * key.length))), l) = _
    rw [List.drop_zero, List.take_of_length_le (by omega)]
  have hlen : ∀ b : List U8, b.length = 8 * key.length → (toWords b).length = key.length := fun b hb => by rw [Lemmas.Threefish.toWords_length, hb]; omega
  let kp : Call := .bytes true ⟨0, p.length, p.length⟩ ⟨0, p.length, p.length⟩
  let kq : Call := .bytes true ⟨0, q.length, q.length⟩ ⟨0, q.length, q.length⟩
  let F : List U8 → List Ins := fun b => (List.range' 0 (c.stateSize / 64)).map (Ins.fill ⟨0, b.length, b.length⟩)
  let R : List U8 → List Ins := fun b => (List.range' 0 c.int.size.words).map Ins.load ++ (Ins.rounds true ::
      ((List.range' 0 c.int.size.words).map Ins.store ++ (List.range' 0 (c.stateSize / 64)).map (Ins.drain ⟨0, b.length, b.length⟩)))
  -- the first call has read its block, then the second
  have hs1 : ∀ w : World, w.run [0] = w.step 0 := fun w => by show (w.step 0 >>= fun w' => Except.ok w') = _; cases w.step 0 <;> rfl
  have hs2 : ∀ w : World, w.run [1] = w.step 1 := fun w => by show (w.step 1 >>= fun w' => Except.ok w') = _; cases w.step 1 <;> rfl
  have e1 : (start c [((p, []), [kp]), ((q, []), [kq])]).run [0] = .ok ⟨setTmp1 c c.int.tmpData1, [⟨⟨p, [], []⟩, some kp, F p ++ R p, []⟩, ⟨⟨q, [], []⟩, none, [], [kq]⟩]⟩ := by rw [hs1]; rfl
  have e2 := Lemmas.ThreefishConc.run_thread 0 (F p) ⟨setTmp1 c c.int.tmpData1, [⟨⟨p, [], []⟩, some kp, F p ++ R p, []⟩, ⟨⟨q, [], []⟩, none, [], [kq]⟩]⟩ ⟨p, [], []⟩ (some kp) (R p) []
    (setTmp1 c (toWords p), ⟨p, [], []⟩) rfl (hfill _ p _ (by rw [Lemmas.ThreefishConc.Good.tmp1 hr.good, hw]) hp rfl)
  have e3 : World.run ⟨setTmp1 c (toWords p), [⟨⟨p, [], []⟩, some kp, R p, []⟩, ⟨⟨q, [], []⟩, none, [], [kq]⟩]⟩ [1] =
      .ok ⟨setTmp1 c (toWords p), [⟨⟨p, [], []⟩, some kp, R p, []⟩, ⟨⟨q, [], []⟩, some kq, F q ++ R q, []⟩]⟩ := by rw [hs2]; rfl
  have e4 := Lemmas.ThreefishConc.run_thread 1 (F q) ⟨setTmp1 c (toWords p), [⟨⟨p, [], []⟩, some kp, R p, []⟩, ⟨⟨q, [], []⟩, some kq, F q ++ R q, []⟩]⟩ ⟨q, [], []⟩ (some kq) (R q) []
    (setTmp1 c (toWords q), ⟨q, [], []⟩) rfl (hfill _ q _ (hlen p hp) hq rfl)
  -- the first call goes on
  have hE : c.int.encBody (toWords q) = encryptWords key t0 t1 (toWords q) := Lemmas.Threefish.encBody_eq hr.good.keyed _
  have hEl : (c.int.encBody (toWords q)).length = key.length := by rw [Lemmas.Threefish.encBody_length, hw]
  have hR : Lemmas.ThreefishConc.runIns (setTmp1 c (toWords q)) ⟨p, [], []⟩ (R p) =
      .ok (setTmp2 (setTmp1 c (toWords q)) (c.int.encBody (toWords q)), ⟨toBytes (encryptWords key t0 t1 (toWords q)), [], c.int.encBody (toWords q)⟩) := by
    show Lemmas.ThreefishConc.runIns (setTmp1 c (toWords q)) ⟨p, [], []⟩ ((List.range' 0 c.int.size.words).map Ins.load ++ (Ins.rounds true ::
      ((List.range' 0 c.int.size.words).map Ins.store ++ (List.range' 0 (c.stateSize / 64)).map (Ins.drain ⟨0, p.length, p.length⟩)))) = _
    rw [Lemmas.ThreefishConc.runIns_append, Lemmas.ThreefishConc.loadsTmp_eq]
    show ((Go.forRange 0 c.int.size.words (fun i b => do let x ← Go.idx (toWords q) i; return b ++ [x]) [] >>= _) >>= _) = _
    rw [Lemmas.ThreefishConc.loadsAll (toWords q) _ (by rw [hlen q hq, hw]), Go.bind_ok, Go.bind_ok]
    show Lemmas.ThreefishConc.runIns (setTmp1 c (toWords q)) ⟨p, [], c.int.encBody (toWords q)⟩ _ = _
    rw [Lemmas.ThreefishConc.runIns_append, Lemmas.ThreefishConc.storesTmp_eq]
    show ((Go.forRange 0 c.int.size.words (fun i t => do let x ← Go.idx (c.int.encBody (toWords q)) i; Go.set t i x) c.int.tmpData2 >>= _) >>= _) = _
    rw [Lemmas.ThreefishConc.storesAll (c.int.encBody (toWords q)) _ _ (by rw [hr.tmp2, hw]) (by rw [hEl, hw]), Go.bind_ok, Go.bind_ok, Lemmas.ThreefishConc.drains_eq, hm]
    show (Go.forRange 0 key.length (storeBytes (c.int.encBody (toWords q)) ⟨0, p.length, p.length⟩) p >>= _) = _
    rw [Lemmas.Threefish.storeLoop _ _ p _ (by omega) (by dsimp only; omega) (by dsimp only; omega), Go.bind_ok, List.take_of_length_le (by omega), hE]
    have hb : writeAt p 0 (toBytes (encryptWords key t0 t1 (toWords q))) = toBytes (encryptWords key t0 t1 (toWords q)) := by
      unfold writeAt
      rw [List.take_zero, List.nil_append, List.drop_of_length_le (by rw [Nat.zero_add, Lemmas.Threefish.toBytes_length, ← hE, hEl]; omega), List.append_nil]
    show Except.ok (setTmp2 (setTmp1 c (toWords q)) _, Loc.mk (writeAt p 0 _) [] _) = _
    rw [hb]
  have e5 := Lemmas.ThreefishConc.run_thread 0 (R p) ⟨setTmp1 c (toWords q), [⟨⟨p, [], []⟩, some kp, R p, []⟩, ⟨⟨q, [], []⟩, some kq, R q, []⟩]⟩ ⟨p, [], []⟩ (some kp) [] []
    _ (by rw [List.append_nil]; rfl) hR
  refine ⟨[0] ++ (List.replicate (F p).length 0 ++ ([1] ++ (List.replicate (F q).length 1 ++ (List.replicate (R p).length 0 ++ [0])))),
    ⟨setTmp2 (setTmp1 c (toWords q)) (c.int.encBody (toWords q)), [⟨⟨toBytes (encryptWords key t0 t1 (toWords q)), [], c.int.encBody (toWords q)⟩, none, [], []⟩, ⟨⟨q, [], []⟩, some kq, R q, []⟩]⟩,
    ⟨⟨toBytes (encryptWords key t0 t1 (toWords q)), [], c.int.encBody (toWords q)⟩, none, [], []⟩, ?_, rfl, ⟨rfl, rfl⟩, rfl⟩
  · rw [Lemmas.ThreefishConc.run_append]
    refine (congrArg (· >>= _) e1).trans ?_
    rw [Go.bind_ok, Lemmas.ThreefishConc.run_append, e2, Go.bind_ok, Lemmas.ThreefishConc.run_append]
    refine (congrArg (· >>= _) e3).trans ?_
    rw [Go.bind_ok, Lemmas.ThreefishConc.run_append, e4, Go.bind_ok, Lemmas.ThreefishConc.run_append]
    refine (congrArg (· >>= _) e5).trans ?_
    rw [Go.bind_ok, hs1]
    rfl

/-- A fresh 256-bit cipher, one goroutine encrypting bytes and one encrypting words in place: the hypotheses of the theorems hold for every schedule. -/
example : ∃ (c : Cipher) (jobs : List Job), Made .bytes (List.replicate 4 0#64) 0#64 0#64 c ∧ Jobs .bytes (List.replicate 4 0#64) 0#64 0#64 jobs ∧ jobs.length = 2 ∧
    (∀ sched, Exclusive (start c (jobs.map Prod.fst)) sched) ∧ (∀ q ∈ jobs, q.1.2 ≠ []) := by
  obtain ⟨c, hc⟩ := Threefish.C64_newSize 256
  have h : Made .bytes (List.replicate 4 0#64) 0#64 0#64 c := .newSize 256 c hc
  have hv8 : Win.Valid ⟨0, 32, 32⟩ (List.replicate 40 0#8) := ⟨by decide, by decide⟩
  have hv64 : Win.Valid ⟨1, 4, 4⟩ (List.replicate 6 0#64) := ⟨by decide, by decide⟩
  refine ⟨c, [(((List.replicate 40 0#8, []), [.bytes true ⟨0, 32, 32⟩ ⟨0, 32, 32⟩]), c), ((([], List.replicate 6 0#64), [.words false ⟨1, 4, 4⟩ ⟨1, 4, 4⟩]), c)], h, ?_, rfl, fun sched => ?_, ?_⟩
  · intro q hq
    rcases List.mem_cons.1 hq with rfl | hq
    · refine ⟨h, fun k hk => ?_, ?_⟩
      · rcases List.mem_singleton.1 hk with rfl
        exact ⟨hv8, hv8⟩
      · have he := Threefish.encrypt_gen h (List.replicate 40 0#8) ⟨0, 32, 32⟩ ⟨0, 32, 32⟩ hv8 hv8
        rw [if_pos (show 8 * shown .bytes (List.replicate 4 0#64).length ≤ 32 ∧ 8 * shown .bytes (List.replicate 4 0#64).length ≤ 32 from ⟨by decide, by decide⟩)] at he
        obtain ⟨c', he⟩ := he
        generalize writeAt _ _ _ = mem' at he
        refine ⟨(c', (mem', [])), ?_⟩
        show ((c.Encrypt (List.replicate 40 0#8) ⟨0, 32, 32⟩ ⟨0, 32, 32⟩ >>= _) >>= _) = _
        rw [he]; rfl
    · rcases List.mem_singleton.1 hq with rfl
      refine ⟨h, fun k hk => ?_, ?_⟩
      · rcases List.mem_singleton.1 hk with rfl
        exact ⟨hv64, hv64⟩
      · have he := Threefish.C60_decrypt64 h (List.replicate 6 0#64) ⟨1, 4, 4⟩ ⟨1, 4, 4⟩ hv64 hv64
        rw [if_pos (by decide)] at he
        obtain ⟨x, _, _, he⟩ := he
        generalize writeAt _ _ _ = mem' at he
        refine ⟨(c, ([], mem')), ?_⟩
        show ((c.Decrypt64 (List.replicate 6 0#64) ⟨1, 4, 4⟩ ⟨1, 4, 4⟩ >>= _) >>= _) = _
        rw [he]; rfl
  · refine C115_one_byte_user c _ (fun i j p q hp hq hkp hkq => ?_) sched
    have main : ∀ (i : Nat) (p : (List U8 × List U64) × List Call),
        [((List.replicate 40 0#8, ([] : List U64)), [Call.bytes true ⟨0, 32, 32⟩ ⟨0, 32, 32⟩]), (([], List.replicate 6 0#64), [Call.words false ⟨1, 4, 4⟩ ⟨1, 4, 4⟩])][i]? = some p →
        (∃ k ∈ p.2, Call.isBytes k = true) → i = 0 := by
      intro i p hp hk
      match i, hp with
      | 0, _ => rfl
      | 1, hp =>
        cases hp
        obtain ⟨k, hk, hb⟩ := hk
        rcases List.mem_singleton.1 hk with rfl
        cases hb
      | i + 2, hp => cases hp
    rw [main i p hp hkp, main j q hq hkq]
  · intro q hq
    rcases List.mem_cons.1 hq with rfl | hq
    · exact List.cons_ne_nil _ _
    · rcases List.mem_singleton.1 hq with rfl
      exact List.cons_ne_nil _ _

/-- Two byte users one after the other: an exclusive schedule that is not covered by `C115_one_byte_user`. -/
example (c : Cipher) (d s : Win) : ∃ w, (start c [(([], []), [.bytes true d s]), (([], []), [.bytes false d s])]).run [0] = .ok w ∧ Exclusive (start c [(([], []), [.bytes true d s]), (([], []), [.bytes false d s])]) [0] := by
  refine ⟨_, rfl, ?_⟩
  intro pre post w' hs hr i j x y hx hy hbx hby
  have hone : ∀ (i : Nat) (x : Thread), w'.threads[i]? = some x → Busy x → i = 0 := by
    intro i x hx ⟨k, hk, hb⟩
    match pre, hs, hr with
    | [], _, hr =>
      cases hr
      match i, hx with
      | 0, _ => rfl
      | 1, hx => cases hx; cases hk
      | i + 2, hx => cases hx
    | [_], hs, hr =>
      cases hs
      cases hr
      match i, hx with
      | 0, _ => rfl
      | 1, hx => cases hx; cases hk
      | i + 2, hx => cases hx
    | _ :: _ :: _, hs, _ => cases hs
  rw [hone i x hx hbx, hone j y hy hby]

/-- The refutation needs nothing but a cipher. -/
example : ∃ c, Made .bytes (List.replicate 4 0#64) 0#64 0#64 c := by
  obtain ⟨c, hc⟩ := Threefish.C64_newSize 256
  exact ⟨c, .newSize 256 c hc⟩

end Verif.Props.ThreefishConc
