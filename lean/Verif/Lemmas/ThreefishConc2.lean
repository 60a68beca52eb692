import Verif.Lemmas.ThreefishConc

/-! The invariant of an exclusive schedule. -/

namespace Verif.Lemmas.ThreefishConc
open Verif Verif.Model.Threefish Verif.Model.ThreefishConc Verif.Spec.ThreefishConc
open Verif.Lemmas.Threefish
open Verif.Spec.Threefish (toWords toBytes readAt writeAt)

variable {m : Nat} {key : List U64} {t0 t1 : U64}

/-- The parts of the cipher that no block call changes. -/
structure Fixed (c : Cipher) (m : Nat) (key : List U64) (t0 t1 : U64) : Prop where
  keyed : Keyed c.int key t0 t1
  m_eq : c.stateSize / 64 = m

/-- A cipher on which no call is under way. -/
structure Ready (c : Cipher) (m : Nat) (key : List U64) (t0 t1 : U64) : Prop where
  good : Good c m key t0 t1
  tmp2 : c.int.tmpData2.length = key.length

theorem _root_.Verif.Lemmas.Threefish.Good.fixed {c : Cipher} (h : Good c m key t0 t1) : Fixed c m key t0 t1 := ⟨h.keyed, h.m_eq⟩

theorem words_inj : ∀ s s' : Size, s.words = s'.words → s = s' := by
  intro s s' h
  cases s <;> cases s' <;> first | rfl | (exact absurd h (by decide))

theorem Fixed.size {c c' : Cipher} (h : Fixed c m key t0 t1) (h' : Fixed c' m key t0 t1) : c.int.size = c'.int.size :=
  words_inj _ _ (h.keyed.len.symm.trans h'.keyed.len)

theorem Fixed.body {c c' : Cipher} (h : Fixed c m key t0 t1) (h' : Fixed c' m key t0 t1) (enc : Bool) (b : List U64) : body c enc b = body c' enc b := by
  have hs := h.size h'
  have hp : c.int.par = c'.int.par := by
    funext i
    unfold Internal.par
    rw [hs, h.keyed.key, h'.keyed.key, h.keyed.tweak, h'.keyed.tweak]
  unfold ThreefishConc.body Internal.encBody Internal.decBody
  rw [hp, hs]

theorem Fixed.accesses {c c' : Cipher} (h : Fixed c m key t0 t1) (h' : Fixed c' m key t0 t1) (k : Call) : accesses c k = accesses c' k := by
  unfold Model.ThreefishConc.accesses
  rw [h.size h', h.m_eq, h'.m_eq]

theorem access_fixed {c : Cipher} (h : Fixed c m key t0 t1) (l : Loc) (a : Ins) {r : Cipher × Loc} (e : access c l a = .ok r) : Fixed r.1 m key t0 t1 := by
  obtain ⟨⟨h1, h2, h3⟩, h4⟩ := h
  unfold access at e
  cases a with
  | fill src i =>
    dsimp only at e
    cases e1 : loadBytes l.bytes src i c.int.tmpData1 with
    | error f => rw [e1] at e; cases e
    | ok t => rw [e1] at e; cases e; exact ⟨⟨h1, h2, h3⟩, h4⟩
  | load i =>
    dsimp only at e
    cases e1 : Go.idx c.int.tmpData1 i with
    | error f => rw [e1] at e; cases e
    | ok t => rw [e1] at e; cases e; exact ⟨⟨h1, h2, h3⟩, h4⟩
  | rounds enc => cases e; exact ⟨⟨h1, h2, h3⟩, h4⟩
  | store i =>
    dsimp only at e
    cases e1 : Go.idx l.regs i with
    | error f => rw [e1] at e; cases e
    | ok x =>
      rw [e1, Go.bind_ok] at e
      cases e2 : Go.set c.int.tmpData2 i x with
      | error f => rw [e2] at e; cases e
      | ok t => rw [e2] at e; cases e; exact ⟨⟨h1, h2, h3⟩, h4⟩
  | drain dst i =>
    dsimp only at e
    cases e1 : storeBytes c.int.tmpData2 dst i l.bytes with
    | error f => rw [e1] at e; cases e
    | ok t => rw [e1] at e; cases e; exact ⟨⟨h1, h2, h3⟩, h4⟩
  | load64 src i =>
    dsimp only at e
    cases e1 : src.get l.words i with
    | error f => rw [e1] at e; cases e
    | ok t => rw [e1] at e; cases e; exact ⟨⟨h1, h2, h3⟩, h4⟩
  | store64 dst i =>
    dsimp only at e
    cases e1 : Go.idx l.regs i with
    | error f => rw [e1] at e; cases e
    | ok x =>
      rw [e1, Go.bind_ok] at e
      cases e2 : dst.put x i l.words with
      | error f => rw [e2] at e; cases e
      | ok t => rw [e2] at e; cases e; exact ⟨⟨h1, h2, h3⟩, h4⟩

/-- Accesses that leave the cipher's arrays alone. -/
def private_ : Ins → Bool
  | .rounds _ => true
  | .load64 .. => true
  | .store64 .. => true
  | _ => false

/-- Such an access does the same on every cipher with the same key and tweak, and leaves it as it is. -/
theorem access_private {c : Cipher} (h : Fixed c m key t0 t1) (l : Loc) (a : Ins) (ha : private_ a = true) {r : Cipher × Loc} (e : access c l a = .ok r) :
    r.1 = c ∧ ∀ c', Fixed c' m key t0 t1 → access c' l a = .ok (c', r.2) := by
  unfold access at e
  cases a with
  | rounds enc =>
    cases e
    refine ⟨rfl, fun c' h' => ?_⟩
    show Except.ok (c', { l with regs := body c' enc l.regs }) = .ok (c', { l with regs := body c enc l.regs })
    rw [h.body h']
  | load64 src i =>
    dsimp only at e
    cases e1 : src.get l.words i with
    | error f => rw [e1] at e; cases e
    | ok t => rw [e1] at e; cases e; exact ⟨rfl, fun c' _ => by unfold access; dsimp only; rw [e1]; rfl⟩
  | store64 dst i =>
    dsimp only at e
    cases e1 : Go.idx l.regs i with
    | error f => rw [e1] at e; cases e
    | ok x =>
      rw [e1, Go.bind_ok] at e
      cases e2 : dst.put x i l.words with
      | error f => rw [e2] at e; cases e
      | ok t => rw [e2] at e; cases e; exact ⟨rfl, fun c' _ => by unfold access; dsimp only; rw [e1, Go.bind_ok, e2]; rfl⟩
  | fill => cases ha
  | load => cases ha
  | store => cases ha
  | drain => cases ha

theorem runIns_private (as : List Ins) : ∀ {c : Cipher} (_ : Fixed c m key t0 t1) (l : Loc) (_ : ∀ a ∈ as, private_ a = true) {r : Cipher × Loc} (_ : runIns c l as = .ok r),
    ∀ c', Fixed c' m key t0 t1 → runIns c' l as = .ok (c', r.2) := by
  induction as with
  | nil => intro c _ l _ r e c' _; cases e; rfl
  | cons a as ih =>
    intro c h l ha r e c' h'
    unfold runIns at e ⊢
    cases e1 : access c l a with
    | error f => rw [e1] at e; cases e
    | ok q =>
      rw [e1, Go.bind_ok] at e
      obtain ⟨e2, e3⟩ := access_private h l a (ha a List.mem_cons_self) e1
      rw [e3 c' h', Go.bind_ok]
      exact ih (by rw [e2]; exact h) _ (fun x hx => ha x (List.mem_cons_of_mem _ hx)) e c' h'

theorem accesses_private (c : Cipher) (k : Call) (hk : Call.isBytes k = false) : ∀ a ∈ accesses c k, private_ a = true := by
  cases k with
  | bytes => cases hk
  | words enc dst src =>
    intro a ha
    unfold accesses at ha
    rw [List.mem_append, List.mem_cons] at ha
    rcases ha with ha | rfl | ha
    · obtain ⟨i, _, rfl⟩ := List.mem_map.1 ha; rfl
    · rfl
    · obtain ⟨i, _, rfl⟩ := List.mem_map.1 ha; rfl

theorem Good.tmp1 {c : Cipher} (h : Good c m key t0 t1) : c.int.tmpData1.length = c.int.size.words := by
  have := (pre_drop h.tmp).2
  have := h.m_le
  have := h.keyed.len
  omega

theorem bytesCall_eq {c : Cipher} (h : Good c m key t0 t1) (enc : Bool) (mem : List U8) (dst src : Win) (hd : Win.Valid dst mem) (hs : Win.Valid src mem) :
    bytesCall c enc mem dst src =
    if 8 * m ≤ src.cap ∧ 8 * m ≤ dst.cap then
      .ok ({ c with int := { c.int with tmpData1 := toWords (readAt mem src.off (8 * m)) ++ List.replicate (key.length - m) 0#64, tmpData2 := body c enc (toWords (readAt mem src.off (8 * m)) ++ List.replicate (key.length - m) 0#64) } },
        writeAt mem dst.off (toBytes ((body c enc (toWords (readAt mem src.off (8 * m)) ++ List.replicate (key.length - m) 0#64)).take m)))
    else .error .slice :=
  bytes_call h mem dst src hd hs (body c enc) (fun b => by rw [body_length, h.keyed.len])

theorem wordsCall_eq (c : Cipher) (enc : Bool) (mem : List U64) (dst src : Win) (hd : Win.Valid dst mem) (hs : Win.Valid src mem) :
    wordsCall c enc mem dst src = if c.int.size.words ≤ src.len ∧ c.int.size.words ≤ dst.len then .ok (writeAt mem dst.off (body c enc (readAt mem src.off c.int.size.words))) else .error .index := by
  cases enc
  · exact Decrypt64_eq c mem dst src hd hs
  · exact Encrypt64_eq c mem dst src hd hs

/-- A call made alone on one cipher does the same on another with the same key and tweak on which no call is under way. -/
theorem alone_transfer {c p : Cipher} (hc : Ready c m key t0 t1) (hp : Good p m key t0 t1) (mem : List U8 × List U64) (k : Call) (hf : Call.Fits mem k)
    {r : Cipher × (List U8 × List U64)} (e : alone p mem k = .ok r) : ∃ c', alone c mem k = .ok (c', r.2) ∧ Ready c' m key t0 t1 := by
  cases k with
  | bytes enc dst src =>
    obtain ⟨hd, hs⟩ := hf
    rw [alone_bytes, bytesCall_eq hp enc mem.1 dst src hd hs] at e
    rw [alone_bytes, bytesCall_eq hc.good enc mem.1 dst src hd hs]
    split at e
    · rename_i hcap
      cases e
      refine ⟨_, ?_, ⟨bytes_call_good hc.good mem.1 src hcap.1 hs (body c enc (toWords (readAt mem.1 src.off (8 * m)) ++ List.replicate (key.length - m) 0#64)), ?_⟩⟩
      · rw [if_pos hcap, Go.bind_ok, hc.good.fixed.body hp.fixed]
      · show (body c enc _).length = _
        rw [body_length, hc.good.keyed.len]
    · cases e
  | words enc dst src =>
    obtain ⟨hd, hs⟩ := hf
    rw [alone_words, wordsCall_eq p enc mem.2 dst src hd hs] at e
    rw [alone_words, wordsCall_eq c enc mem.2 dst src hd hs]
    rw [hc.good.fixed.size hp.fixed]
    split at e
    · rename_i hcap
      cases e
      exact ⟨c, by rw [if_pos hcap, Go.bind_ok, hc.good.fixed.body hp.fixed], hc⟩
    · cases e

/-- A call leaves the cipher fit for the next, and the goroutine's memory as long as it was. -/
theorem alone_keeps {p : Cipher} (hp : Good p m key t0 t1) (mem : List U8 × List U64) (k : Call) (hf : Call.Fits mem k)
    {r : Cipher × (List U8 × List U64)} (e : alone p mem k = .ok r) : Good r.1 m key t0 t1 ∧ r.2.1.length = mem.1.length ∧ r.2.2.length = mem.2.length := by
  cases k with
  | bytes enc dst src =>
    obtain ⟨hd, hs⟩ := hf
    rw [alone_bytes, bytesCall_eq hp enc mem.1 dst src hd hs] at e
    split at e
    · rename_i hcap
      cases e
      refine ⟨bytes_call_good hp mem.1 src hcap.1 hs (body p enc (toWords (readAt mem.1 src.off (8 * m)) ++ List.replicate (key.length - m) 0#64)), ?_, rfl⟩
      have := hd.mem
      have := hp.m_le
      have := hp.keyed.len
      exact writeAt_length _ _ _ (by rw [toBytes_length, List.length_take, body_length]; omega)
    · cases e
  | words enc dst src =>
    obtain ⟨hd, hs⟩ := hf
    rw [alone_words, wordsCall_eq p enc mem.2 dst src hd hs] at e
    split at e
    · rename_i hcap
      cases e
      have := hd.mem
      have := hd.lencap
      exact ⟨hp, rfl, writeAt_length _ _ _ (by rw [body_length]; omega)⟩
    · cases e

theorem fits_length {mem mem' : List U8 × List U64} (h1 : mem'.1.length = mem.1.length) (h2 : mem'.2.length = mem.2.length) {k : Call} (h : Call.Fits mem k) : Call.Fits mem' k := by
  cases k with
  | bytes enc dst src => exact ⟨⟨h.1.lencap, by rw [h1]; exact h.1.mem⟩, ⟨h.2.lencap, by rw [h1]; exact h.2.mem⟩⟩
  | words enc dst src => exact ⟨⟨h.1.lencap, by rw [h2]; exact h.1.mem⟩, ⟨h.2.lencap, by rw [h2]; exact h.2.mem⟩⟩

theorem aloneAll_append (a b : List Call) : ∀ (c : Cipher) (mem : List U8 × List U64), aloneAll c mem (a ++ b) = (aloneAll c mem a >>= fun r => aloneAll r.1 r.2 b) := by
  induction a with
  | nil => intro c mem; rfl
  | cons k a ih =>
    intro c mem
    show (alone c mem k >>= fun r => aloneAll r.1 r.2 (a ++ b)) = ((alone c mem k >>= fun r => aloneAll r.1 r.2 a) >>= _)
    cases alone c mem k with
    | error e => rfl
    | ok r => exact ih r.1 r.2

/-- The calls still to come of a goroutine, alone: they fit, they succeed, and they lead to `fin`. -/
structure Rest (p : Cipher) (mem : List U8 × List U64) (calls : List Call) (m : Nat) (key : List U64) (t0 t1 : U64) : Prop where
  good : Good p m key t0 t1
  fits : ∀ k ∈ calls, Call.Fits mem k
  ok : ∃ r, aloneAll p mem calls = .ok r

theorem Rest.step {p : Cipher} {mem : List U8 × List U64} {k : Call} {ks : List Call} (h : Rest p mem (k :: ks) m key t0 t1) :
    ∃ r, alone p mem k = .ok r ∧ Rest r.1 r.2 ks m key t0 t1 := by
  obtain ⟨q, hq⟩ := h.ok
  unfold aloneAll at hq
  cases e : alone p mem k with
  | error f => rw [e] at hq; cases hq
  | ok r =>
    rw [e, Go.bind_ok] at hq
    obtain ⟨g, l1, l2⟩ := alone_keeps h.good mem k (h.fits k List.mem_cons_self) e
    exact ⟨r, rfl, g, fun k' hk' => fits_length l1 l2 (h.fits k' (List.mem_cons_of_mem _ hk')), q, hq⟩

/-- The state of a goroutine that began with memory `mem0` and calls `prog`, and has a private cipher `p` to compare with. -/
inductive Inv (c : Cipher) (m : Nat) (key : List U64) (t0 t1 : U64) (p : Cipher) (mem0 : List U8 × List U64) (prog : List Call) : Thread → Prop
  | idle (done calls : List Call) (cd : Cipher) (mem : List U8 × List U64) (regs : List U64) (hprog : prog = done ++ calls) (hdone : aloneAll p mem0 done = .ok (cd, mem))
      (hrest : Rest cd mem calls m key t0 t1) : Inv c m key t0 t1 p mem0 prog ⟨⟨mem.1, mem.2, regs⟩, none, [], calls⟩
  | words (done calls : List Call) (k : Call) (cd : Cipher) (mem : List U8 × List U64) (l : Loc) (todo : List Ins) (regs : List U64) (hk : Call.isBytes k = false)
      (hprog : prog = done ++ k :: calls) (hdone : aloneAll p mem0 (done ++ [k]) = .ok (cd, mem))
      (hrest : Rest cd mem calls m key t0 t1) (hp : ∀ a ∈ todo, private_ a = true) (hrun : ∀ c', Fixed c' m key t0 t1 → runIns c' l todo = .ok (c', ⟨mem.1, mem.2, regs⟩)) :
      Inv c m key t0 t1 p mem0 prog ⟨l, some k, todo, calls⟩
  | bytes (done calls : List Call) (k : Call) (cd c' : Cipher) (mem : List U8 × List U64) (l : Loc) (todo : List Ins) (regs : List U64) (hk : Call.isBytes k = true)
      (hprog : prog = done ++ k :: calls) (hdone : aloneAll p mem0 (done ++ [k]) = .ok (cd, mem))
      (hrest : Rest cd mem calls m key t0 t1) (hrun : runIns c l todo = .ok (c', ⟨mem.1, mem.2, regs⟩)) (hc' : Ready c' m key t0 t1) :
      Inv c m key t0 t1 p mem0 prog ⟨l, some k, todo, calls⟩

theorem Inv.change {c c' : Cipher} {p : Cipher} {mem0 : List U8 × List U64} {prog : List Call} {t : Thread} (h : Inv c m key t0 t1 p mem0 prog t) (hb : ¬ Busy t) :
    Inv c' m key t0 t1 p mem0 prog t := by
  cases h with
  | idle done calls cd mem regs h1 h2 h3 => exact .idle done calls cd mem regs h1 h2 h3
  | words done calls k cd mem l todo regs hk h1 h2 h3 h4 h5 => exact .words done calls k cd mem l todo regs hk h1 h2 h3 h4 h5
  | bytes done calls k cd c'' mem l todo regs hk h1 h2 h3 h4 h5 => exact absurd ⟨k, rfl, hk⟩ hb

/-- One step of a goroutine: it does not fail, its invariant is kept, the cipher changes only if it is inside a byte call, and is ready
when it returns from one. -/
theorem Inv.step {c : Cipher} (hc : Fixed c m key t0 t1) {p : Cipher} {mem0 : List U8 × List U64} {prog : List Call} {t : Thread} (h : Inv c m key t0 t1 p mem0 prog t)
    (hready : (∀ r, threadStep c t = .ok r → Busy r.2 → ¬ Busy t → Ready c m key t0 t1)) :
    ∃ c' t', threadStep c t = .ok (c', t') ∧ Fixed c' m key t0 t1 ∧ Inv c' m key t0 t1 p mem0 prog t' ∧ (¬ Busy t → c' = c) ∧ (Busy t → ¬ Busy t' → Ready c' m key t0 t1) := by
  cases h with
  | idle done calls cd mem regs h1 h2 h3 =>
    have nb : ¬ Busy ⟨⟨mem.1, mem.2, regs⟩, none, [], calls⟩ := fun ⟨k, e, _⟩ => nomatch e
    cases calls with
    | nil => exact ⟨c, _, rfl, hc, .idle done [] cd mem regs h1 h2 h3, fun _ => rfl, fun hb => absurd hb nb⟩
    | cons k ks =>
      obtain ⟨r, e, hr⟩ := h3.step
      have hd : aloneAll p mem0 (done ++ [k]) = .ok (r.1, r.2) := by
        rw [aloneAll_append, h2, Go.bind_ok]
        show (alone cd mem k >>= fun r => aloneAll r.1 r.2 []) = _
        rw [e]; rfl
      cases hk : Call.isBytes k with
      | true =>
        have hrd := hready _ rfl ⟨k, rfl, hk⟩ nb
        obtain ⟨c', e', hc'⟩ := alone_transfer hrd h3.good mem k (h3.fits k List.mem_cons_self) e
        obtain ⟨rg, e2⟩ := call_accesses c (Good.tmp1 hrd.good) (by rw [hrd.tmp2, hrd.good.keyed.len]) mem k e'
        exact ⟨c, _, rfl, hc, .bytes done ks k r.1 c' r.2 _ _ rg hk h1 hd hr e2 hc', fun _ => rfl, fun hb => absurd hb nb⟩
      | false =>
        have hp : ∀ a ∈ accesses c k, private_ a = true := accesses_private c k hk
        have hex : ∃ rg, ∀ c', Fixed c' m key t0 t1 → runIns c' ⟨mem.1, mem.2, []⟩ (accesses c k) = .ok (c', ⟨r.2.1, r.2.2, rg⟩) := by
          -- run it on the private cipher with arrays of the right length
          let q : Cipher := setTmp2 cd (List.replicate key.length 0#64)
          have hq : Ready q m key t0 t1 := ⟨⟨⟨h3.good.keyed.len, h3.good.keyed.key, h3.good.keyed.tweak⟩, h3.good.m_eq, h3.good.m_le, h3.good.tmp⟩, List.length_replicate⟩
          obtain ⟨q', e', _⟩ := alone_transfer hq h3.good mem k (h3.fits k List.mem_cons_self) e
          obtain ⟨rg, e2⟩ := call_accesses q (Good.tmp1 hq.good) (by rw [hq.tmp2, hq.good.keyed.len]) mem k e'
          rw [hq.good.fixed.accesses hc] at e2
          exact ⟨rg, runIns_private _ hq.good.fixed _ hp e2⟩
        obtain ⟨rg, e2⟩ := hex
        exact ⟨c, _, rfl, hc, .words done ks k r.1 r.2 _ _ rg hk h1 hd hr hp e2, fun _ => rfl, fun hb => absurd hb nb⟩
  | words done calls k cd mem l todo regs hk h1 h2 h3 h4 h5 =>
    have nb : ¬ Busy ⟨l, some k, todo, calls⟩ := fun ⟨k', e, hb⟩ => by cases e; rw [hk] at hb; cases hb
    cases todo with
    | nil =>
      have e := h5 c hc
      have e2 : l = ⟨mem.1, mem.2, regs⟩ := congrArg Prod.snd (Except.ok.inj e)
      refine ⟨c, _, rfl, hc, ?_, fun _ => rfl, fun hb => absurd hb nb⟩
      rw [e2]
      exact .idle (done ++ [k]) calls cd mem regs (by rw [h1, List.append_assoc]; rfl) h2 h3
    | cons a as =>
      have e := h5 c hc
      unfold runIns at e
      cases e1 : access c l a with
      | error f => rw [e1] at e; cases e
      | ok q =>
        obtain ⟨e2, e3⟩ := access_private hc l a (h4 a List.mem_cons_self) e1
        refine ⟨q.1, ⟨q.2, some k, as, calls⟩, ?_, by rw [e2]; exact hc, ?_, fun _ => e2, fun hb => absurd hb nb⟩
        · show (access c l a >>= fun r => Except.ok _) = _
          rw [e1]; rfl
        · refine .words done calls k cd mem _ _ regs hk h1 h2 h3 (fun x hx => h4 x (List.mem_cons_of_mem _ hx)) fun c' h' => ?_
          have := h5 c' h'
          unfold runIns at this
          rw [e3 c' h', Go.bind_ok] at this
          exact this
  | bytes done calls k cd c' mem l todo regs hk h1 h2 h3 h4 h5 =>
    have bz : Busy ⟨l, some k, todo, calls⟩ := ⟨k, rfl, hk⟩
    cases todo with
    | nil =>
      have e2 : l = ⟨mem.1, mem.2, regs⟩ := congrArg Prod.snd (Except.ok.inj h4)
      have e3 : c = c' := congrArg Prod.fst (Except.ok.inj h4)
      refine ⟨c, _, rfl, hc, ?_, fun _ => rfl, fun _ _ => by rw [e3]; exact h5⟩
      rw [e2]
      exact .idle (done ++ [k]) calls cd mem regs (by rw [h1, List.append_assoc]; rfl) h2 h3
    | cons a as =>
      unfold runIns at h4
      cases e1 : access c l a with
      | error f => rw [e1] at h4; cases h4
      | ok q =>
        rw [e1, Go.bind_ok] at h4
        refine ⟨q.1, ⟨q.2, some k, as, calls⟩, ?_, access_fixed hc l a e1, .bytes done calls k cd c' mem _ _ regs hk h1 h2 h3 h4 h5, fun nb => absurd bz nb, fun _ nb => absurd ⟨k, rfl, hk⟩ nb⟩
        show (access c l a >>= fun r => Except.ok _) = _
        rw [e1]; rfl

/-- The invariant of the world. -/
structure WInv (w : World) (m : Nat) (key : List U64) (t0 t1 : U64) (jobs : List Job) : Prop where
  fixed : Fixed w.cipher m key t0 t1
  len : w.threads.length = jobs.length
  inv : ∀ (j : Nat) (t : Thread) (q : Job), w.threads[j]? = some t → jobs[j]? = some q → Inv w.cipher m key t0 t1 q.2 q.1.1 q.1.2 t
  excl : ∀ (i j : Nat) (s t : Thread), w.threads[i]? = some s → w.threads[j]? = some t → Busy s → Busy t → i = j
  ready : (∀ (j : Nat) (t : Thread), w.threads[j]? = some t → ¬ Busy t) → Ready w.cipher m key t0 t1

theorem WInv.step {w : World} {jobs : List Job} (h : WInv w m key t0 t1 jobs) (j : Nat)
    (hex : ∀ w', w.step j = .ok w' → ∀ (i j : Nat) (s t : Thread), w'.threads[i]? = some s → w'.threads[j]? = some t → Busy s → Busy t → i = j) :
    ∃ w', w.step j = .ok w' ∧ WInv w' m key t0 t1 jobs := by
  cases hj : w.threads[j]? with
  | none => exact ⟨w, by unfold World.step; rw [hj], h⟩
  | some t =>
    have hlt : j < w.threads.length := (List.getElem?_eq_some_iff.1 hj).1
    obtain ⟨q, hq⟩ : ∃ q, jobs[j]? = some q := ⟨jobs[j]'(h.len ▸ hlt), List.getElem?_eq_getElem _⟩
    have hstep : ∀ r, threadStep w.cipher t = .ok r → w.step j = .ok { cipher := r.1, threads := w.threads.set j r.2 } := by
      intro r e
      unfold World.step
      rw [hj]
      dsimp only
      rw [e]; rfl
    have hset : ∀ x : Thread, (w.threads.set j x)[j]? = some x := fun x => List.getElem?_set_self hlt
    have hne : ∀ (x : Thread) (i : Nat), j ≠ i → (w.threads.set j x)[i]? = w.threads[i]? := fun x i hi => List.getElem?_set_ne hi
    obtain ⟨c', t', e, hf, hi, hk, hr⟩ := Inv.step h.fixed (h.inv j t q hj hq) (by
      intro r e hb hnb
      refine h.ready fun i s hs hbs => ?_
      have hij : j ≠ i := by rintro rfl; rw [hj] at hs; cases hs; exact hnb hbs
      exact hij (hex _ (hstep r e) j i r.2 s (hset _) (by dsimp only; rw [hne _ _ hij]; exact hs) hb hbs))
    refine ⟨_, hstep _ e, ⟨hf, by dsimp only; rw [List.length_set]; exact h.len, ?_, hex _ (hstep _ e), ?_⟩⟩
    · intro i s q' hs hq'
      by_cases hij : j = i
      · subst hij
        dsimp only at hs
        rw [hset] at hs
        cases hs
        rw [hq] at hq'; cases hq'
        exact hi
      · dsimp only at hs
        rw [hne _ _ hij] at hs
        have h1 := h.inv i s q' hs hq'
        by_cases hb : Busy t
        · exact h1.change fun hbs => hij (h.excl j i t s hj hs hb hbs)
        · dsimp only
          rw [hk hb]; exact h1
    · intro hn
      have hnb : ¬ Busy t' := hn j t' (hset _)
      by_cases hb : Busy t
      · exact hr hb hnb
      · dsimp only
        rw [hk hb]
        refine h.ready fun i s hs hbs => ?_
        have hij : j ≠ i := by rintro rfl; rw [hj] at hs; cases hs; exact hb hbs
        exact hn i s (by dsimp only; rw [hne _ _ hij]; exact hs) hbs

theorem run_append (a b : List Nat) : ∀ w : World, w.run (a ++ b) = (w.run a >>= fun w' => w'.run b) := by
  induction a with
  | nil => intro w; rfl
  | cons j a ih =>
    intro w
    show (w.step j >>= fun w' => w'.run (a ++ b)) = ((w.step j >>= fun w' => w'.run a) >>= _)
    cases w.step j with
    | error e => rfl
    | ok w' => exact ih w'

theorem exclusive_tail {w w' : World} {j : Nat} {js : List Nat} (h : Exclusive w (j :: js)) (e : w.step j = .ok w') : Exclusive w' js := by
  intro pre post w'' hs hr
  refine h (j :: pre) post w'' (by rw [hs]; rfl) ?_
  show (w.step j >>= fun w' => w'.run pre) = _
  rw [e]; exact hr

theorem WInv.run {jobs : List Job} (sched : List Nat) : ∀ {w : World} (_ : WInv w m key t0 t1 jobs) (_ : Exclusive w sched), ∃ w', w.run sched = .ok w' ∧ WInv w' m key t0 t1 jobs := by
  induction sched with
  | nil => intro w h _; exact ⟨w, rfl, h⟩
  | cons j js ih =>
    intro w h hex
    obtain ⟨w1, e1, h1⟩ := h.step j fun w' e => hex [j] js w' rfl (by show (w.step j >>= fun w' => Except.ok w') = _; rw [e]; rfl)
    obtain ⟨w2, e2, h2⟩ := ih h1 (exclusive_tail hex e1)
    exact ⟨w2, by show (w.step j >>= fun w' => w'.run js) = _; rw [e1]; exact e2, h2⟩

theorem start_inv {c : Cipher} (hc : Ready c m key t0 t1) (jobs : List Job) (hg : ∀ q ∈ jobs, Rest q.2 q.1.1 q.1.2 m key t0 t1) :
    WInv (start c (jobs.map Prod.fst)) m key t0 t1 jobs := by
  have hth : ∀ (j : Nat) (t : Thread), (start c (jobs.map Prod.fst)).threads[j]? = some t → ∃ q, jobs[j]? = some q ∧ t = ⟨⟨q.1.1.1, q.1.1.2, []⟩, none, [], q.1.2⟩ := by
    intro j t ht
    unfold start at ht
    rw [List.map_map, List.getElem?_map] at ht
    cases hq : jobs[j]? with
    | none => rw [hq] at ht; cases ht
    | some q => rw [hq] at ht; cases ht; exact ⟨q, rfl, rfl⟩
  have nb : ∀ (j : Nat) (t : Thread), (start c (jobs.map Prod.fst)).threads[j]? = some t → ¬ Busy t := by
    intro j t ht
    obtain ⟨q, _, rfl⟩ := hth j t ht
    exact fun ⟨k, e, _⟩ => nomatch e
  refine ⟨hc.good.fixed, by simp [start], ?_, fun i j s t hs _ hbs _ => absurd hbs (nb i s hs), fun _ => hc⟩
  intro j t q ht hq
  obtain ⟨q', hq', rfl⟩ := hth j t ht
  rw [hq] at hq'; cases hq'
  exact .idle [] q.1.2 q.2 q.1.1 [] rfl rfl (hg q (List.mem_of_getElem? hq))

/-! ## Progress -/

/-- Steps a goroutine still has to make. -/
def left (n m : Nat) (t : Thread) : Nat := t.todo.length + (if t.running = none then 0 else 1) + (t.calls.map (cost n m)).sum

theorem accesses_length {c : Cipher} (h : Fixed c m key t0 t1) (k : Call) : (accesses c k).length + 2 = cost key.length m k := by
  cases k with
  | bytes enc dst src =>
    simp only [accesses, List.length_append, List.length_map, List.length_range', List.length_cons, cost, Call.isBytes, if_true, h.m_eq, ← h.keyed.len]
    omega
  | words enc dst src =>
    simp only [accesses, List.length_append, List.length_map, List.length_range', List.length_cons, cost, Call.isBytes, Bool.false_eq_true, if_false, ← h.keyed.len]
    omega

theorem threadStep_left {c : Cipher} (h : Fixed c m key t0 t1) (t : Thread) {r : Cipher × Thread} (e : threadStep c t = .ok r) :
    Fixed r.1 m key t0 t1 ∧ left key.length m r.2 = left key.length m t - 1 := by
  obtain ⟨l, running, todo, calls⟩ := t
  unfold threadStep at e
  match todo, running, calls, e with
  | a :: rest, _, _, e =>
    dsimp only at e
    cases e1 : access c l a with
    | error f => rw [e1] at e; cases e
    | ok q =>
      rw [e1] at e; cases e
      refine ⟨access_fixed h l a e1, ?_⟩
      unfold left
      dsimp only [List.length_cons]
      omega
  | [], some k, calls, e =>
    cases e
    refine ⟨h, ?_⟩
    unfold left
    simp
  | [], none, k :: ks, e =>
    cases e
    refine ⟨h, ?_⟩
    have := accesses_length h k
    unfold left
    simp only [List.length_nil, List.map_cons, List.sum_cons, if_true, reduceCtorEq, if_false]
    omega
  | [], none, [], e =>
    cases e
    exact ⟨h, by simp [left]⟩

theorem step_left {w w' : World} (h : Fixed w.cipher m key t0 t1) (i : Nat) (e : w.step i = .ok w') :
    Fixed w'.cipher m key t0 t1 ∧ w'.threads.length = w.threads.length ∧
    ∀ (j : Nat) (t : Thread), w.threads[j]? = some t → ∃ t', w'.threads[j]? = some t' ∧ left key.length m t' = left key.length m t - (if i = j then 1 else 0) := by
  unfold World.step at e
  cases hi : w.threads[i]? with
  | none =>
    rw [hi] at e; cases e
    refine ⟨h, rfl, fun j t ht => ⟨t, ht, ?_⟩⟩
    rw [if_neg (by rintro rfl; rw [hi] at ht; cases ht)]; rfl
  | some s =>
    rw [hi] at e
    dsimp only at e
    cases e1 : threadStep w.cipher s with
    | error f => rw [e1] at e; cases e
    | ok r =>
      rw [e1] at e; cases e
      obtain ⟨h1, h2⟩ := threadStep_left h s e1
      refine ⟨h1, List.length_set .., fun j t ht => ?_⟩
      dsimp only
      by_cases hij : i = j
      · subst hij
        rw [hi] at ht; cases ht
        exact ⟨r.2, List.getElem?_set_self (List.getElem?_eq_some_iff.1 hi).1, by rw [if_pos rfl]; exact h2⟩
      · exact ⟨t, by rw [List.getElem?_set_ne hij]; exact ht, by rw [if_neg hij]; rfl⟩

theorem run_left (sched : List Nat) : ∀ {w w' : World} (_ : Fixed w.cipher m key t0 t1) (_ : w.run sched = .ok w') (j : Nat) (t : Thread), w.threads[j]? = some t →
    ∃ t', w'.threads[j]? = some t' ∧ left key.length m t' = left key.length m t - sched.count j := by
  induction sched with
  | nil => intro w w' _ e j t ht; cases e; exact ⟨t, ht, by simp⟩
  | cons i js ih =>
    intro w w' h e j t ht
    change (w.step i >>= fun w' => w'.run js) = _ at e
    cases e1 : w.step i with
    | error f => rw [e1] at e; cases e
    | ok w1 =>
      rw [e1, Go.bind_ok] at e
      obtain ⟨h1, _, h2⟩ := step_left h i e1
      obtain ⟨t1', ht1, hl1⟩ := h2 j t ht
      obtain ⟨t2, ht2, hl2⟩ := ih h1 e j t1' ht1
      refine ⟨t2, ht2, ?_⟩
      rw [hl2, hl1, List.count_cons]
      by_cases hij : i = j
      · subst hij; simp only [if_true, beq_self_eq_true]; omega
      · rw [if_neg hij, if_neg (by simpa using hij)]; omega

theorem finished_of_left {n m : Nat} {t : Thread} (h : left n m t = 0) : Finished t := by
  unfold left at h
  refine ⟨?_, ?_⟩
  · by_cases hr : t.running = none
    · exact hr
    · rw [if_neg hr] at h; omega
  · cases hc : t.calls with
    | nil => rfl
    | cons k ks =>
      rw [hc, List.map_cons, List.sum_cons] at h
      have : 0 < cost n m k := by unfold cost; split <;> omega
      omega

/-! ## Goroutines that make no byte calls -/

/-- Calls a goroutine is in or has still to make. -/
theorem step_calls {w w' : World} (i : Nat) (e : w.step i = .ok w') (P : Call → Prop) :
    ∀ (j : Nat) (t' : Thread), w'.threads[j]? = some t' → (∃ k, (t'.running = some k ∨ k ∈ t'.calls) ∧ P k) → ∃ t, w.threads[j]? = some t ∧ ∃ k, (t.running = some k ∨ k ∈ t.calls) ∧ P k := by
  intro j t' ht' hP
  unfold World.step at e
  cases hi : w.threads[i]? with
  | none => rw [hi] at e; cases e; exact ⟨t', ht', hP⟩
  | some s =>
    rw [hi] at e
    dsimp only at e
    cases e1 : threadStep w.cipher s with
    | error f => rw [e1] at e; cases e
    | ok r =>
      rw [e1] at e; cases e
      dsimp only at ht'
      by_cases hij : i = j
      · subst hij
        rw [List.getElem?_set_self (List.getElem?_eq_some_iff.1 hi).1] at ht'
        cases ht'
        refine ⟨s, hi, ?_⟩
        obtain ⟨k, hk, hP⟩ := hP
        refine ⟨k, ?_, hP⟩
        obtain ⟨l, running, todo, calls⟩ := s
        unfold threadStep at e1
        match todo, running, calls, e1 with
        | a :: rest, running, calls, e1 =>
          dsimp only at e1
          cases e2 : access w.cipher l a with
          | error f => rw [e2] at e1; cases e1
          | ok q => rw [e2] at e1; cases e1; exact hk
        | [], some k', calls, e1 =>
          cases e1
          rcases hk with hk | hk
          · cases hk
          · exact .inr hk
        | [], none, k' :: ks, e1 =>
          cases e1
          rcases hk with hk | hk
          · cases hk; exact .inr List.mem_cons_self
          · exact .inr (List.mem_cons_of_mem _ hk)
        | [], none, [], e1 => cases e1; exact hk
      · rw [List.getElem?_set_ne hij] at ht'
        exact ⟨t', ht', hP⟩

theorem run_calls (P : Call → Prop) (sched : List Nat) : ∀ {w w' : World} (_ : w.run sched = .ok w') (j : Nat) (t' : Thread), w'.threads[j]? = some t' →
    (∃ k, (t'.running = some k ∨ k ∈ t'.calls) ∧ P k) → ∃ t, w.threads[j]? = some t ∧ ∃ k, (t.running = some k ∨ k ∈ t.calls) ∧ P k := by
  induction sched with
  | nil => intro w w' e j t' ht' h; cases e; exact ⟨t', ht', h⟩
  | cons i js ih =>
    intro w w' e j t' ht' h
    change (w.step i >>= fun w' => w'.run js) = _ at e
    cases e1 : w.step i with
    | error f => rw [e1] at e; cases e
    | ok w1 =>
      rw [e1, Go.bind_ok] at e
      obtain ⟨t1', ht1, hk⟩ := ih e j t' ht' h
      exact step_calls i e1 P j t1' ht1 hk

/-! ## One goroutine running for a while -/

theorem run_thread (j : Nat) (as : List Ins) : ∀ (w : World) (l : Loc) (running : Option Call) (rest : List Ins) (calls : List Call) (r : Cipher × Loc),
    w.threads[j]? = some ⟨l, running, as ++ rest, calls⟩ → runIns w.cipher l as = .ok r →
    w.run (List.replicate as.length j) = .ok { cipher := r.1, threads := w.threads.set j ⟨r.2, running, rest, calls⟩ } := by
  induction as with
  | nil =>
    intro w l running rest calls r hw hr
    cases hr
    obtain ⟨hlt, e⟩ := List.getElem?_eq_some_iff.1 hw
    show Except.ok w = _
    congr 1
    obtain ⟨c, ths⟩ := w
    dsimp only at e ⊢
    congr 1
    exact (List.set_getElem_self hlt).symm.trans (by rw [e]; rfl)
  | cons a as ih =>
    intro w l running rest calls r hw hr
    unfold runIns at hr
    cases e1 : access w.cipher l a with
    | error f => rw [e1] at hr; cases hr
    | ok q =>
      rw [e1, Go.bind_ok] at hr
      have hlt := (List.getElem?_eq_some_iff.1 hw).1
      rw [List.length_cons, List.replicate_succ]
      show (w.step j >>= fun w' => w'.run _) = _
      have es : w.step j = .ok { cipher := q.1, threads := w.threads.set j ⟨q.2, running, as ++ rest, calls⟩ } := by
        unfold World.step
        rw [hw]
        show ((access w.cipher l a >>= _) >>= _) = _
        rw [e1]; rfl
      rw [es, Go.bind_ok, ih _ q.2 running rest calls r (List.getElem?_set_self hlt) hr]
      dsimp only
      rw [List.set_set]

end Verif.Lemmas.ThreefishConc
