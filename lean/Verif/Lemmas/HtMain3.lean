import Verif.Lemmas.HtMain2

/-! Lemmas for C99, C100: the runs of single tests. -/

namespace Verif.Lemmas.HtMain
open Verif Verif.Spec.HtMain Verif.Spec.HashTable Verif.Spec.Ht Verif.Model.HtMain Verif.Model.Ht Verif.Lemmas.Ht
open Verif.HashTable

section one
variable {ω : Type} {sys : Sys ω} {fl : Flags} {name : String}

theorem testMBody_eq (h : U64) (N : Nat) (hN : 0 < N) (hN' : N < 2 ^ 64) (k : Nat) (bs : List U8) (hist : List Nat) (hb : bs.length = 4) (hl : hist.length = N) :
    ∃ x, hist[h.toNat % N]? = some x ∧ testMBody (fun _ => h) (BitVec.ofNat 64 N) k (bs, hist) = .ok (leBytes 4 k, hist.set (h.toNat % N) (x + 1)) := by
  have hmod : (BitVec.ofNat 64 N).toNat = N := by rw [BitVec.toNat_ofNat, Nat.mod_eq_of_lt hN']
  have hx : (h % BitVec.ofNat 64 N).toNat = h.toNat % N := by rw [BitVec.toNat_umod, hmod]
  have hlt := Nat.mod_lt h.toNat hN
  have hg : hist[h.toNat % N]? = some (hist[h.toNat % N]'(by omega)) := List.getElem?_eq_getElem (by omega)
  refine ⟨_, hg, ?_⟩
  unfold testMBody
  dsimp only
  rw [set_eq (by omega), Go.bind_ok, set_eq (by simp; omega), Go.bind_ok, set_eq (by simp; omega), Go.bind_ok, set_eq (by simp; omega), Go.bind_ok,
    set4 hb, ← leBytes4]
  rw [if_neg (by intro h; have := congrArg BitVec.toNat h; rw [hmod] at this; simp at this; omega), hx, Go.idx, hg]
  dsimp only
  rw [Go.bind_ok, set_eq (by omega), Go.bind_ok]; rfl

theorem modLoop_eq (seed : U64) (N : Nat) (hN : 0 < N) (hN' : N < 2 ^ 64) (n : Nat) :
    ∀ (k : Nat) (w : ω) (bs : List U8) (hist : List Nat), bs.length = 4 → hist.length = N → (∀ i, k ≤ i → i < k + n → ∀ w, ∃ r, sys.hash w name (leBytes 4 i) seed = .ok r) →
      ∃ w' bs' hist' hs, modLoop sys name seed (BitVec.ofNat 64 N) k n w (bs, hist) = .ok (w', bs', hist') ∧ hist'.length = N ∧ hs.length = n ∧
        (∀ b, b < N → hist'[b]? = (hist[b]?).map (· + hs.countP fun h : U64 => h.toNat % N = b)) ∧
        ∀ G, Determined sys name G → hs = (List.range' k n).map fun i => valueOf G (leBytes 4 i) seed := by
  induction n with
  | zero =>
    intro k w bs hist hb hl _
    exact ⟨w, bs, hist, [], rfl, hl, rfl, fun b hb' => by simp, fun G hd => rfl⟩
  | succ n ih =>
    intro k w bs hist hb hl hh
    obtain ⟨⟨h, w1⟩, hr⟩ := hh k (by omega) (by omega) w
    obtain ⟨x, hx, he⟩ := testMBody_eq h N hN hN' k bs hist hb hl
    obtain ⟨w', bs', hist', hs, h1, h2, h3, h4, h5⟩ := ih (k + 1) w1 (leBytes 4 k) (hist.set (h.toNat % N) (x + 1)) (leBytes_length _ _) (by simpa using hl)
      (fun i hi1 hi2 => hh i (by omega) (by omega))
    refine ⟨w', bs', hist', h :: hs, ?_, h2, by rw [List.length_cons, h3], ?_, ?_⟩
    · rw [modLoop, ← leBytes4, hr, Go.bind_ok]
      dsimp only
      rw [he, Go.bind_ok]
      exact h1
    · intro b hb'
      rw [h4 b hb', List.countP_cons]
      by_cases e : h.toNat % N = b
      · subst e
        rw [List.getElem?_set_self (by omega), hx]
        simp
        omega
      · rw [List.getElem?_set_ne e]
        simp [e]
    · intro G hd
      have hv : valueOf G (leBytes 4 k) seed = h := by
        have := hd w (leBytes 4 k) seed
        rw [hr] at this
        unfold valueOf
        rw [← this]; rfl
      rw [h5 G hd, List.range'_succ, List.map_cons, hv]

theorem readGood {file : String} {ls : List (List U8)} (h : GoodFile sys file ls) : ReadFile (sys.files file) = ⟨ls.map strip, .ok ls.length⟩ := by
  obtain ⟨rest, h1, h2, h3, h4⟩ := h
  rw [h1]
  exact Props.C68_delivers ls rest h2 h3 h4

theorem letters_eq : letters = alphabets := by decide

theorem fileTest_chain {seed lines : Int} {file : String} {ls : List (List U8)} {st : St ω} {ht0 : HT (List U8)} (t : FileTest)
    (hnew : newTable sys fl seed lines = .ok ht0) (hpos : 0 < ht0.buckets.length) (hroom : fl.oa = true → ls.length ≤ ht0.buckets.length) (hf : GoodFile sys file ls)
    (hh : Hashes sys name (BitVec.ofInt 64 seed) (ls.map fun l => t.key (strip l))) (htr : Traces sys fl name (ls.map fun l => t.key (strip l))) :
    ∃ w' ht, runFn sys fl name seed file lines st (.file t) = .ok ({ ht := ht }, { st with w := w' }) ∧
      Table sys fl name seed ht0.buckets.length (ls.map fun l => t.key (strip l)) ht := by
  obtain ⟨w', ht, h1, h2⟩ := keys_chain hnew hpos (by simpa using hroom) hh htr st.w
  refine ⟨w', ht, ?_, h2⟩
  unfold runFn
  dsimp only
  rw [hnew, Go.bind_ok, readGood hf]
  dsimp only
  rw [List.map_map, show (t.key ∘ strip) = fun l => t.key (strip l) from rfl, h1, Go.bind_ok]
  rfl

theorem hexToBytes_eq (s : List U8) : hexToBytes s = match hexFault s with | none => .ok (unhexed s) | some e => .error e := by
  obtain ⟨h1, h2, h3, h4⟩ := Props.C67_total s
  unfold hexFault
  by_cases a : 2002 ≤ s.length
  · rw [if_pos a]; exact h1 a
  · rw [if_neg a]
    by_cases b : s.length % 2 = 1
    · rw [if_pos b]; exact h2 (by omega) b
    · rw [if_neg b]
      by_cases c : ∃ c ∈ s, digit c = none
      · rw [if_pos c]; exact h3 (by omega) (by omega) c
      · rw [if_neg c]
        obtain ⟨r, e1, e2, e3⟩ := h4 (by omega) (by omega) (fun x hx hn => c ⟨x, hx, hn⟩)
        dsimp only
        rw [e1]
        congr 1
        apply List.ext_getElem?
        intro i
        unfold unhexed
        rw [List.getElem?_map]
        rcases Nat.lt_or_ge i r.length with hi | hi
        · obtain ⟨x, y, f1, f2, f3⟩ := e3 i hi
          rw [List.getElem?_range (by omega), Option.map_some, f1, f2, f3]; rfl
        · rw [List.getElem?_eq_none hi, List.getElem?_eq_none (by simp; omega)]; rfl

theorem hashLine_eq (H : List U8 → U64 → U64) (rs : U64) (l : List U8) :
    hashLine H rs (List.replicate 1000 0#8) l = match hexFault l with | none => .ok (rs, unhexed l, H zeroKey rs) | some e => .error e := by
  unfold hashLine
  dsimp only
  rw [hexToBytes_eq]
  cases hexFault l <;> rfl

theorem hashLines_eq (rs : U64) (hh : Hashes sys name rs [zeroKey]) (ls : List (List U8)) (hls : ∀ l ∈ ls, hexFault l = none) : ∀ w,
    ∃ w' ps, hashLines sys name rs w ls = .ok (w', ps) ∧ ∀ G, Determined sys name G → ps = ls.map fun l => (rs, unhexed l, valueOf G zeroKey rs) := by
  induction ls with
  | nil => intro w; exact ⟨w, [], rfl, fun _ _ => rfl⟩
  | cons l ls ih =>
    intro w
    obtain ⟨⟨h, w1⟩, hr⟩ := hh zeroKey (by simp) w
    obtain ⟨w', ps, h1, h2⟩ := ih (fun x hx => hls x (List.mem_cons_of_mem _ hx)) w1
    refine ⟨w', (rs, unhexed l, h) :: ps, ?_, fun G hd => ?_⟩
    · rw [hashLines, show sys.hash w name (List.replicate 1000 0#8) rs = .ok (h, w1) from hr, Go.bind_ok]
      dsimp only
      rw [hashLine_eq, hls l (by simp)]
      dsimp only
      rw [Go.bind_ok, h1, Go.bind_ok]; rfl
    · have hv : valueOf G zeroKey rs = h := by
        have := hd w zeroKey rs
        rw [hr] at this
        unfold valueOf
        rw [← this]; rfl
      rw [List.map_cons, h2 G hd, ← hv]

/-- Test K's first round fails. -/
theorem hashLines_broken (rs : U64) {err : Fault} (ls : List (List U8)) :
    ((ls ≠ [] ∧ ∀ w, sys.hash w name zeroKey rs = .error err) ∨
      (Hashes sys name rs [zeroKey] ∧ ∃ before l after, ls = before ++ l :: after ∧ (∀ x ∈ before, hexFault x = none) ∧ hexFault l = some err)) →
    ∀ w, hashLines sys name rs w ls = .error err := by
  rintro (⟨h1, h2⟩ | ⟨hh, before, l, after, rfl, h2, h3⟩)
  · intro w
    obtain ⟨l, ls, rfl⟩ := List.exists_cons_of_ne_nil h1
    rw [hashLines, show sys.hash w name (List.replicate 1000 0#8) rs = .error err from h2 w]; rfl
  · induction before with
    | nil =>
      intro w
      obtain ⟨⟨h, w1⟩, hr⟩ := hh zeroKey (by simp) w
      rw [List.nil_append, hashLines, show sys.hash w name (List.replicate 1000 0#8) rs = .ok (h, w1) from hr, Go.bind_ok]
      dsimp only
      rw [hashLine_eq, h3]; rfl
    | cons x before ih =>
      intro w
      obtain ⟨⟨h, w1⟩, hr⟩ := hh zeroKey (by simp) w
      rw [List.cons_append, hashLines, show sys.hash w name (List.replicate 1000 0#8) rs = .ok (h, w1) from hr, Go.bind_ok]
      dsimp only
      rw [hashLine_eq, h2 x (by simp)]
      dsimp only
      rw [Go.bind_ok, ih (fun y hy => h2 y (List.mem_cons_of_mem _ hy))]; rfl

theorem seedLoop_eq {file : String} {ls : List (List U8)} (hf : GoodFile sys file ls) (hh : ls = [] ∨ ((∀ s, Hashes sys name s [zeroKey]) ∧ ∀ l ∈ ls, hexFault (strip l) = none)) (a : Nat) : ∀ w d,
    ∃ w' d' ps, seedLoop sys name (sys.files file) a w d = .ok (w', d', ps) ∧
      ∀ G, Determined sys name G → ps = (List.range a).flatMap fun i => ls.map fun l => (sys.rnd (d + i), unhexed (strip l), valueOf G zeroKey (sys.rnd (d + i))) := by
  induction a with
  | zero => intro w d; exact ⟨w, d, [], rfl, fun _ _ => rfl⟩
  | succ a ih =>
    intro w d
    have h0 : ∃ w' ps, hashLines sys name (sys.rnd d) w (ls.map strip) = .ok (w', ps) ∧
        ∀ G, Determined sys name G → ps = ls.map fun l => (sys.rnd d, unhexed (strip l), valueOf G zeroKey (sys.rnd d)) := by
      rcases hh with rfl | ⟨hh1, hh2⟩
      · exact ⟨w, [], rfl, fun _ _ => rfl⟩
      · obtain ⟨w', ps, h1, h2⟩ := hashLines_eq (sys := sys) (name := name) (sys.rnd d) (hh1 _) (ls.map strip) (fun l hl => by
          obtain ⟨x, hx, rfl⟩ := List.mem_map.1 hl; exact hh2 x hx) w
        exact ⟨w', ps, h1, fun G hd => by rw [h2 G hd, List.map_map]; rfl⟩
    obtain ⟨w1, ps, h1, h2⟩ := h0
    obtain ⟨w', d', qs, h3, h4⟩ := ih w1 (d + 1)
    refine ⟨w', d', ps ++ qs, ?_, fun G hd => ?_⟩
    · rw [seedLoop, readGood hf]
      dsimp only
      rw [h1, Go.bind_ok]
      dsimp only
      rw [Go.bind_ok, h3, Go.bind_ok]; rfl
    · rw [h2 G hd, h4 G hd, List.range_succ_eq_map, List.flatMap_cons, List.flatMap_map]
      simp only [Nat.add_zero]
      congr 1
      refine List.flatMap_congr fun i _ => ?_
      rw [show d + 1 + i = d + (i + 1) by omega]

theorem runFn_chain {seed lines : Int} {file : String} {ls : List (List U8)} {st : St ω} (t : String × Flag × Fn) (ht : t ∈ Tests) (hK : t.2.1 = .K → KRuns sys fl name ls)
    (hp : PrimeSizes sys fl) (he : 0 ≤ fl.extra) (he' : fl.extra ≤ 11)
    (n : Int) (hn : n = if fl.dru = true ∧ (t.2.1 = .I ∨ t.2.1 = .M) then -st.n else st.n)
    (hlo : -(2 : Int) ^ 43 ≤ sizeFor lines n t.2.1) (hM : t.2.1 = .M → 0 < n ∧ n ≤ 2 ^ 45)
    (hf : readsFile t.2.1 = true → GoodFile sys file ls)
    (hh : Hashes sys name (BitVec.ofInt 64 seed) (hashedBy ls fl.ni t.2.1)) (htr : Traces sys fl name (keysFor ls fl.ni t.2.1))
    (hroom : fl.oa = true → (keysFor ls fl.ni t.2.1).length ≤ room sys fl (sizeFor lines n t.2.1)) :
    ∃ r st', runFn sys fl name seed file lines st t.2.2 = .ok (r, st') ∧ st'.n = n ∧ Describes sys fl name seed lines n ls t.2.1 r := by
  obtain ⟨ht0, hnew, hlen⟩ := newTable_ok sys fl seed (sizeFor lines n t.2.1) hp he he' hlo
  have hpos : 0 < ht0.buckets.length := by rw [hlen]; exact room_pos hp he' hlo
  rw [← hlen] at hroom
  have file_case : ∀ (ft : FileTest) (f : Flag), f ≠ .K → f ≠ .L → f ≠ .M → sizeFor lines n f = lines → n = st.n → t.2.1 = f → t.2.2 = .file ft →
      keysFor ls fl.ni f = ls.map (fun l => ft.key (strip l)) → readsFile f = true →
      ∃ r st', runFn sys fl name seed file lines st t.2.2 = .ok (r, st') ∧ st'.n = n ∧ Describes sys fl name seed lines n ls t.2.1 r := by
    intro ft f hKne hL hMne hs hnn e1 e2 hk hr
    rw [e1] at hnew hlen hf hh htr hroom ⊢
    rw [hs] at hnew
    rw [hashedBy, if_neg hMne, hk] at hh
    rw [hk] at htr hroom
    obtain ⟨w', ht', h1, h2⟩ := fileTest_chain ft hnew hpos (by simpa using hroom) (hf hr) hh htr (st := st)
    refine ⟨{ ht := ht' }, { st with w := w', n := n }, by rw [e2, h1, hnn], rfl, ⟨?_, fun G _ => by rw [if_neg hL], fun G _ => by rw [if_neg hMne], ⟨0, fun G _ => by rw [if_neg hKne]⟩⟩⟩
    rw [hk, ← hlen]; exact h2
  have plain : ∀ {f : Flag} {keys : List (List U8)}, f ≠ .M → keysFor ls fl.ni f = keys → t.2.1 = f →
      ∃ w' ht', insertKeys sys fl name st.w ht0 keys = .ok (w', ht') ∧ Table sys fl name seed ht0.buckets.length keys ht' := by
    intro f keys hMne hk e1
    rw [e1] at hh htr hroom
    rw [hashedBy, if_neg hMne, hk] at hh
    rw [hk] at htr hroom
    exact keys_chain hnew hpos hroom hh htr st.w
  simp only [Tests, List.mem_cons, List.not_mem_nil, or_false] at ht
  have nofl : ∀ f : Flag, f ≠ .I → f ≠ .M → t.2.1 = f → n = st.n := by
    intro f h1 h2 e
    rw [hn, e, if_neg (by rintro ⟨_, h | h⟩; exact h1 h; exact h2 h)]
  rcases ht with h | h | h | h | h | h | h | h | h | h | h | h | h
  · exact file_case .A .A (by decide) (by decide) (by decide) rfl (nofl .A (by decide) (by decide) (by rw [h])) (by rw [h]) (by rw [h]) rfl rfl
  · exact file_case .B .B (by decide) (by decide) (by decide) rfl (nofl .B (by decide) (by decide) (by rw [h])) (by rw [h]) (by rw [h]) rfl rfl
  · exact file_case .C .C (by decide) (by decide) (by decide) rfl (nofl .C (by decide) (by decide) (by rw [h])) (by rw [h]) (by rw [h])
      (by simp [keysFor, FileTest.key]) rfl
  · exact file_case .D .D (by decide) (by decide) (by decide) rfl (nofl .D (by decide) (by decide) (by rw [h])) (by rw [h]) (by rw [h]) rfl rfl
  · exact file_case .E .E (by decide) (by decide) (by decide) rfl (nofl .E (by decide) (by decide) (by rw [h])) (by rw [h]) (by rw [h]) rfl rfl
  · exact file_case .F .F (by decide) (by decide) (by decide) rfl (nofl .F (by decide) (by decide) (by rw [h])) (by rw [h]) (by rw [h]) rfl rfl
  · exact file_case .F .G (by decide) (by decide) (by decide) rfl (nofl .G (by decide) (by decide) (by rw [h])) (by rw [h]) (by rw [h]) rfl rfl
  · -- H
    have e1 : t.2.1 = .H := by rw [h]
    have e2 : t.2.2 = .H := by rw [h]
    have hw : genWords letters = ⟨(combos alphabets).map spell, .ok ()⟩ := by
      rw [letters_eq]; exact genWords_eq (by decide) (by decide)
    have hwl : ((combos alphabets).map spell).length = 262144 := by
      have := Props.C65_testH.2.1
      rw [hw] at this; exact this
    obtain ⟨w', ht', h1, h2⟩ := plain (by decide) rfl e1
    refine ⟨{ ht := ht' }, { st with w := w', n := n }, ?_, rfl, ⟨by rw [e1] at hlen ⊢; rw [← hlen]; exact h2, fun G _ => by rw [e1, if_neg (by decide)], fun G _ => by rw [e1, if_neg (by decide)],
      ⟨0, fun G _ => by rw [e1, if_neg (by decide)]⟩⟩⟩
    rw [e2]
    unfold runFn
    dsimp only
    rw [hw]
    dsimp only
    rw [Go.bind_ok, hwl]
    rw [e1] at hnew
    rw [show newTable sys fl seed ((262144 : Nat) : Int) = .ok ht0 from hnew, Go.bind_ok, show insertKeys sys fl name st.w ht0 ((combos alphabets).map spell) = .ok (w', ht') from h1,
      Go.bind_ok, nofl .H (by decide) (by decide) e1]
    rfl
  · -- I
    have e1 : t.2.1 = .I := by rw [h]
    have e2 : t.2.2 = .I := by rw [h]
    have hnn : n = if fl.dru = true then -st.n else st.n := by rw [hn, e1]; simp
    obtain ⟨w', ht', h1, h2⟩ := plain (by decide) rfl e1
    refine ⟨{ ht := ht' }, { st with w := w', n := n }, ?_, rfl, ⟨by rw [e1] at hlen ⊢; rw [← hlen]; exact h2, fun G _ => by rw [e1, if_neg (by decide)], fun G _ => by rw [e1, if_neg (by decide)],
      ⟨0, fun G _ => by rw [e1, if_neg (by decide)]⟩⟩⟩
    rw [e2]
    unfold runFn
    dsimp only
    obtain ⟨bs, hI⟩ := testI_eq fl.ni
    rw [e1] at hnew
    rw [← hnn, show newTable sys fl seed n = .ok ht0 from hnew, Go.bind_ok, hI, Go.bind_ok]
    dsimp only
    rw [show insertKeys sys fl name st.w ht0 ((List.range fl.ni.toNat).map (leBytes 4)) = .ok (w', ht') from h1, Go.bind_ok]
    rfl
  · -- J
    have e1 : t.2.1 = .J := by rw [h]
    have e2 : t.2.2 = .J := by rw [h]
    obtain ⟨w', ht', h1, h2⟩ := plain (by decide) rfl e1
    refine ⟨{ ht := ht' }, { st with w := w', n := n }, ?_, rfl, ⟨by rw [e1] at hlen ⊢; rw [← hlen]; exact h2, fun G _ => by rw [e1, if_neg (by decide)], fun G _ => by rw [e1, if_neg (by decide)],
      ⟨0, fun G _ => by rw [e1, if_neg (by decide)]⟩⟩⟩
    rw [e2]
    unfold runFn
    dsimp only
    obtain ⟨bs, hI⟩ := testJ_eq 900
    rw [e1] at hnew
    rw [show newTable sys fl seed (900 * 8) = .ok ht0 from hnew, Go.bind_ok, hI, Go.bind_ok]
    dsimp only
    rw [show insertKeys sys fl name st.w ht0 ((List.range (8 * 900)).map fun j => leBytes 900 (2 ^ j)) = .ok (w', ht') from h1, Go.bind_ok, nofl .J (by decide) (by decide) e1]
    rfl
  · -- K
    have e1 : t.2.1 = .K := by rw [h]
    have e2 : t.2.2 = .K := by rw [h]
    rw [e1] at hnew hlen hf ⊢
    have hgood := hf rfl
    have hns : (BitVec.ofInt 64 fl.ns).toNat = (fl.ns % 2 ^ 64).toNat := by rw [BitVec.toNat_ofInt]; rfl
    have key : ∃ w' d' ps, seedLoop sys name (sys.files file) (fl.ns % 2 ^ 64).toNat st.w st.drawn = .ok (w', d', ps) ∧
        ∀ G, Determined sys name G → ps = (List.range (fl.ns % 2 ^ 64).toNat).flatMap fun i => ls.map fun l => (sys.rnd (st.drawn + i), unhexed (strip l), valueOf G zeroKey (sys.rnd (st.drawn + i))) := by
      rcases hK e1 with h0 | h0
      · rw [h0]; exact ⟨st.w, st.drawn, [], rfl, fun _ _ => rfl⟩
      · exact seedLoop_eq hgood h0 _ _ _
    obtain ⟨w', d', ps, h1, h2⟩ := key
    refine ⟨{ ht := ht0, printed := ps }, { st with w := w', drawn := d' }, ?_, (nofl .K (by decide) (by decide) e1).symm, ⟨?_, fun G _ => by rw [if_neg (by decide)], fun G _ => by rw [if_neg (by decide)],
      ⟨st.drawn, fun G hd => by rw [if_pos rfl]; exact h2 G hd⟩⟩⟩
    · rw [e2]
      unfold runFn
      dsimp only
      rw [show newTable sys fl seed lines = .ok ht0 from hnew, Go.bind_ok, hns, h1, Go.bind_ok]; rfl
    · rw [← hlen]
      exact table_of (keys := []) hnew hpos (fun k hk => (nomatch hk)) (fun _ => Nat.zero_le _) (stats_new hnew hpos) rfl (fun G hd => rfl)
  · -- L
    have e1 : t.2.1 = .L := by rw [h]
    have e2 : t.2.2 = .L := by rw [h]
    rw [e1] at hh htr hnew hlen hroom ⊢
    rw [hashedBy, if_neg (by decide)] at hh
    obtain ⟨w', ht', hs, h1, h2, h3⟩ := keysL_chain hnew hpos hroom hh htr st.w
    refine ⟨{ ht := ht', dups2 := hs.length - hs.dedup.length }, { st with w := w', n := n }, ?_, rfl, ⟨by rw [← hlen]; exact h2, fun G hd => ?_, fun G _ => by rw [if_neg (by decide)],
      ⟨0, fun G _ => by rw [if_neg (by decide)]⟩⟩⟩
    · rw [e2]
      unfold runFn
      dsimp only
      obtain ⟨bs, hI⟩ := testL_eq
      rw [show newTable sys fl seed (256 * 256 * 256) = .ok ht0 from hnew, Go.bind_ok, hI, Go.bind_ok]
      dsimp only
      rw [show insertL sys fl name st.w ht0 [] ((List.range (256 * (256 * 256))).map (beBytes 3)) = .ok (w', ht', hs) from h1, Go.bind_ok, nofl .L (by decide) (by decide) e1]
      rfl
    · rw [if_pos rfl, h3 G hd, List.card_toFinset, List.length_map]
  · -- M
    have e1 : t.2.1 = .M := by rw [h]
    have e2 : t.2.2 = .M := by rw [h]
    have hnn : n = if fl.dru = true then -st.n else st.n := by rw [hn, e1]; simp
    obtain ⟨hn0, hn1⟩ := hM e1
    rw [e1] at hh htr hnew hlen ⊢
    rw [hashedBy, if_pos rfl] at hh
    have hsd := newTable_seed hnew
    obtain ⟨N, rfl⟩ := Int.eq_ofNat_of_zero_le (Int.le_of_lt hn0)
    obtain ⟨w', bs', hist', hs, h1, h2, h3, h4, h5⟩ := modLoop_eq (sys := sys) (name := name) ht0.seed N (by omega) (by omega) fl.ni.toNat 0 st.w (List.replicate 4 0#8)
      (List.replicate N 0) (by simp) (by simp) (fun i _ hi w => by
        rw [hsd]
        exact hh (leBytes 4 i) (List.mem_map_of_mem (List.mem_range.2 (by omega))) w)
    refine ⟨{ ht := ht0, hist := hist' }, { st with w := w', n := (N : Int) }, ?_, rfl, ⟨?_, fun G _ => by rw [if_neg (by decide)], fun G hd => ?_,
      ⟨0, fun G _ => by rw [if_neg (by decide)]⟩⟩⟩
    · rw [e2]
      unfold runFn
      dsimp only
      rw [← hnn, if_neg (by omega), show newTable sys fl seed (N : Int) = .ok ht0 from hnew, Go.bind_ok, Int.toNat_natCast, BitVec.ofInt_natCast, h1, Go.bind_ok, if_neg (by omega)]
      rfl
    · rw [← hlen]
      exact table_of (keys := []) hnew hpos (fun k hk => (nomatch hk)) (fun _ => Nat.zero_le _) (stats_new hnew hpos) rfl (fun G hd => rfl)
    · rw [if_pos rfl, Int.toNat_natCast]
      apply List.ext_getElem?
      intro b
      rcases Nat.lt_or_ge b N with hb | hb
      · rw [h4 b hb, List.getElem?_replicate, if_pos hb, h5 G hd, List.getElem?_map, List.getElem?_range hb, ← List.range_eq_range', hsd]
        simp only [Option.map_some, Nat.zero_add, List.countP_map, binCount]
        rfl
      · rw [List.getElem?_eq_none (show hist'.length ≤ b by omega), List.getElem?_eq_none (by simp; omega)]

end one

end Verif.Lemmas.HtMain
