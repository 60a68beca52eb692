import Verif.Lemmas.HtMain

/-! Lemmas for C99, C100: new tables, and the runs of single tests. -/

namespace Verif.Lemmas.HtMain
open Verif Verif.Spec.HtMain Verif.Spec.HashTable Verif.Model.HtMain
open Verif.HashTable

theorem log_eq (x : U32) : (nextLog2 x).toNat = if x.toNat = 1 then 1 else Nat.clog 2 x.toNat := by
  rcases Nat.lt_or_ge x.toNat 2 with h | h
  · rcases (by omega : x.toNat = 0 ∨ x.toNat = 1) with h | h
    · have : x = 0#32 := BitVec.eq_of_toNat_eq h
      subst this
      decide
    · have : x = 1#32 := BitVec.eq_of_toNat_eq h
      subst this
      decide
  · rw [if_neg (by omega)]
    obtain ⟨h1, h2⟩ := Props.C01_nextLog2_least x h
    exact Nat.le_antisymm (h2 _ (Nat.le_pow_clog (by decide) _)) (Nat.clog_le_of_le_pow h1)

theorem slots_pos {extra : Nat} {size : Int} : 0 < slots extra size := by
  unfold slots
  split
  · omega
  · exact Nat.two_pow_pos _

theorem tableSize_eq {np : Int → Int} {size extra : Int} (he : 0 ≤ extra) (he' : extra ≤ 11) (hs : -(2 : Int) ^ 43 ≤ size) :
    (tableSize np size extra false).1.toNat = slots extra.toNat size ∧ slots extra.toNat size * 24 ≤ 2 ^ 48 := by
  obtain ⟨e, hee⟩ := Int.eq_ofNat_of_zero_le he
  subst hee
  unfold slots
  by_cases hneg : size < 0
  · simp only [tableSize, hneg, if_true, Bool.false_eq_true, if_false]
    obtain ⟨m, hm⟩ := Int.eq_ofNat_of_zero_le (show 0 ≤ -size by omega)
    rw [hm, BitVec.ofInt_natCast, BitVec.toNat_ofNat, Nat.mod_eq_of_lt (by omega)]
    omega
  · simp only [tableSize, hneg, if_false, Bool.false_eq_true]
    obtain ⟨m, hm⟩ := Int.eq_ofNat_of_zero_le (show 0 ≤ size by omega)
    subst hm
    have hx : (BitVec.ofInt 32 (m : Int)).toNat = m % 2 ^ 32 := by rw [BitVec.ofInt_natCast, BitVec.toNat_ofNat]
    have hL := log_eq (BitVec.ofInt 32 (m : Int))
    have hc := (Props.C01_nextLog2_covers (BitVec.ofInt 32 (m : Int))).2
    rw [hx] at hL
    rw [hL] at hc
    rw [Int.toNat_natCast, Int.toNat_natCast]
    generalize (if m % 2 ^ 32 = 1 then 1 else Nat.clog 2 (m % 2 ^ 32)) = L at hL hc
    have hadd : (nextLog2 (BitVec.ofInt 32 (m : Int)) + BitVec.ofInt 32 (e : Int)).toNat = L + e := by
      rw [BitVec.toNat_add, hL, BitVec.ofInt_natCast, BitVec.toNat_ofNat, Nat.mod_eq_of_lt (a := e) (by omega)]
      exact Nat.mod_eq_of_lt (by omega)
    constructor
    · rw [BitVec.shiftLeft_eq', BitVec.toNat_shiftLeft, BitVec.toNat_setWidth, hadd, Nat.mod_eq_of_lt (a := L + e) (by omega), Nat.shiftLeft_eq]
      simp only [BitVec.toNat_ofNat]
      rw [Nat.mod_eq_of_lt (a := 1) (by omega), Nat.one_mul]
      exact Nat.mod_eq_of_lt (Nat.pow_lt_pow_right (by omega) (by omega))
    · have : 2 ^ (L + e) ≤ 2 ^ 43 := Nat.pow_le_pow_right (by omega) (by omega)
      omega

theorem slots_le {extra : Nat} {size : Int} (he : extra ≤ 11) (hs : -(2 : Int) ^ 43 ≤ size) : slots extra size ≤ 2 ^ 43 := by
  have h := (tableSize_eq (np := fun x => x) (extra := (extra : Int)) (size := size) (by omega) (by omega) hs).2
  unfold slots at h ⊢
  split
  · omega
  · rename_i hneg
    rw [if_neg hneg, Int.toNat_natCast] at h
    obtain ⟨m, hm⟩ := Int.eq_ofNat_of_zero_le (show 0 ≤ size by omega)
    subst hm
    have hx : (BitVec.ofInt 32 (m : Int)).toNat = m % 2 ^ 32 := by rw [BitVec.ofInt_natCast, BitVec.toNat_ofNat]
    have hL := log_eq (BitVec.ofInt 32 (m : Int))
    have hc := (Props.C01_nextLog2_covers (BitVec.ofInt 32 (m : Int))).2
    rw [hx] at hL
    rw [hL] at hc
    rw [Int.toNat_natCast]
    exact Nat.pow_le_pow_right (by omega) (by omega)

theorem tableSize_prime (np : Int → Int) (size extra : Int) :
    (tableSize np size extra true).1 = BitVec.ofInt 64 (np (tableSize np size extra false).1.toInt) := by
  unfold tableSize
  split <;> rfl

theorem room_pos {ω : Type} {sys : Sys ω} {fl : Flags} {size : Int} (hp : PrimeSizes sys fl) (he' : fl.extra ≤ 11) (hs : -(2 : Int) ^ 43 ≤ size) : 0 < room sys fl size := by
  unfold room
  split
  · rename_i h
    have := (hp h _ slots_pos (slots_le (extra := fl.extra.toNat) (size := size) (by omega) hs)).1
    have := slots_pos (extra := fl.extra.toNat) (size := size)
    omega
  · exact slots_pos

theorem newTable_ok {ω : Type} (sys : Sys ω) (fl : Flags) (seed size : Int) (hp : PrimeSizes sys fl) (he : 0 ≤ fl.extra) (he' : fl.extra ≤ 11) (hs : -(2 : Int) ^ 43 ≤ size) :
    ∃ ht0, newTable sys fl seed size = .ok ht0 ∧ ht0.buckets.length = room sys fl size := by
  obtain ⟨h1, h2⟩ := tableSize_eq (np := sys.nextPrime) he he' hs
  have h0 := slots_pos (extra := fl.extra.toNat) (size := size)
  have h3 := slots_le (extra := fl.extra.toNat) (size := size) (by omega) hs
  have key : (tableSize sys.nextPrime size fl.extra fl.prime).1.toNat = room sys fl size ∧ room sys fl size * 24 ≤ 2 ^ 48 := by
    unfold room
    cases hb : fl.prime with
    | false => exact ⟨h1, h2⟩
    | true =>
      obtain ⟨h4, h5⟩ := hp hb _ h0 h3
      rw [if_pos rfl, tableSize_prime]
      have hi : (tableSize sys.nextPrime size fl.extra false).1.toInt = (slots fl.extra.toNat size : Int) := by
        rw [BitVec.toInt_eq_toNat_of_lt (by rw [h1]; omega), h1]
      rw [hi]
      obtain ⟨q, hq⟩ := Int.eq_ofNat_of_zero_le (show 0 ≤ sys.nextPrime (slots fl.extra.toNat size) by omega)
      rw [hq] at h5 ⊢
      rw [BitVec.ofInt_natCast, BitVec.toNat_ofNat, Int.toNat_natCast, Nat.mod_eq_of_lt (by omega)]
      exact ⟨rfl, by omega⟩
  unfold newTable newHashTable
  dsimp only
  rw [if_pos (by rw [key.1]; exact key.2)]
  exact ⟨_, rfl, by rw [List.length_replicate, key.1]⟩

section one
variable {ω : Type} {sys : Sys ω} {fl : Flags} {name : String}

theorem newTable_seed {seed size : Int} {ht0 : HT (List U8)} (h : newTable sys fl seed size = .ok ht0) : ht0.seed = BitVec.ofInt 64 seed :=
  (newHashTable_ok h).2.2.2.2.2.2.2.2.2.2.2.2

theorem chainStats_new {seed size : Int} {ht0 : HT (List U8)} (hoa : fl.oa = false) (h : newTable sys fl seed size = .ok ht0) (hpos : 0 < ht0.buckets.length) :
    ChainStats [] ht0 := by
  have wf := newHashTable_wf h hpos
  obtain ⟨h1, h2, h3, h4, h5, h6, h7, h8, h9, h10, h11, _, _⟩ := newHashTable_ok h
  refine ⟨wf, by rw [h3, hoa], by simp [h5], by simp [h7], h6, ?_, by simp [h8, h10], ?_⟩
  · rw [h8, h1, occupied_replicate]
  · rw [h11, h1, longest_replicate]; rfl

theorem fine_new {seed size : Int} {ht0 : HT (List U8)} (h : newTable sys fl seed size = .ok ht0) : Fine sys name ht0 := by
  intro b hb x hx
  rw [(newHashTable_ok h).1] at hb
  rw [List.eq_of_mem_replicate hb] at hx
  exact nomatch hx

theorem stats_new {seed size : Int} {ht0 : HT (List U8)} (h : newTable sys fl seed size = .ok ht0) (hpos : 0 < ht0.buckets.length) : Stats fl [] ht0 := by
  refine ⟨fun ho => chainStats_new ho h hpos, fun ho => ?_⟩
  have wf := newHashTable_wf h hpos
  obtain ⟨h1, h2, h3, h4, h5, h6, h7, h8, h9, h10, h11, _, _⟩ := newHashTable_ok h
  refine ⟨wf, by rw [h3, ho], by simp [h5], by simp [h8], h10, h11, ?_, ?_⟩
  · intro b hb; rw [h1] at hb; rw [List.eq_of_mem_replicate hb]; simp
  · rw [h1]; simp

theorem counted {keys : List (List U8)} {ht : HT (List U8)} (h : ChainStats keys ht) : Counted keys ht :=
  ⟨h.inserts, h.probes, h.cols, h.heads, by have := h.nb; omega, h.long⟩

theorem filled {seed size : Int} {ht0 ht : HT (List U8)} {keys : List (List U8)} {H : List U8 → U64 → U64} (hoa : fl.oa = false)
    (h : newTable sys fl seed size = .ok ht0) (hpos : 0 < ht0.buckets.length) (htr : Traces sys fl name keys)
    (hall : insertAll (pureEnv H (env sys fl name).traceOK) () ht0 keys = .ok ((), ht)) :
    Filled fl.prime ht0.buckets.length (fun k => H k (BitVec.ofInt 64 seed)) keys ht := by
  have h' := h
  unfold newTable at h'
  rw [hoa] at h'
  obtain ⟨ht', h1, h2⟩ := Props.chain_main H (env sys fl name).traceOK _ _ _ _ _ _ ht0 keys htr h' hpos
  rw [hall] at h1
  cases Except.ok.inj h1
  have hl0 : ht0.buckets.length = ht0.size.toNat := (newHashTable_wf h hpos).len
  have hl : ht.buckets.length = ht0.size.toNat := by rw [h2.wf.len, h2.hsize]
  have hsd := newTable_seed h
  refine ⟨?_, by rw [h2.dups, hsd]⟩
  apply List.ext_getElem?
  intro i
  rw [← hsd]
  rcases Nat.lt_or_ge i ht0.size.toNat with hi | hi
  · rw [h2.data i hi, List.getElem?_map, List.getElem?_range (by omega), Option.map_some, hl0]
  · rw [List.getElem?_eq_none (by omega), List.getElem?_eq_none (by simp; omega)]

theorem openFilled {seed size : Int} {ht0 ht : HT (List U8)} {keys : List (List U8)} {H : List U8 → U64 → U64} (hoa : fl.oa = true)
    (h : newTable sys fl seed size = .ok ht0) (hpos : 0 < ht0.buckets.length) (htr : Traces sys fl name keys) (hroom : keys.length ≤ ht0.buckets.length)
    (hall : insertAll (pureEnv H (env sys fl name).traceOK) () ht0 keys = .ok ((), ht)) :
    OpenFilled fl.prime ht0.buckets.length (fun k => H k (BitVec.ofInt 64 seed)) keys ht := by
  have hsd := newTable_seed h
  have h' := h
  unfold newTable at h'
  rw [hoa] at h'
  obtain ⟨ht', h1, h2⟩ := Props.oa_main H (env sys fl name).traceOK _ _ _ _ _ _ ht0 keys htr h' hroom hpos
  rw [hall] at h1
  cases Except.ok.inj h1
  rw [(newHashTable_wf h hpos).len, ← hsd]
  exact ⟨h2.probe, h2.probes, h2.cols, h2.dups⟩

theorem table_of {seed size : Int} {ht0 ht : HT (List U8)} {keys : List (List U8)} (h : newTable sys fl seed size = .ok ht0) (hpos : 0 < ht0.buckets.length)
    (htr : Traces sys fl name keys) (hroom : fl.oa = true → keys.length ≤ ht0.buckets.length) (hst : Stats fl keys ht) (hsize : ht.size = ht0.size)
    (hall : ∀ G, Determined sys name G → insertAll (pureEnv (valueOf G) (env sys fl name).traceOK) () ht0 keys = .ok ((), ht)) :
    Table sys fl name seed ht0.buckets.length keys ht := by
  refine ⟨by rw [hst.wf.len, (newHashTable_wf h hpos).len, hsize], fun ho => counted (hst.1 ho), fun ho G hd => ?_, fun ho => (hst.2 ho).opened, fun ho G hd => ?_⟩
  · exact filled ho h hpos htr (hall G hd)
  · exact openFilled ho h hpos htr (hroom ho) (hall G hd)

theorem keys_chain {seed size : Int} {ht0 : HT (List U8)} {keys : List (List U8)} (h : newTable sys fl seed size = .ok ht0)
    (hpos : 0 < ht0.buckets.length) (hroom : fl.oa = true → keys.length ≤ ht0.buckets.length)
    (hh : Hashes sys name (BitVec.ofInt 64 seed) keys) (htr : Traces sys fl name keys) (w : ω) :
    ∃ w' ht, insertKeys sys fl name w ht0 keys = .ok (w', ht) ∧ Table sys fl name seed ht0.buckets.length keys ht := by
  have hsd := newTable_seed h
  have wf := newHashTable_wf h hpos
  obtain ⟨w', ht, h1, h2, h3, _, _⟩ := insertKeys_stats _ keys hh htr [] w ht0 hsd (fine_new h) (stats_new h hpos) (by rw [← wf.len]; exact hroom)
  rw [List.nil_append] at h2
  refine ⟨w', ht, h1, table_of h hpos htr hroom h2 h3 fun G hd => ?_⟩
  rcases map_snd_cases (insertKeys_pure (fl := fl) hd _ keys hh htr w ht0 wf hsd (fine_new h)) with ⟨f, h4, _⟩ | ⟨w2, u, ht2, h4, h5⟩
  · rw [h1] at h4; exact nomatch h4
  · rw [h1] at h4
    cases Except.ok.inj h4
    exact h5

theorem keysL_chain {seed size : Int} {ht0 : HT (List U8)} {keys : List (List U8)} (h : newTable sys fl seed size = .ok ht0)
    (hpos : 0 < ht0.buckets.length) (hroom : fl.oa = true → keys.length ≤ ht0.buckets.length)
    (hh : Hashes sys name (BitVec.ofInt 64 seed) keys) (htr : Traces sys fl name keys) (w : ω) :
    ∃ w' ht hs, insertL sys fl name w ht0 [] keys = .ok (w', ht, hs) ∧ Table sys fl name seed ht0.buckets.length keys ht ∧
      ∀ G, Determined sys name G → hs = keys.map fun k => valueOf G k (BitVec.ofInt 64 seed) := by
  have hsd := newTable_seed h
  have wf := newHashTable_wf h hpos
  obtain ⟨w', ht, hs, h1, h2, h3, _, _⟩ := insertL_stats _ keys hh htr [] w ht0 [] hsd (fine_new h) (stats_new h hpos) (by rw [← wf.len]; exact hroom)
  rw [List.nil_append] at h2
  have key : ∀ G, Determined sys name G → insertAll (pureEnv (valueOf G) (env sys fl name).traceOK) () ht0 keys = .ok ((), ht) ∧
      hs = keys.map fun k => valueOf G k (BitVec.ofInt 64 seed) := by
    intro G hd
    have := insertL_pure (fl := fl) hd _ keys hh htr w ht0 [] wf hsd (fine_new h)
    rw [h1] at this
    cases hi : insertAll (pureEnv (valueOf G) (env sys fl name).traceOK) () ht0 keys with
    | error f => rw [hi] at this; exact nomatch this
    | ok p =>
      rw [hi] at this
      have e := Except.ok.inj this
      rw [List.nil_append] at e
      cases e
      exact ⟨rfl, rfl⟩
  exact ⟨w', ht, hs, h1, table_of h hpos htr hroom h2 h3 fun G hd => (key G hd).1, fun G hd => (key G hd).2⟩

end one

end Verif.Lemmas.HtMain
