import Verif.Lemmas.SipHashPg

/-! # Properties of packages siphash and siphashpg (C13-C18) -/

namespace Verif.Props
open Verif.Model.SipHash Verif.Lemmas.SipHash

/-! ## C13, C14: the one-shot functions are SipHash-2-4 -/

/-- C13. `Hash` returns SipHash-2-4 of the message, for every key and message; it never faults. -/
theorem C13_hash_is_siphash24 (k0 k1 : U64) (p : List U8) :
    Hash k0 k1 p = .ok (Spec.SipHash.hash64 2 4 k0 k1 p) := Hash_eq k0 k1 p

/-- C14. `Hash128` returns SipHash-2-4 with 128-bit output. -/
theorem C14_hash128_is_siphash24_128 (k0 k1 : U64) (p : List U8) :
    Hash128 k0 k1 p = .ok (Spec.SipHash.hash128 2 4 k0 k1 p) := Hash128_eq k0 k1 p

/-! ## C15: streaming equals one-shot -/

theorem newDigest_good (size : Nat) (hs : size = 8 ∨ size = 16) (key : List U8) (hk : 16 ≤ key.length) :
    ∃ d, newDigest size key = .ok d ∧ d.size = size ∧ d.t = 0#8 ∧ d.k0 = le64 key ∧ d.k1 = le64 (key.drop 8) ∧
      J (if size = 8 then init64 (le64 key) (le64 (key.drop 8)) else init128 (le64 key) (le64 (key.drop 8))) d [] := by
  have hn : ¬ (size ≠ 8 ∧ size ≠ 16) := by omega
  simp only [newDigest, if_neg hn, load_eq (by omega : 8 ≤ key.length),
    load_eq (by simp; omega : 8 ≤ (key.drop 8).length), bind, Except.bind]
  refine ⟨_, rfl, ?_⟩
  rcases hs with rfl | rfl
  · exact ⟨rfl, rfl, rfl, rfl, rfl, rfl, rfl, rfl⟩
  · exact ⟨rfl, rfl, rfl, rfl, rfl, rfl, rfl, rfl⟩

theorem writes_ok {s0 : V} (ps : List (List U8)) {d : Digest} {m : List U8} (h : J s0 d m)
    (ht : d.t = BitVec.ofNat 8 m.length) :
    ∃ d', d.writes ps = .ok d' ∧ J s0 d' (m ++ ps.flatten) ∧ d'.t = BitVec.ofNat 8 (m ++ ps.flatten).length ∧
      d'.size = d.size ∧ d'.k0 = d.k0 ∧ d'.k1 = d.k1 := by
  induction ps generalizing d m with
  | nil => exact ⟨d, rfl, by simpa using h, by simpa using ht, rfl, rfl, rfl⟩
  | cons p ps ih =>
    obtain ⟨d1, e, j, hk0, hk1, hsz, ht1⟩ := write_ok p h
    have ht2 : d1.t = BitVec.ofNat 8 (m ++ p).length := by
      rw [ht1, ht, List.length_append, BitVec.ofNat_add]
    obtain ⟨d2, e2, j2, t2, s2, a2, b2⟩ := ih j ht2
    refine ⟨d2, ?_, by simpa using j2, by simpa using t2, s2.trans hsz, a2.trans hk0, b2.trans hk1⟩
    simp only [Digest.writes, e, bind, Except.bind, e2]

/-- C15 (64 bit). Writing a message in any pieces and asking for `Sum64` gives `Hash` of the whole
message under the two little-endian halves of the key. -/
theorem C15_stream64 (key : List U8) (hk : key.length = 16) (chunks : List (List U8)) :
    (do let d ← newDigest 8 key
        let d ← d.writes chunks
        let (_, r) ← d.sum64
        return r) = Hash (le64 key) (le64 (key.drop 8)) chunks.flatten := by
  obtain ⟨d, e, hs, ht, _, _, j⟩ := newDigest_good 8 (Or.inl rfl) key (by omega)
  obtain ⟨d2, e2, j2, t2, _⟩ := writes_ok chunks j ht
  rw [Hash_eq]
  simp only [e, bind, Except.bind, e2]
  simp only [if_true, List.nil_append] at j2 t2
  rw [sum64_ok j2 t2]
  rfl

/-- C15 (128 bit). The bytes appended by `Sum` on a `New128` digest are the two little-endian words
returned by `Hash128` on the whole message. -/
theorem C15_stream128 (key : List U8) (hk : key.length = 16) (chunks : List (List U8)) (b : List U8) :
    (do let d ← newDigest 16 key
        let d ← d.writes chunks
        let (_, r) ← d.sum b
        return r) = (do
        let (r0, r1) ← Hash128 (le64 key) (le64 (key.drop 8)) chunks.flatten
        return b ++ leBytes 8 r0.toNat ++ leBytes 8 r1.toNat) := by
  obtain ⟨d, e, hs, ht, _, _, j⟩ := newDigest_good 16 (Or.inr rfl) key (by omega)
  obtain ⟨d2, e2, j2, t2, s2, _⟩ := writes_ok chunks j ht
  have hne : ¬ d2.size = 8 := by rw [s2, hs]; decide
  have h16 : ¬ (16 = 8) := by decide
  simp only [List.nil_append, if_neg h16] at j2 t2
  rw [Hash128_eq]
  simp only [e, bind, Except.bind, e2, Digest.sum, if_neg hne]
  rw [sum128_ok j2 t2]
  simp only [bytesOf_eq, ← List.append_assoc]
  rfl

/-- The hypothesis of C15 is met: a key, three writes (one empty), and the answer from the test
vector of siphash_test.go:26-30. -/
example : (do
    let d ← newDigest 8 ((List.range 16).map (BitVec.ofNat 8))
    let d ← d.writes [(List.range 11).map (BitVec.ofNat 8), [], [11#8, 12#8, 13#8, 14#8]]
    let (_, r) ← d.sum64
    return r : Go U64) = .ok 0xa129ca6149be45e5#64 := by decide +kernel

/-! ## C16: the hash.Hash contract -/

theorem reset_J (d : Digest) (hx : d.x.length = 8) (h8 : d.size = 8) : J (init64 d.k0 d.k1) d.reset [] := by
  obtain ⟨v, k0, k1, t, nx, x, size⟩ := d
  simp only at h8 hx
  subst h8
  exact ⟨rfl, rfl, hx, rfl⟩

theorem reset_J128 (d : Digest) (hx : d.x.length = 8) (h8 : d.size = 16) : J (init128 d.k0 d.k1) d.reset [] := by
  obtain ⟨v, k0, k1, t, nx, x, size⟩ := d
  simp only at h8 hx
  subst h8
  exact ⟨rfl, rfl, hx, rfl⟩

theorem reset_fields (d : Digest) : d.reset.k0 = d.k0 ∧ d.reset.k1 = d.k1 ∧ d.reset.size = d.size ∧ d.reset.t = 0#8 := by
  simp only [Digest.reset]; split <;> exact ⟨rfl, rfl, rfl, rfl⟩

/-- C16 (64 bit). For any history of `Write`, `Reset`, `Sum` and `Sum64` calls on a digest from `New`,
every result is the one prescribed by the `hash.Hash` contract with SipHash-2-4 as the digest:
sums depend only on the bytes written since the last reset, `Write` reports `len(p)`, and `Sum(b)`
appends the eight little-endian bytes of `Sum64`. -/
theorem C16_contract64 (key : List U8) (hk : key.length = 16) (ops : List HOp) :
    (do let d ← newDigest 8 key
        hasher.run d ops) = .ok (contract
      (fun m => leBytes 8 (Spec.SipHash.hash64 2 4 (le64 key) (le64 (key.drop 8)) m).toNat)
      (fun m => [Spec.SipHash.hash64 2 4 (le64 key) (le64 (key.drop 8)) m]) [] ops) := by
  obtain ⟨d, e, hs, ht, h0, h1, j⟩ := newDigest_good 8 (Or.inl rfl) key (by omega)
  simp only [e, bind, Except.bind]
  simp only [if_true] at j
  apply Hasher.run_eq_contract (fun d m => J (init64 (le64 key) (le64 (key.drop 8))) d m ∧ d.t = BitVec.ofNat 8 m.length ∧
    d.size = 8 ∧ d.k0 = le64 key ∧ d.k1 = le64 (key.drop 8))
  · rintro s m p ⟨hj, ht, hs, hk0, hk1⟩
    obtain ⟨d1, e, j, a, b, c, t⟩ := write_ok p hj
    exact ⟨d1, e, j, by rw [t, ht, List.length_append, BitVec.ofNat_add], c.trans hs, a.trans hk0, b.trans hk1⟩
  · rintro s m ⟨hj, ht, hs, hk0, hk1⟩
    obtain ⟨a, b, c, t⟩ := reset_fields s
    have := reset_J s hj.xlen hs
    rw [hk0, hk1] at this
    exact ⟨s.reset, rfl, this, t, c.trans hs, a.trans hk0, b.trans hk1⟩
  · rintro s m b ⟨hj, ht, hs, hk0, hk1⟩
    refine ⟨s, ?_, hj, ht, hs, hk0, hk1⟩
    simp only [hasher, Digest.sum, if_pos hs, sum64_ok hj ht, bytesOf_eq]; rfl
  · rintro s m ⟨hj, ht, hs, hk0, hk1⟩
    refine ⟨s, ?_, hj, ht, hs, hk0, hk1⟩
    simp only [hasher, sum64_ok hj ht]; rfl
  · exact ⟨j, ht, hs, h0, h1⟩

/-- C16 (128 bit). The same contract for digests from `New128`. -/
theorem C16_contract128 (key : List U8) (hk : key.length = 16) (ops : List HOp) :
    (do let d ← newDigest 16 key
        hasher128.run d ops) = .ok (contract
      (fun m => leBytes 8 (Spec.SipHash.hash128 2 4 (le64 key) (le64 (key.drop 8)) m).1.toNat ++
        leBytes 8 (Spec.SipHash.hash128 2 4 (le64 key) (le64 (key.drop 8)) m).2.toNat)
      (fun m => [(Spec.SipHash.hash128 2 4 (le64 key) (le64 (key.drop 8)) m).1,
        (Spec.SipHash.hash128 2 4 (le64 key) (le64 (key.drop 8)) m).2]) [] ops) := by
  obtain ⟨d, e, hs, ht, h0, h1, j⟩ := newDigest_good 16 (Or.inr rfl) key (by omega)
  have h16 : ¬ (16 = 8) := by decide
  simp only [e, bind, Except.bind]
  simp only [if_neg h16] at j
  apply Hasher.run_eq_contract (fun d m => J (init128 (le64 key) (le64 (key.drop 8))) d m ∧ d.t = BitVec.ofNat 8 m.length ∧
    d.size = 16 ∧ d.k0 = le64 key ∧ d.k1 = le64 (key.drop 8))
  · rintro s m p ⟨hj, ht, hs, hk0, hk1⟩
    obtain ⟨d1, e, j, a, b, c, t⟩ := write_ok p hj
    exact ⟨d1, e, j, by rw [t, ht, List.length_append, BitVec.ofNat_add], c.trans hs, a.trans hk0, b.trans hk1⟩
  · rintro s m ⟨hj, ht, hs, hk0, hk1⟩
    obtain ⟨a, b, c, t⟩ := reset_fields s
    have := reset_J128 s hj.xlen hs
    rw [hk0, hk1] at this
    exact ⟨s.reset, rfl, this, t, c.trans hs, a.trans hk0, b.trans hk1⟩
  · rintro s m b ⟨hj, ht, hs, hk0, hk1⟩
    have hne : ¬ s.size = 8 := by rw [hs]; decide
    refine ⟨s, ?_, hj, ht, hs, hk0, hk1⟩
    simp only [hasher128, Digest.sum, if_neg hne, sum128_ok hj ht, bytesOf_eq]; rfl
  · rintro s m ⟨hj, ht, hs, hk0, hk1⟩
    refine ⟨s, ?_, hj, ht, hs, hk0, hk1⟩
    simp only [hasher128, sum128_ok hj ht]; rfl
  · exact ⟨j, ht, hs, h0, h1⟩

/-- A concrete history for C16: sum, write, sum twice, reset. -/
example : (do
    let d ← newDigest 8 (List.replicate 16 0#8)
    hasher.run d [.value, .write (List.replicate 5 0#8), .sum [], .write (List.replicate 3 0#8), .value, .value, .reset,
      .value]) = .ok [.value [0x1e924b9d737700d7#64], .wrote 5,
        .bytes (leBytes 8 (Spec.SipHash.hash64 2 4 0 0 (List.replicate 5 0#8)).toNat), .wrote 3,
        .value [0xe849e8bb6ffe2567#64], .value [0xe849e8bb6ffe2567#64], .done, .value [0x1e924b9d737700d7#64]] := by
  decide +kernel

/-! ## C17: package siphashpg -/

/-- C17. `Siphash` panics exactly when the key is not 16 bytes or a round count is not positive. -/
theorem C17_panics_iff (in_ k : List U8) (cr dr : Int) (dbl : Bool) :
    Siphash in_ k cr dr dbl = .error (.explicit "siphash") ↔ (k.length ≠ 16 ∨ cr ≤ 0 ∨ dr ≤ 0) := by
  constructor
  · intro h
    apply Classical.byContradiction
    intro hn
    rw [Siphash_good in_ k cr dr dbl (by omega) (by omega) (by omega)] at h
    cases h
  · exact Siphash_bad in_ k cr dr dbl

/-- C17. For a 16-byte key and positive round counts `Siphash` is SipHash-c-d; the second result is 0
unless `dbl`. -/
theorem C17_general_rounds (in_ k : List U8) (cr dr : Int) (dbl : Bool) (hk : k.length = 16) (hc : 0 < cr) (hd : 0 < dr) :
    Siphash in_ k cr dr dbl = .ok (if dbl then Spec.SipHash.hash128 cr.toNat dr.toNat (le64 k) (le64 (k.drop 8)) in_
      else (Spec.SipHash.hash64 cr.toNat dr.toNat (le64 k) (le64 (k.drop 8)) in_, 0#64)) :=
  Siphash_good in_ k cr dr dbl hk hc hd

/-- C17. The two packages agree on SipHash-2-4, 64 bit. -/
theorem C17_packages_agree64 (in_ k : List U8) (hk : k.length = 16) :
    Siphash in_ k 2 4 false = (do let r ← Hash (le64 k) (le64 (k.drop 8)) in_; return (r, 0#64)) := by
  rw [Siphash_good in_ k 2 4 false hk (by decide) (by decide), Hash_eq]; rfl

/-- C17. The two packages agree on SipHash-2-4, 128 bit. -/
theorem C17_packages_agree128 (in_ k : List U8) (hk : k.length = 16) :
    Siphash in_ k 2 4 true = Hash128 (le64 k) (le64 (k.drop 8)) in_ := by
  rw [Siphash_good in_ k 2 4 true hk (by decide) (by decide), Hash128_eq]; rfl

/-- A case of C17 with SipHash-1-3. -/
example : (List.replicate 16 7#8).length = 16 ∧
    Siphash [1#8, 2#8, 3#8] (List.replicate 16 7#8) 1 3 false = .ok (0xc47ce684bec714b1#64, 0#64) := by
  decide +kernel

/-! ## C18: codec and round -/

/-- C18. `U64tou8le` returns eight bytes from which `U8tou64le` recovers the word. -/
theorem C18_decode_encode (v : U64) :
    ∃ bs, U64tou8le v = .ok bs ∧ bs.length = 8 ∧ U8tou64le bs = .ok v := by
  refine ⟨_, U64tou8le_eq v, leBytes_length _ _, ?_⟩
  rw [U8tou64le, load_eq (by rw [leBytes_length])]
  apply congrArg Except.ok
  rw [le64, List.take_of_length_le (by rw [leBytes_length]), leNat_leBytes]
  apply BitVec.eq_of_toNat_eq
  have := v.isLt
  rw [BitVec.toNat_ofNat]
  omega

/-- C18. Encoding the word read from eight bytes gives those bytes back. -/
theorem C18_encode_decode (bs : List U8) (h : bs.length = 8) :
    ∃ v, U8tou64le bs = .ok v ∧ U64tou8le v = .ok bs := by
  refine ⟨_, load_eq (by omega), ?_⟩
  rw [U64tou8le_eq]
  have hl := leNat_lt bs
  rw [h] at hl
  rw [le64, List.take_of_length_le (by omega), BitVec.toNat_ofNat, Nat.mod_eq_of_lt (by omega), ← h, leBytes_leNat]

/-- C18_encode_decode at work. -/
example : ∃ v, U8tou64le [1, 2, 3, 4, 5, 6, 7, 0xff] = .ok v ∧ U64tou8le v = .ok [1, 2, 3, 4, 5, 6, 7, 0xff] := C18_encode_decode _ rfl

/-- C18. Two half rounds make the round, which is the specification's round. -/
theorem C18_half_rounds (s : V) :
    siproundb (siprounda s) = sipround s ∧ sipround s = round s ∧
      Spec.SipHash.sipRound ⟨s.v0, s.v1, s.v2, s.v3⟩ = ⟨(round s).v0, (round s).v1, (round s).v2, (round s).v3⟩ := ⟨rfl, rfl, (round_spec s).symm⟩

/-- C18. The round is a permutation of the 256-bit state. -/
theorem C18_round_bijective : Function.Bijective round := by
  constructor
  · intro a b h
    rw [← unround_round a, ← unround_round b, h]
  · intro s
    exact ⟨unround s, round_unround s⟩

end Verif.Props
