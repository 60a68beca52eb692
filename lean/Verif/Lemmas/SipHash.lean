import Verif.Lemmas.Bits
import Verif.Model.SipHash
import Verif.Spec.SipHash

namespace Verif.Lemmas.SipHash
open Verif.Model.SipHash
open Verif.Spec.SipHash (State sipRound rounds absorb pad compress)

/-- The model's state words as the specification's. -/
def V.spec (s : V) : State := ⟨s.v0, s.v1, s.v2, s.v3⟩

theorem rl (x : U64) (n : Nat) (h : n < 64) : x <<< n ||| x >>> (64 - n) = x.rotateLeft n := rotl_eq x h

theorem round_spec (s : V) : V.spec (round s) = sipRound (V.spec s) := by
  obtain ⟨a, b, c, d⟩ := s
  simp only [round, rl _ _ (by decide : 13 < 64), rl _ _ (by decide : 32 < 64), rl _ _ (by decide : 16 < 64),
    rl _ _ (by decide : 21 < 64), rl _ _ (by decide : 17 < 64)]
  rfl

theorem load_eq {p : List U8} (h : 8 ≤ p.length) : load p = .ok (le64 p) := by
  obtain ⟨a, b, c, d, e, f, g, i, q, rfl⟩ := exists_cons8 h
  show Except.ok _ = _
  rw [← or8_eq]; rfl

theorem compress1_spec (s : V) (m : U64) : V.spec (compress1 s m) = absorb 2 (V.spec s) m := by
  have h : V.spec (round (round { s with v3 := s.v3 ^^^ m }))
      = rounds 2 { V.spec s with v3 := (V.spec s).v3 ^^^ m } := by
    rw [round_spec, round_spec]; rfl
  unfold absorb
  rw [← h]; rfl

theorem blocksLoop_eq (s : V) (p : List U8) :
    blocksLoop s p = .ok ((blocks 8 p).foldl (fun s b => compress1 s (le64 b)) s, tailOf 8 p) := by
  unfold blocksLoop
  apply Go.while_blocks (n := 8) (by omega)
  · intro s p; rfl
  · intro s p h
    simp only [load_eq h, Go.from_eq h]
    show Except.ok _ = _
    rw [le64_of_take]
  · exact Nat.div_le_self _ _

theorem foldl_spec (s : V) (bs : List (List U8)) :
    V.spec (bs.foldl (fun s b => compress1 s (le64 b)) s) = (bs.map le64).foldl (absorb 2) (V.spec s) := by
  induction bs generalizing s with
  | nil => rfl
  | cons b bs ih => rw [List.foldl_cons, ih, compress1_spec]; rfl

theorem orBytes_snoc {w : Nat} (k : Nat) (acc : BitVec w) (bs : List U8) (b : U8) :
    orBytes w k acc (bs ++ [b]) = orBytes w k acc bs ||| b.setWidth w <<< (k + 8 * bs.length) := by
  induction bs generalizing k acc with
  | nil => simp [orBytes]
  | cons c bs ih => 
    rw [List.cons_append, orBytes, ih, orBytes, List.length_cons]; congr 2; omega

theorem tail1_eq (t : U64) (p : List U8) (h : 1 ≤ p.length) :
    tail1 t p = .ok (t ||| orBytes 64 0 0#64 (p.take 1)) := by
  match p, h with
  | a :: q, _ => 
    simp only [tail1, Go.idx_eq (by simp : 0 < (a :: q).length), orBytes, List.take, BitVec.zero_or, BitVec.shiftLeft_zero]
    rfl

theorem tail_step (k : Nat) (t : U64) (p : List U8) (h : k < p.length) (f : U64 → List U8 → Go U64)
    (hf : ∀ t, f t p = .ok (t ||| orBytes 64 0 0#64 (p.take k))) :
    (do f (t ||| u64 (← Go.idx p k) <<< (8 * k)) p) = .ok (t ||| orBytes 64 0 0#64 (p.take (k + 1))) := by
  rw [Go.idx_eq h]
  show f (t ||| u64 p[k] <<< (8 * k)) p = _
  rw [hf, List.take_succ_eq_append_getElem h, orBytes_snoc, Nat.zero_add, List.length_take, Nat.min_eq_left (by omega), u64]
  congr 1; ac_rfl

theorem tailSwitch_eq (t : U64) {p : List U8} (h : p.length < 8) :
    tailSwitch t p = .ok (t ||| BitVec.ofNat 64 (leNat p)) := by
  rw [← orBytes_eq (w := 64) p (by omega)]
  have e : ∀ k, p.length = k → orBytes 64 0 0#64 p = orBytes 64 0 0#64 (p.take k) := by
    intro k hk; rw [List.take_of_length_le (by omega)]
  have h1 := fun (h : 1 ≤ p.length) t => tail1_eq t p h
  have h2 := fun (h : 2 ≤ p.length) t => tail_step 1 t p (by omega) tail1 (h1 (by omega))
  have h3 := fun (h : 3 ≤ p.length) t => tail_step 2 t p (by omega) tail2 (h2 (by omega))
  have h4 := fun (h : 4 ≤ p.length) t => tail_step 3 t p (by omega) tail3 (h3 (by omega))
  have h5 := fun (h : 5 ≤ p.length) t => tail_step 4 t p (by omega) tail4 (h4 (by omega))
  have h6 := fun (h : 6 ≤ p.length) t => tail_step 5 t p (by omega) tail5 (h5 (by omega))
  have h7 := fun (h : 7 ≤ p.length) t => tail_step 6 t p (by omega) tail6 (h6 (by omega))
  rcases (by omega : p.length = 7 ∨ p.length = 6 ∨ p.length = 5 ∨ p.length = 4 ∨ p.length = 3 ∨ p.length = 2 ∨
      p.length = 1 ∨ p.length = 0) with hk | hk | hk | hk | hk | hk | hk | hk
  · rw [e _ hk]; unfold tailSwitch; rw [hk]; exact h7 (by omega) t
  · rw [e _ hk]; unfold tailSwitch; rw [hk]; exact h6 (by omega) t
  · rw [e _ hk]; unfold tailSwitch; rw [hk]; exact h5 (by omega) t
  · rw [e _ hk]; unfold tailSwitch; rw [hk]; exact h4 (by omega) t
  · rw [e _ hk]; unfold tailSwitch; rw [hk]; exact h3 (by omega) t
  · rw [e _ hk]; unfold tailSwitch; rw [hk]; exact h2 (by omega) t
  · rw [e _ hk]; unfold tailSwitch; rw [hk]; exact h1 (by omega) t
  · rw [List.length_eq_zero_iff.1 hk]
    simp [orBytes, tailSwitch]

theorem leNat_replicate_zero (n : Nat) : leNat (List.replicate n 0#8) = 0 := by
  induction n with
  | zero => rfl
  | succ n ih => simp [List.replicate_succ, leNat, ih]

/-- The last padded word: the leftover bytes with the length on top. -/
theorem lastWord (n : Nat) (p : List U8) (h : p.length < 8) :
    le64 (p ++ List.replicate (7 - p.length) 0#8 ++ [BitVec.ofNat 8 n])
      = BitVec.ofNat 64 n <<< 56 ||| BitVec.ofNat 64 (leNat p) := by
  have hl := leNat_lt p
  have hp : 256 ^ p.length ≤ 256 ^ 7 := Nat.pow_le_pow_right (by omega) (by omega)
  have h8 : (p ++ List.replicate (7 - p.length) 0#8 ++ [BitVec.ofNat 8 n]).length = 8 := by simp; omega
  apply BitVec.eq_of_toNat_eq
  rw [le64, List.take_of_length_le (by omega), leNat_append, leNat_append, leNat_replicate_zero,
    BitVec.toNat_or, BitVec.toNat_shiftLeft]
  have e : (p ++ List.replicate (7 - p.length) 0#8).length = 7 := by simp; omega
  rw [e]
  simp only [leNat, BitVec.toNat_ofNat]
  have e2 : (n % 2 ^ 64) <<< 56 % 2 ^ 64 = (n % 2 ^ 8) <<< 56 := by
    rw [Nat.shiftLeft_eq, Nat.shiftLeft_eq]; omega
  have e3 : leNat p % 2 ^ 64 = leNat p := Nat.mod_eq_of_lt (by omega)
  rw [e2, e3, ← Nat.shiftLeft_add_eq_or_of_lt (by omega : leNat p < 2 ^ 56), Nat.shiftLeft_eq]
  simp
  omega

theorem blocks_exact {n : Nat} (hn : 0 < n) {l : List α} (h : l.length = n) : blocks n l = [l] := by
  rw [blocks_of_le hn (by omega), blocks_of_lt (by simp; omega), List.take_of_length_le (by omega)]

theorem blocks_pad (m : List U8) :
    blocks 8 (pad m) = blocks 8 m ++
      [tailOf 8 m ++ List.replicate (7 - (tailOf 8 m).length) 0#8 ++ [BitVec.ofNat 8 m.length]] := by
  have ht := tailOf_length 8 m
  have := Nat.mod_lt m.length (by omega : 8 > 0)
  rw [pad, List.append_assoc, blocks_append (by omega), ← List.append_assoc, ht]
  rw [blocks_exact (l := tailOf 8 m ++ _ ++ _) (by omega : 0 < 8)]
  simp only [List.length_append, List.length_replicate, ht, List.length_singleton]; omega

theorem absorb_pad (s : V) (m : List U8) :
    V.spec (compress1 ((blocks 8 m).foldl (fun s b => compress1 s (le64 b)) s)
        (BitVec.ofNat 64 m.length <<< 56 ||| BitVec.ofNat 64 (leNat (tailOf 8 m))))
      = ((blocks 8 (pad m)).map le64).foldl (absorb 2) (V.spec s) := by
  have ht := tailOf_length_lt (by omega : 0 < 8) m
  rw [compress1_spec, foldl_spec, blocks_pad, List.map_append, List.foldl_append, List.map_cons, lastWord _ _ ht]
  rfl

theorem rounds4 (s : V) : V.spec (round (round (round (round s)))) = rounds 4 (V.spec s) := by
    rw [round_spec, round_spec, round_spec, round_spec]; rfl

theorem fold_spec (s : V) : Spec.SipHash.fold (V.spec s) = s.v0 ^^^ s.v1 ^^^ s.v2 ^^^ s.v3 := rfl

theorem fin64_spec (s : V) :
    fin64 s = Spec.SipHash.fold (rounds 4 { V.spec s with v2 := (V.spec s).v2 ^^^ 0xff#64 }) := by
  have h1 := rounds4 { s with v2 := s.v2 ^^^ 0xff#64 }
  have e1 : V.spec { s with v2 := s.v2 ^^^ 0xff#64 } = { V.spec s with v2 := (V.spec s).v2 ^^^ 0xff#64 } := rfl
  rw [e1] at h1
  rw [← h1]
  simp only [fin64, fold_spec]

theorem fin128_spec (s : V) :
    fin128 s =
    (let s := V.spec s
     let s := rounds 4 { s with v2 := s.v2 ^^^ 0xee#64 }
     let r := rounds 4 { s with v1 := s.v1 ^^^ 0xdd#64 }
     (Spec.SipHash.fold s, Spec.SipHash.fold r)) := by
  have h1 := rounds4 { s with v2 := s.v2 ^^^ 0xee#64 }
  have e1 : V.spec { s with v2 := s.v2 ^^^ 0xee#64 } = { V.spec s with v2 := (V.spec s).v2 ^^^ 0xee#64 } := rfl
  rw [e1] at h1
  generalize hs1 : round (round (round (round { s with v2 := s.v2 ^^^ 0xee#64 }))) = s1 at h1
  have h2 := rounds4 { s1 with v1 := s1.v1 ^^^ 0xdd#64 }
  have e2 : V.spec { s1 with v1 := s1.v1 ^^^ 0xdd#64 } = { V.spec s1 with v1 := (V.spec s1).v1 ^^^ 0xdd#64 } := rfl
  rw [e2] at h2
  simp only [fin128, hs1, ← h1, ← h2, fold_spec]

/-- The model's initial state. -/
def init64 (k0 k1 : U64) : V := ⟨k0 ^^^ 0x736f6d6570736575#64, k1 ^^^ 0x646f72616e646f6d#64,
    k0 ^^^ 0x6c7967656e657261#64, k1 ^^^ 0x7465646279746573#64⟩

def init128 (k0 k1 : U64) : V := ⟨k0 ^^^ 0x736f6d6570736575#64, k1 ^^^ 0x646f72616e646f6d#64 ^^^ 0xee#64,
    k0 ^^^ 0x6c7967656e657261#64, k1 ^^^ 0x7465646279746573#64⟩

theorem init64_spec (k0 k1 : U64) : V.spec (init64 k0 k1) = Spec.SipHash.init false k0 k1 := by
  simp [Spec.SipHash.init, V.spec, init64]

theorem init128_spec (k0 k1 : U64) : V.spec (init128 k0 k1) = Spec.SipHash.init true k0 k1 := by
  simp [Spec.SipHash.init, V.spec, init128]

/-- Compression of the whole message from state `s`. -/
theorem core_eq (s : V) (p : List U8) (f : V → Go α) :
    (do let (s, q) ← blocksLoop s p
        let t ← tailSwitch (BitVec.ofNat 64 p.length <<< 56) q
        f (compress1 s t))
    = f (compress1 ((blocks 8 p).foldl (fun s b => compress1 s (le64 b)) s)
        (BitVec.ofNat 64 p.length <<< 56 ||| BitVec.ofNat 64 (leNat (tailOf 8 p)))) := by
  have ht := tailOf_length_lt (by omega : 0 < 8) p
  rw [blocksLoop_eq]
  simp only [bind, Except.bind, tailSwitch_eq _ ht]

theorem Hash_eq (k0 k1 : U64) (p : List U8) :
    Hash k0 k1 p = .ok (Spec.SipHash.hash64 2 4 k0 k1 p) := by
  have h := core_eq (init64 k0 k1) p (fun s => .ok (fin64 s))
  rw [fin64_spec, absorb_pad, init64_spec] at h
  exact h

theorem Hash128_eq (k0 k1 : U64) (p : List U8) :
    Hash128 k0 k1 p = .ok (Spec.SipHash.hash128 2 4 k0 k1 p) := by
  have h := core_eq (init128 k0 k1) p (fun s => .ok (fin128 s))
  rw [fin128_spec, absorb_pad, init128_spec] at h
  exact h

end Verif.Lemmas.SipHash
