import Verif.Lemmas.JenkinsExample
import Verif.Lemmas.Bits
import Verif.Lemmas.Small
import Verif.Lemmas.Threefish
import Verif.Props.Jenkins
import Verif.Props.Ht
import Mathlib.Data.List.Dedup

/-!
# C103, C104: the example program of package jenkins
-/

namespace Verif.Props
open Verif Verif.Spec.JenkinsExample Verif.Model.JenkinsExample Verif.Lemmas.JenkinsExample

/-! ## C104 -/

section
variable {hash : List U8 → Int → U32 → Go U32} {H : List U8 → Nat → Nat → U32}

namespace JenkinsExample

theorem lenLoop_eq (hh : Returns hash H) (left : Nat) : ∀ (len : Nat) (a b : List U8) (ls : List Line), len + left ≤ 70 → Inv len a → Inv len b →
    ∃ new, lenLoop hash left len a b ls = .ok (ls ++ new) ∧ List.Forall₂ (IsLine H) (List.range' len left) new := by
  induction left with
  | zero => intro len a b ls _ _ _; exact ⟨[], by rw [List.append_nil]; rfl, List.Forall₂.nil⟩
  | succ left ih =>
    intro len a b ls hlen ha hb
    have hgo : Going H len ls [] ⟨a, b, 0, 0, ls⟩ := ⟨ha, hb, rfl, 0, rfl, by omega, fun c hc => (nomatch hc), Or.inl rfl⟩
    rw [List.range'_succ]
    rcases iLoop_eq hh (show len < 70 by omega) len (i := 0) (by omega) hgo with ⟨s, h1, h2, h3⟩ | ⟨s, i', h1, pre, c, post, h2, h3⟩
    · unfold lenLoop
      rw [h1, Go.bind_ok]
      dsimp only
      rw [List.nil_append, Nat.zero_add] at *
      have hgood := going_good h3
      obtain ⟨ga, gb, gl, T, gz, gT, gs, gm⟩ := h3
      rw [if_pos (by unfold MAXPAIR; omega)]
      obtain ⟨new, n1, n2⟩ := ih (len + 1) s.a s.b (s.lines ++ [.success len s.m (s.z / 2)]) (by omega) (inv_mono (by omega) ga) (inv_mono (by omega) gb)
      refine ⟨.success len s.m (s.z / 2) :: new, ?_, List.Forall₂.cons ?_ n2⟩
      · rw [n1, gl, List.append_assoc]; rfl
      · have hT : s.z / 2 = T := by omega
        rw [hT]
        refine ⟨rfl, ?_, fun c hc => hgood c ((mem_overI len c).2 hc), fun c hc => gs c ((mem_overI len c).2 hc), ?_, gT⟩
        · by_cases h0 : len = 0
          · rw [if_neg (by omega)] at h2
            rw [h2, if_pos h0]
          · rw [if_pos (by omega)] at h2
            rw [h2, if_neg h0]
        · rcases gm with h | ⟨c, hc, h⟩
          · exact Or.inl h
          · exact Or.inr ⟨c, (mem_overI len c).1 hc, h⟩
    · unfold lenLoop
      rw [h1, Go.bind_ok]
      dsimp only
      rw [List.nil_append] at h3
      obtain ⟨ga, gb, gz, gg, gn, gl⟩ := h3
      rw [if_neg (by omega)]
      obtain ⟨new, n1, n2⟩ := ih (len + 1) s.a s.b s.lines (by omega) (inv_mono (by omega) ga) (inv_mono (by omega) gb)
      refine ⟨.fail (M H len c.1 c.2.1 c.2.2 3011) c.1 c.2.1 c.2.2 len :: new, ?_, List.Forall₂.cons ?_ n2⟩
      · rw [n1, gl, List.append_assoc]; rfl
      · have ht : Tested len c := (mem_overI len c).1 (by rw [h2]; simp)
        exact ⟨rfl, ht, gn, fun c' hc' hb' => gg c' (mem_pre h2 hc' hb'), fun p hp => M_all H len c.1 c.2.1 c.2.2 ht.2.1 3011 (by omega) p hp⟩

end JenkinsExample
open JenkinsExample

/-- C104. For every hash function that returns on keys of 70 bytes, `driver2` never panics and prints, for each length from 0 to 69, exactly one line:
success if every tested input bit and seed is good, with the largest number of the deciding trial (at most 255, counted from 0); otherwise the first
combination that is not, with the output bits that always change, never change, are always 1, always 0. -/
theorem C104_driver2 (hh : Returns hash H) : ∃ ls, driver2 hash = .ok ls ∧ List.Forall₂ (IsLine H) (List.range 70) ls := by
  have hz : Inv 0 (List.replicate 70 0#8) := ⟨List.length_replicate, fun l _ h => by rw [List.getElem?_replicate, if_pos h]⟩
  obtain ⟨new, h1, h2⟩ := lenLoop_eq hh 70 0 (List.replicate 70 0#8) (List.replicate 70 0#8) [] (by omega) hz hz
  exact ⟨new, h1, by rw [List.range_eq_range']; exact h2⟩

/-- C104. So `driver2` prints "success" for a length exactly if all combinations are good. -/
theorem C104_success_iff {len : Nat} {l : Line} (h : IsLine H len l) :
    (∃ n m t, l = .success n m t) ↔ ∀ c, Tested len c → Good H len c.1 c.2.1 c.2.2 := by
  cases l with
  | success n m t => exact ⟨fun _ => h.2.2.1, fun _ => ⟨n, m, t, rfl⟩⟩
  | fail v i j m l => exact ⟨fun ⟨_, _, _, h'⟩ => (nomatch h'), fun hg => absurd (hg (i, j, m) h.2.1) h.2.2.1⟩

end

/-- C104. The two keys of a trial differ in bit `j` of byte `i` and nowhere else. -/
theorem C104_one_bit (i j : Nat) (hi : i < 70) (hj : j < 8) (v : U8) (l q : Nat) (hl : l < 70) :
    ((keyWith i v).getD l 0).getLsbD q ≠ ((keyWith i (v ^^^ 1#8 <<< j)).getD l 0).getLsbD q ↔ l = i ∧ q = j := by
  have hlen : (List.replicate 70 (0#8 : U8)).length = 70 := List.length_replicate
  unfold keyWith
  rw [List.getD_eq_getElem?_getD, List.getD_eq_getElem?_getD]
  by_cases h : l = i
  · subst h
    rw [List.getElem?_set_self (by omega), List.getElem?_set_self (by omega), Option.getD_some, Option.getD_some, BitVec.getLsbD_xor, BitVec.getLsbD_shiftLeft]
    by_cases hq : q = j
    · subst hq
      simp [hj]
    · simp only [true_and, hq, iff_false, not_not]
      have : (decide (q < 8) && !decide (q < j) && (1#8).getLsbD (q - j)) = false := by
        rcases Nat.lt_trichotomy q j with h | h | h
        · simp [h]
        · exact absurd h hq
        · have : (1#8).getLsbD (q - j) = false := by
            rw [show (1#8 : U8) = BitVec.ofNat 8 1 from rfl, BitVec.getLsbD_ofNat]
            obtain ⟨r, hr⟩ : ∃ r, q - j = r + 1 := ⟨q - j - 1, by omega⟩
            rw [hr, Nat.testBit_succ]
            simp
          simp [this]
      rw [this]; simp
  · rw [List.getElem?_set_ne (by omega), List.getElem?_set_ne (by omega)]
    simp [h]

/-- C104. For the real function the hypothesis holds. It hashes `len` bytes of the key, but starts from the length 70 of the whole buffer. -/
theorem C104_real : Returns Model.Jenkins.HashBytesLength fun k len m => (Spec.Jenkins.lookup3 70#32 (BitVec.ofNat 32 m) 0#32 (k.take len)).1 := by
  intro k len m hk h0 hlen _
  rw [C34_prefix k len h0 (by omega), hk]

/-- C104, together: `driver2` as it is run. -/
theorem C104_main : ∃ ls, driver2 Model.Jenkins.HashBytesLength = .ok ls ∧
    List.Forall₂ (IsLine fun k len m => (Spec.Jenkins.lookup3 70#32 (BitVec.ofNat 32 m) 0#32 (k.take len)).1) (List.range 70) ls := C104_driver2 C104_real

/-- C104. A constant hash fails at the first bit for every length but 0; the specification is not vacuous. -/
example : ∃ ls, driver2 (fun _ _ _ => .ok 5#32) = .ok ls ∧ ls[0]? = some (.success 0 0 0) ∧ ∃ v, ls[1]? = some (.fail v 0 0 1 1) := by
  obtain ⟨ls, h1, h2⟩ := C104_driver2 (hash := fun _ _ _ => .ok 5#32) (H := fun _ _ _ => 5#32) (fun _ _ _ _ _ _ _ => rfl)
  have hbad : ∀ len i j m, ¬ Good (fun _ _ _ => 5#32) len i j m := by
    intro len i j m h
    obtain ⟨⟨v, _, hv⟩, _⟩ := h 0 (by omega)
    exact hv rfl
  refine ⟨ls, h1, ?_, ?_⟩
  · cases h2 with
    | cons ha _ =>
      rename_i a b c
      cases a with
      | success n m t =>
        obtain ⟨rfl, rfl, _, _, h | ⟨c, hc, _⟩, _⟩ := ha
        · subst h; rfl
        · exact absurd hc.1 (Nat.not_lt_zero _)
      | fail v i j m l => exact absurd ha.2.1.1 (by dsimp only; omega)
  · cases h2 with
    | cons _ h2 =>
      cases h2 with
      | @cons _ a _ _ ha _ =>
        cases a with
        | success n m t => exact absurd (ha.2.2.1 (0, 0, 1) ⟨by decide, by decide, by decide, by decide⟩) (hbad _ _ _ _)
        | fail v i j m l =>
          obtain ⟨rfl, ht, _, hb, _⟩ := ha
          refine ⟨v, ?_⟩
          obtain ⟨t1, t2, t3, t4⟩ := ht
          dsimp only at t1 t2 t3 t4
          have hi : i = 0 := by omega
          subst hi
          by_cases hjm : j = 0 ∧ m = 1
          · rw [hjm.1, hjm.2]; rfl
          · exfalso
            refine hbad _ _ _ _ (hb (0, 0, 1) ⟨by decide, by decide, by decide, by decide⟩ (Or.inr ⟨rfl, ?_⟩))
            dsimp only
            omega

/-! ## C103 -/

namespace JenkinsExample

/-- Scanning with the last different element. -/
def scan : U64 → Nat → List U64 → Nat
  | _, d, [] => d
  | x, d, v :: l => if x = v then scan x (d + 1) l else scan v d l

theorem dupLoop_eq (u : List U64) (n k i d : Nat) (hk : k + n = u.length) (hi : i < k) :
    (Go.forRange k n (dupStep64 u) (i, d)).map Prod.snd = .ok (scan (u.getD i 0) d (u.drop k)) := by
  induction n generalizing k i d with
  | zero => rw [List.drop_of_length_le (by omega)]; rfl
  | succ n ih =>
    have e : u.drop k = u[k] :: u.drop (k + 1) := List.drop_eq_getElem_cons (by omega)
    have g : u.getD i 0 = u[i] := by rw [List.getD_eq_getElem?_getD, List.getElem?_eq_getElem (by omega), Option.getD_some]
    rw [Go.forRange]
    unfold dupStep64
    rw [Go.idx_eq (by omega), Go.bind_ok, if_neg (by dsimp only; omega), Go.idx_eq (by dsimp only; omega), Go.bind_ok, e, g]
    unfold scan
    dsimp only
    by_cases h : u[i] = u[k]
    · rw [if_pos h, if_pos h, Go.pure_ok]
      have := ih (k + 1) i (d + 1) (by omega) (by omega)
      rw [g] at this
      exact this
    · rw [if_neg h, if_neg h, Go.pure_ok]
      have := ih (k + 1) k d (by omega) (by omega)
      rw [List.getD_eq_getElem?_getD, List.getElem?_eq_getElem (by omega), Option.getD_some] at this
      exact this

theorem checkForDups64_cons (x : U64) (l : List U64) : checkForDups64 (x :: l) = .ok (scan x 0 l) := by
  unfold checkForDups64
  have h := dupLoop_eq (x :: l) l.length 1 0 0 (by simp [Nat.add_comm]) (by simp)
  rw [List.length_cons, Go.forRange]
  have e : dupStep64 (x :: l) 0 (0, 0) = .ok (0, 0) := by
    unfold dupStep64; rw [Go.idx_eq (by simp), Go.bind_ok, if_pos (by simp)]; rfl
  rw [e]
  simp only [List.getD_cons_zero, List.drop_succ_cons, List.drop_zero] at h
  rw [← h]
  simp only [Except.bind]
  rw [show 0 + 1 = 1 from rfl]
  cases Go.forRange 1 l.length (dupStep64 (x :: l)) (0, 0) <;> rfl

theorem scan_count (x : U64) (d : Nat) (l : List U64) : scan x d l = d + ((x :: l).zip l).countP (fun p => p.1 = p.2) := by
  induction l generalizing x d with
  | nil => rfl
  | cons v l ih =>
    unfold scan
    rw [List.zip_cons_cons, List.countP_cons]
    by_cases h : x = v
    · subst h
      rw [if_pos rfl, ih]
      simp
      omega
    · rw [if_neg h, ih]
      simp [h]

end JenkinsExample
open JenkinsExample

/-- C103. `checkForDups64` counts the elements that are equal to the one before. -/
theorem C103_adjacent (u : List U64) : checkForDups64 u = .ok ((u.zip u.tail).countP fun p => p.1 = p.2) := by
  cases u with
  | nil => rfl
  | cons x l => rw [checkForDups64_cons, scan_count, Nat.zero_add]; rfl

/-- C103. In a sorted slice these are all elements but the first of each value. -/
theorem C103_sorted (u : List U64) (hs : u.Pairwise fun a b => a.toNat ≤ b.toNat) : ∃ d, checkForDups64 u = .ok d ∧ d + u.dedup.length = u.length := by
  refine ⟨_, C103_adjacent u, ?_⟩
  induction u with
  | nil => rfl
  | cons x u ih =>
    have hs' := (List.pairwise_cons.1 hs).2
    have ih := ih hs'
    cases u with
    | nil => simp
    | cons v u =>
      rw [List.tail_cons] at ih ⊢
      rw [List.zip_cons_cons, List.countP_cons]
      by_cases h : x = v
      · subst h
        rw [List.dedup_cons_of_mem (by simp), List.length_cons]
        simp only [decide_true, if_true]
        omega
      · have hnm : x ∉ v :: u := by
          intro hm
          rcases List.mem_cons.1 hm with hm | hm
          · exact h hm
          · have h1 := (List.pairwise_cons.1 hs).1 v (by simp)
            have h2 := (List.pairwise_cons.1 hs').1 x hm
            exact h (BitVec.eq_of_toNat_eq (by omega))
        rw [List.dedup_cons_of_notMem hnm, List.length_cons, List.length_cons]
        simp only [h, decide_false, Bool.false_eq_true, if_false]
        omega

/-- C103_sorted at work. -/
example : ∃ d, checkForDups64 [1, 2, 2, 7, 7, 7] = .ok d ∧ d + 3 = 6 := C103_sorted [1, 2, 2, 7, 7, 7] (by decide)

namespace JenkinsExample

theorem collect {β : Type} (f : Nat → Go β) (g : Nat → β) (h : ∀ i, f i = .ok (g i)) (n : Nat) :
    Go.forRange 0 n (fun i hs => do let x ← f i; return hs ++ [x]) [] = .ok ((List.range n).map g) := by
  rw [Verif.Lemmas.Threefish.collect_eq f g n 0 [] (fun i _ _ => h i), List.nil_append, List.range_eq_range']

theorem byte_mask (x : Nat) : BitVec.ofNat 8 (x &&& 0xFF) = BitVec.ofNat 8 x := by
  apply BitVec.eq_of_toNat_eq
  rw [BitVec.toNat_ofNat, BitVec.toNat_ofNat, show (0xFF : Nat) = 2 ^ 8 - 1 from rfl, Nat.and_two_pow_sub_one_eq_mod, Nat.mod_mod]

theorem key64_eq (i : Nat) : key64 i = (List.replicate 6 (leBytes 4 i)).flatten := by
  unfold key64
  dsimp only
  rw [byte_mask, byte_mask, byte_mask, byte_mask, ← Lemmas.Ht.leBytes4]
  simp [List.replicate]

end JenkinsExample
open JenkinsExample

/-- C103. The keys of `benchmark64`: six copies of the four low bytes of `i`; keys `i` and `j` are the same exactly if `i` and `j` agree modulo 2^32. -/
theorem C103_keys64 (i j : Nat) : key64 i = (List.replicate 6 (leBytes 4 i)).flatten ∧ (key64 i = key64 j ↔ i % 2 ^ 32 = j % 2 ^ 32) := by
  refine ⟨key64_eq i, ?_⟩
  rw [← leBytes4_inj]
  constructor
  · intro h
    rw [key64_eq, key64_eq] at h
    have := congrArg (List.take 4) h
    simpa [List.replicate, List.take_append, leBytes_length] using this
  · intro h; rw [key64_eq, key64_eq, h]

/-- C103. `benchmark64` prints the number of keys minus the number of different hashes, for every sorting function; it panics for negative `n`. -/
theorem C103_benchmark64 (sort : List U64 → List U64) (hsort : ∀ l, (sort l).Perm l ∧ (sort l).Pairwise fun a b => a.toNat ≤ b.toNat) (n : Int) :
    (n < 0 → benchmark64 sort n = .error .slice) ∧
    (0 ≤ n → ∃ d : Nat, benchmark64 sort n = .ok d ∧ d + ((List.range n.toNat).map fun i => Spec.Jenkins.hash264 (key64 i) 0).dedup.length = n.toNat) := by
  refine ⟨fun h => ?_, fun h => ?_⟩
  · unfold benchmark64; rw [if_pos h]
  · unfold benchmark64
    rw [if_neg (by omega), collect (fun i => Model.Jenkins.Hash264 (key64 i) 0) (fun i => Spec.Jenkins.hash264 (key64 i) 0) (fun i => (C31_hash264 true (key64 i) 0).1), Go.bind_ok]
    obtain ⟨hp, hs⟩ := hsort ((List.range n.toNat).map fun i => Spec.Jenkins.hash264 (key64 i) 0)
    obtain ⟨d, h1, h2⟩ := C103_sorted _ hs
    refine ⟨d, h1, ?_⟩
    rw [hp.dedup.length_eq, hp.length_eq, List.length_map, List.length_range] at h2
    exact h2

/-- C103. The expected "hashes the integers from 0 to n-1" is refuted for `benchmark32`: the shifts are applied after the conversion to a byte, so it only
ever hashes the 256 keys whose last three bytes are zero. -/
theorem C103_benchmark32 (n : Int) : benchmark32 n = .ok ((List.range n.toNat).map fun i => Spec.Jenkins.hash232 [BitVec.ofNat 8 i, 0#8, 0#8, 0#8] 0) := by
  have hk : ∀ i, key32 i = [BitVec.ofNat 8 i, 0#8, 0#8, 0#8] := by
    intro i
    have h : ∀ b : BitVec 8, [b &&& 0xFF, (b >>> 8) &&& 0xFF, (b >>> 16) &&& 0xFF, (b >>> 24) &&& 0xFF] = [b, 0#8, 0#8, 0#8] := by decide
    exact h _
  unfold benchmark32
  rw [collect _ (fun i => Spec.Jenkins.hash232 [BitVec.ofNat 8 i, 0#8, 0#8, 0#8] 0)]
  intro i
  rw [hk]
  exact (C29_hash232_short true _ (by rw [List.length_cons, List.length_cons, List.length_cons, List.length_cons, List.length_nil]; decide) 0).1

theorem C103_benchmark32_violated : key32 256 = key32 0 ∧ key32 257 = key32 1 := by decide

namespace JenkinsExample

theorem drop_words (s : List U8) (n : Nat) (h : s.length = 4 * n) :
    ((List.range n).map fun i => le32 (s.drop (i * 4))).flatMap (fun x => leBytes 4 x.toNat) = s := by
  induction n generalizing s with
  | zero => have e : s = [] := List.length_eq_zero_iff.1 (by omega)
            rw [e]; rfl
  | succ n ih =>
    rw [List.range_succ_eq_map, List.map_cons, List.flatMap_cons, List.map_map]
    have h0 : leBytes 4 (le32 (s.drop (0 * 4))).toNat = s.take 4 := by
      rw [Nat.zero_mul, List.drop_zero, Verif.Lemmas.CrapWow.le32_toNat]
      have hl : (s.take 4).length = 4 := by rw [List.length_take]; omega
      have := leBytes_leNat (s.take 4)
      rwa [hl] at this
    have h1 : ((fun i => le32 (s.drop (i * 4))) ∘ Nat.succ) = fun i => le32 ((s.drop 4).drop (i * 4)) := by
      funext i
      rw [Function.comp, List.drop_drop]
      congr 2
      omega
    rw [h0, h1, ih (s.drop 4) (by rw [List.length_drop]; omega), List.take_append_drop]

end JenkinsExample
open JenkinsExample

/-- C103. `stu` returns the words of the string if its length is a multiple of four, and reads past its end otherwise. -/
theorem C103_stu (s : List U8) : (s.length % 4 = 0 → ∃ ws, stu s = .ok ws ∧ ws.length = s.length / 4 ∧ (ws.flatMap fun x => leBytes 4 x.toNat) = s) ∧
    (s.length % 4 ≠ 0 → stu s = .error .unsafeOOB) := by
  have hrun : ∀ (n k : Nat) (acc : List U32), 4 * (k + n) ≤ s.length →
      ∀ r, Go.forRange k (n + r) (fun i d => do let t ← Go.unsafe32 s (i * 4); return d ++ [t]) acc =
        Go.forRange (k + n) r (fun i d => do let t ← Go.unsafe32 s (i * 4); return d ++ [t]) (acc ++ (List.range' k n).map fun i => le32 (s.drop (i * 4))) := by
    intro n
    induction n with
    | zero => intro k acc _ r; simp
    | succ n ih =>
      intro k acc hk r
      rw [show n + 1 + r = (n + r) + 1 by omega, Go.forRange, Go.unsafe32_eq (by omega), Go.bind_ok, Go.pure_ok]
      show Go.forRange (k + 1) (n + r) _ _ = _
      rw [ih (k + 1) _ (by omega) r, List.range'_succ, List.map_cons, List.append_assoc, show k + 1 + n = k + (n + 1) by omega]
      rfl
  constructor
  · intro h
    refine ⟨(List.range (s.length / 4)).map fun i => le32 (s.drop (i * 4)), ?_, by rw [List.length_map, List.length_range], drop_words s _ (by omega)⟩
    unfold stu
    rw [show (s.length + 3) / 4 = s.length / 4 + 0 by omega, hrun (s.length / 4) 0 [] (by omega) 0, List.nil_append, ← List.range_eq_range']
    rfl
  · intro h
    unfold stu
    rw [show (s.length + 3) / 4 = s.length / 4 + 1 by omega, hrun (s.length / 4) 0 [] (by omega) 1, Go.forRange]
    have : Go.unsafe32 s ((0 + s.length / 4) * 4) = .error .unsafeOOB := by
      unfold Go.unsafe32; rw [if_neg (by omega)]
    rw [this]; rfl

namespace JenkinsExample

theorem take_words (ws : List U32) (n : Nat) : ((ws.take n).flatMap fun x => leBytes 4 x.toNat) = (ws.flatMap fun x => leBytes 4 x.toNat).take (4 * n) := by
  induction ws generalizing n with
  | nil => simp
  | cons w ws ih =>
    cases n with
    | zero => simp
    | succ n =>
      have hl : (leBytes 4 w.toNat).length = 4 := leBytes_length ..
      rw [List.take_succ_cons, List.flatMap_cons, List.flatMap_cons, ih, List.take_append, hl, List.take_of_length_le (by omega : (leBytes 4 w.toNat).length ≤ 4 * (n + 1)),
        show 4 * (n + 1) - 4 = 4 * n by omega]

end JenkinsExample
open JenkinsExample

/-- C103. The word hashes of `main`, for any string of at least twelve bytes and a multiple of four, such as the one it uses: they are lookup3 of all but
the last four, eight and twelve bytes, started from the length of the whole string. -/
theorem C103_main_words (s : List U8) (h4 : s.length % 4 = 0) (h12 : 12 ≤ s.length) :
    mainWords s = .ok ((Spec.Jenkins.lookup3 (BitVec.ofNat 32 s.length) 13 0 (s.take (s.length - 4))).1,
      (Spec.Jenkins.lookup3 (BitVec.ofNat 32 s.length) 13 0 (s.take (s.length - 8))).1,
      (Spec.Jenkins.lookup3 (BitVec.ofNat 32 s.length) 13 0 (s.take (s.length - 12))).1) := by
  obtain ⟨ws, h1, h2, h3⟩ := (C103_stu s).1 h4
  unfold mainWords
  rw [h1, Go.bind_ok]
  have e1 : ((s.length : Int) - 1).tdiv 4 = ((s.length / 4 - 1 : Nat) : Int) := by rw [Int.tdiv_eq_ediv_of_nonneg (by omega)]; omega
  have e2 : ((s.length : Int) - 5).tdiv 4 = ((s.length / 4 - 2 : Nat) : Int) := by rw [Int.tdiv_eq_ediv_of_nonneg (by omega)]; omega
  have e3 : ((s.length : Int) - 9).tdiv 4 = ((s.length / 4 - 3 : Nat) : Int) := by rw [Int.tdiv_eq_ediv_of_nonneg (by omega)]; omega
  have hl : 4 * ws.length = s.length := by omega
  have hv := (C39_value ws 13).1
  rw [e1, e2, e3, hv _ (by omega), Go.bind_ok, hv _ (by omega), Go.bind_ok, hv _ (by omega), Go.bind_ok, hl, take_words, take_words, take_words, h3,
    show 4 * (s.length / 4 - 1) = s.length - 4 by omega, show 4 * (s.length / 4 - 2) = s.length - 8 by omega, show 4 * (s.length / 4 - 3) = s.length - 12 by omega]
  rfl

example : q.length = 72 ∧ ∃ r, mainWords q = .ok r := by
  have h : q.length = 72 := by decide +kernel
  exact ⟨h, _, C103_main_words q (by omega) (by omega)⟩

/-- C103. What `main` prints between the benchmarks and `driver2` (it has no input): three word hashes, and for the strings the values its comments promise. -/
theorem C103_main_prints : mainWords q = .ok (0x30469abe#32, 0xa8428fa3#32, 0x6b42317f#32) ∧
    mainStrings = .ok [(0xdeadbeef#32, 0xdeadbeef#32), (0xbd5b7dde#32, 0xdeadbeef#32), (0x9c093ccd#32, 0xbd5b7dde#32), (0x17770551#32, 0xce7226e6#32),
      (0xe3607cae#32, 0xbd371de4#32), (0xcd628161#32, 0x6cbea4b3#32)] := by
  decide +kernel

/-- A sort as the hypothesis of `C103_benchmark64` asks for. -/
example : ∀ l : List U64, (l.mergeSort fun a b => decide (a.toNat ≤ b.toNat)).Perm l ∧ (l.mergeSort fun a b => decide (a.toNat ≤ b.toNat)).Pairwise fun a b => a.toNat ≤ b.toNat := by
  intro l
  refine ⟨List.mergeSort_perm _ _, ?_⟩
  have := List.pairwise_mergeSort (le := fun a b : U64 => decide (a.toNat ≤ b.toNat)) (fun a b c h1 h2 => by simp at *; omega) (fun a b => by simp; omega) l
  exact this.imp (by simp)

end Verif.Props
