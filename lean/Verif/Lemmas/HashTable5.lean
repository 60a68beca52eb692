import Verif.Lemmas.HashTable4

namespace Verif.HashTable
open Verif Verif.Spec.HashTable

variable {ω κ : Type}

/-- What a successful `Insert` leaves unchanged, for any hash function. -/
structure Same (ht ht' : HT κ) : Prop where
  wf : WF ht'
  oa : ht'.oa = ht.oa
  prime : ht'.prime = ht.prime
  size : ht'.size = ht.size
  seed : ht'.seed = ht.seed

/-- Complete case analysis of one `Insert`, for any (even stateful) hash function. -/
theorem insert_cases {e : Env ω κ} {w : ω} {ht : HT κ} {k : κ} (wf : WF ht)
    (hk : e.traceOK k = true) :
    (ht.oa = true ∧ (∀ b ∈ ht.buckets, b ≠ []) ∧ insert e w ht k = .error (.explicit "Add: pass")) ∨
    ((ht.oa = false ∨ ∃ b ∈ ht.buckets, b = []) ∧ ∃ w' ht', insert e w ht k = .ok (w', ht') ∧ Same ht ht') := by
  cases hoa : ht.oa
  · right
    refine ⟨.inl rfl, _, _, insert_chain wf hoa hk, ?_⟩
    have hc := chainNext_const (e := e) (w := w) (ht := ht) (k := k)
    exact ⟨chainNext_wf wf, hc.1, hc.2.1, hc.2.2.1, hc.2.2.2⟩
  · obtain ⟨idx, hidx, he⟩ := insert_eq (e := e) (w := w) (k := k) wf
    have hlt := wf.home_lt (e.hash w k ht.seed).1
    rw [wf.len] at hlt
    have hwf' : WF { ht with inserts := ht.inserts + 1 } := ⟨wf.len, wf.mask, wf.pos⟩
    by_cases hfree : ∃ b ∈ ht.buckets, b = []
    · right
      obtain ⟨d, hd, hemp, hmin⟩ := exists_free hlt wf.len hfree
      have hloop := loop_found e k (e.hash w k ht.seed).1 hk d (2 * ht.size.toNat + 1)
        (e.hash w k ht.seed).2
        { ht with inserts := ht.inserts + 1 } idx 0 0 ht.size.toNat hwf' hoa rfl
        (by rw [hidx]; exact hlt) (by omega) (by omega) (by rw [hidx]; omega)
        (by rw [hidx]; exact hmin) (by rw [hidx]; exact hemp)
      refine ⟨.inr hfree, _, _, by rw [he, hloop], ?_⟩
      exact ⟨⟨by simpa using wf.len, wf.mask, wf.pos⟩, rfl, rfl, rfl, rfl⟩
    · left
      have hne : ∀ b ∈ ht.buckets, b ≠ [] := fun b hb e => hfree ⟨b, hb, e⟩
      refine ⟨rfl, hne, ?_⟩
      rw [he]
      exact loop_full e k _ hk (2 * ht.size.toNat) _ _ { ht with inserts := ht.inserts + 1 } idx 0 0
        ht.size.toNat hwf' hoa rfl (by rw [hidx]; exact hlt) (by omega) (by omega) (by omega) hne

/-- Reading off `NewHashTable`. -/
theorem newHashTable_ok {np : Int → Int} {size seed extra : Int} {pd oa prime : Bool} {ht : HT κ}
    (h : newHashTable np size seed extra pd oa prime = .ok ht) :
    ht.buckets = List.replicate ht.size.toNat [] ∧ ht.sizeMask = ht.size - 1 ∧ ht.oa = oa ∧
    ht.prime = prime ∧ ht.inserts = 0 ∧ ht.cols = 0 ∧ ht.probes = 0 ∧ ht.heads = 0 ∧ ht.dups = 0 ∧
    ht.nbuckets = 0 ∧ ht.longestChain = 0 ∧ ht.size = (tableSize np size extra prime).1 ∧
    ht.seed = BitVec.ofInt 64 seed := by
  simp only [newHashTable] at h
  split at h
  · simp only [Except.ok.injEq] at h
    subst h
    simp
  · cases h

theorem newHashTable_wf {np : Int → Int} {size seed extra : Int} {pd oa prime : Bool} {ht : HT κ}
    (h : newHashTable np size seed extra pd oa prime = .ok ht) (hpos : 0 < ht.buckets.length) :
    WF ht := by
  have := newHashTable_ok h
  rw [this.1] at hpos
  exact ⟨by rw [this.1]; simp, this.2.1, by simpa using hpos⟩

/-- `newHashTable` does not depend on what is stored. -/
theorem insertAll_append {e : Env ω κ} (as bs : List κ) : ∀ (w : ω) (ht : HT κ),
    insertAll e w ht (as ++ bs) =
      (insertAll e w ht as).bind (fun p => insertAll e p.1 p.2 bs) := by
  induction as with
  | nil => intro w ht; rfl
  | cons a as ih =>
    intro w ht
    simp only [List.cons_append, insertAll, bind, Except.bind]
    cases insert e w ht a with
    | error f => rfl
    | ok p => simp only [ih]; rfl

/-! ### diff -/

def pc (m : Nat) (d : U64) : Nat := (List.range m).countP (fun i => d.getLsbD i)

theorem pc_succ4 (n : Nat) (d : U64) : pc (n + 4) d = pc 4 d + pc n (d >>> 4) := by
  unfold pc
  rw [Nat.add_comm n 4, List.range_add, List.countP_append, List.countP_map]
  congr 1
  apply List.countP_congr
  intro i _
  simp [BitVec.getLsbD_ushiftRight]

theorem pc_le (m : Nat) (d : U64) : pc m d ≤ m := by
  unfold pc
  exact Nat.le_trans List.countP_le_length (by simp)

theorem nibble (d : U64) : Go.idx ones (d &&& 0xF).toNat = .ok (pc 4 d) ∧
    Go.idx zeros (d &&& 0xF).toNat = .ok (4 - pc 4 d) := by
  have h : ∀ i, i < 4 → d.getLsbD i = (d &&& 0xF).getLsbD i := by
    intro i hi
    rw [BitVec.getLsbD_and]
    have : (0xF : U64).getLsbD i = true := by
      match i, hi with
      | 0, _ => decide
      | 1, _ => decide
      | 2, _ => decide
      | 3, _ => decide
    rw [this]; simp
  have hpc : pc 4 d = pc 4 (d &&& 0xF) := by
    unfold pc
    apply List.countP_congr
    intro i hi
    rw [h i (by simpa using hi)]
  rw [hpc]
  have hlt : (d &&& 0xF).toNat < 16 := by
    rw [BitVec.toNat_and]
    exact Nat.lt_of_le_of_lt Nat.and_le_right (by decide)
  generalize d &&& 0xF = x at hlt
  have : ∀ n, n < 16 → Go.idx ones (BitVec.ofNat 64 n).toNat = .ok (pc 4 (BitVec.ofNat 64 n)) ∧
    Go.idx zeros (BitVec.ofNat 64 n).toNat = .ok (4 - pc 4 (BitVec.ofNat 64 n)) := by decide
  have := this x.toNat hlt
  simpa using this

def diffBody : Nat → U64 × Nat × Nat → Go (U64 × Nat × Nat) := fun _ (s : U64 × Nat × Nat) => do
    let (d, z, o) := s
    let four := (d &&& 0xF).toNat
    let z' ← Go.idx zeros four
    let o' ← Go.idx ones four
    pure (d >>> 4, z + z', o + o')

theorem diff_loop (n : Nat) : ∀ (lo : Nat) (d : U64) (z o : Nat), ∃ d',
    Go.forRange lo n diffBody (d, z, o) = .ok (d', z + (4 * n - pc (4 * n) d), o + pc (4 * n) d) := by
  induction n with
  | zero => intro lo d z o; exact ⟨d, by simp [Go.forRange, pc]⟩
  | succ n ih =>
    intro lo d z o
    have hn := nibble d
    obtain ⟨d', h'⟩ := ih (lo + 1) (d >>> 4) (z + (4 - pc 4 d)) (o + pc 4 d)
    refine ⟨d', ?_⟩
    rw [Go.forRange]
    have hb : diffBody lo (d, z, o) = .ok (d >>> 4, z + (4 - pc 4 d), o + pc 4 d) := by
      simp only [diffBody, hn.1, hn.2]; rfl
    rw [hb]
    show Go.forRange (lo + 1) n diffBody _ = _
    rw [h']
    have e1 : 4 * (n + 1) = 4 * n + 4 := by omega
    have h1 := pc_le 4 d
    have h2 := pc_le (4 * n) (d >>> 4)
    rw [e1, pc_succ4 (4 * n)]
    have e2 : z + (4 - pc 4 d) + (4 * n - pc (4 * n) (d >>> 4)) =
      z + (4 * n + 4 - (pc 4 d + pc (4 * n) (d >>> 4))) := by omega
    rw [e2, Nat.add_assoc o]

theorem diff_eq (d : U64) : diff d = .ok (64 - popcount d, popcount d) := by
  have hd : diff d = (do
    let (_, z, o) ← Go.forRange 0 16 diffBody (d, 0, 0)
    if z + o ≠ 64 then Go.panic "diff" else pure (z, o)) := rfl
  obtain ⟨d', h⟩ := diff_loop 16 0 d 0 0
  rw [hd, h]
  have := pc_le (4 * 16) d
  show (if 0 + (4 * 16 - pc (4 * 16) d) + (0 + pc (4 * 16) d) ≠ 64 then _ else _) = _
  rw [if_neg (by omega)]
  show Except.ok _ = _
  simp [pc, popcount]

end Verif.HashTable
