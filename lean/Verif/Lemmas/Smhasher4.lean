import Verif.Lemmas.Smhasher3
import Verif.Lemmas.FloatR

namespace Verif.Lemmas.Smhasher
open Verif Verif.Model.Smhasher Verif.Spec.Smhasher
open Verif.Lemmas.Ht (set_eq forRange_collect flatMap_singleton_map)

/-! ### Keys -/

theorem Int32Hash_eq (H : List U8 → U64 → U64) (i : U32) (seed : U64) : Int32Hash H i seed = H (leBytes 4 i.toNat) seed := by
  unfold Int32Hash
  rw [show (0xFF : U32) = BitVec.ofNat 32 0xFF from rfl, mask_byte0 _ (by omega), mask_byte _ _ (by omega), mask_byte _ _ (by omega), mask_byte _ _ (by omega),
    leBytes_tab]
  rfl

theorem Int64Hash_eq (H : List U8 → U64 → U64) (i : U64) (seed : U64) : Int64Hash H i seed = H (leBytes 8 i.toNat) seed := by
  unfold Int64Hash
  rw [show (0xFF : U64) = BitVec.ofNat 64 0xFF from rfl, mask_byte0 _ (by omega), mask_byte _ _ (by omega), mask_byte _ _ (by omega), mask_byte _ _ (by omega),
    mask_byte _ _ (by omega), mask_byte _ _ (by omega), mask_byte _ _ (by omega), mask_byte _ _ (by omega), leBytes_tab]
  rfl

theorem hash_keyBytes (H : List U8 → U64 → U64) (k : Key) : k.hash H = H (keyBytes k) 0 := by
  cases k with
  | bytes b => rfl
  | int32 i => exact Int32Hash_eq H i 0
  | int64 i => exact Int64Hash_eq H i 0

theorem keyBytes_length (k : Key) : 8 * (keyBytes k).length = k.bits := by
  cases k <;> simp [keyBytes, Key.bits, leBytes_length]; omega

theorem clear_length {k k' : Key} (h : k'.clear = k.clear) : (keyBytes k').length = (keyBytes k).length ∧ k'.bits = k.bits := by
  cases k <;> cases k' <;> simp [Key.clear] at h <;> simp [keyBytes, Key.bits, leBytes_length]
  simpa using h

theorem clear_clear (k : Key) : k.clear.clear = k.clear := by
  cases k <;> simp [Key.clear]

theorem keyBytes_inj {k k' : Key} (h : k'.clear = k.clear) (hb : keyBytes k' = keyBytes k) : k' = k := by
  have inj4 : ∀ (n w : Nat), 2 ^ w = 256 ^ n → ∀ a b : BitVec w, leBytes n a.toNat = leBytes n b.toNat → a = b := by
    intro n w hw a b h
    have := congrArg leNat h
    rw [leNat_leBytes, leNat_leBytes, ← hw, Nat.mod_eq_of_lt a.isLt, Nat.mod_eq_of_lt b.isLt] at this
    exact BitVec.eq_of_toNat_eq this
  cases k <;> cases k' <;> simp [Key.clear] at h <;> simp only [keyBytes] at hb
  · rw [hb]
  · rw [inj4 4 32 (by norm_num) _ _ hb]
  · rw [inj4 8 64 (by norm_num) _ _ hb]

theorem bit_flipped (b : List U8) (i j : Nat) (hi : i < 8 * b.length) : bit (flipped b i) j = (bit b j ^^ decide (j = i)) := by
  unfold flipped bit
  rw [List.getD_eq_getElem?_getD, List.getElem?_mapIdx, List.getD_eq_getElem?_getD]
  by_cases hj : j / 8 < b.length
  · rw [List.getElem?_eq_getElem hj, Option.map_some, Option.getD_some, Option.getD_some]
    by_cases e : j / 8 = i / 8
    · rw [if_pos e, BitVec.getLsbD_xor, one_shl _ _ (by omega) (by omega)]
      congr 1; rw [decide_eq_decide]; omega
    · rw [if_neg e, decide_eq_false (by intro h; exact e (by rw [h])), Bool.xor_false]
  · rw [List.getElem?_eq_none (by omega), decide_eq_false (by omega)]
    simp

theorem flipped_length (b : List U8) (i : Nat) : (flipped b i).length = b.length := by simp [flipped]

theorem flipped_eq_set (b : List U8) (i : Nat) (hi : i / 8 < b.length) : b.set (i / 8) (b[i / 8] ^^^ 1#8 <<< (i % 8)) = flipped b i := by
  apply List.ext_getElem (by simp [flipped])
  intro p h1 h2
  rw [List.getElem_set]
  simp only [flipped, List.getElem_mapIdx]
  by_cases e : i / 8 = p
  · subst e; simp
  · rw [if_neg e, if_neg (Ne.symm e)]

theorem flipped_flipped (b : List U8) (i : Nat) (hi : i < 8 * b.length) : flipped (flipped b i) i = b := by
  apply bit_ext (by rw [flipped_length, flipped_length])
  intro j _
  rw [bit_flipped _ _ _ (by rw [flipped_length]; exact hi), bit_flipped _ _ _ hi, Bool.xor_assoc, Bool.xor_self, Bool.xor_false]

theorem flip_int (n w : Nat) (hw : w = 8 * n) (x : BitVec w) (i : Nat) (hi : i < w) :
    leBytes n (x ^^^ 1#w <<< i).toNat = flipped (leBytes n x.toNat) i := by
  apply bit_ext (by rw [flipped_length, leBytes_length, leBytes_length])
  intro j hj
  rw [leBytes_length] at hj
  rw [bit_flipped _ _ _ (by rw [leBytes_length]; omega), bit_leBytes, bit_leBytes, decide_eq_true hj, Bool.true_and, Bool.true_and]
  have h1 : ∀ (y : BitVec w) j, y.toNat.testBit j = y.getLsbD j := fun _ _ => rfl
  rw [h1, h1, BitVec.getLsbD_xor]
  congr 1
  rw [BitVec.getLsbD_shiftLeft, BitVec.getLsbD_one]
  by_cases e : j = i
  · subst e; simp; omega
  · rw [decide_eq_false e]
    by_cases l : j < i
    · simp [l]
    · rw [decide_eq_false (show ¬ j - i = 0 by omega)]; simp

theorem flipBit_eq (k : Key) (i : Nat) (hi : i < k.bits) : ∃ k', k.flipBit i = .ok k' ∧ k'.clear = k.clear ∧ keyBytes k' = flipped (keyBytes k) i := by
  cases k with
  | bytes b =>
    simp only [Key.bits] at hi
    have e1 : i >>> 3 = i / 8 := by rw [Nat.shiftRight_eq_div_pow]
    have e2 : i &&& 7 = i % 8 := Nat.and_two_pow_sub_one_eq_mod i 3
    refine ⟨.bytes (flipped b i), ?_, ?_, rfl⟩
    · unfold Key.flipBit
      dsimp only
      rw [e1, e2, Go.idx_eq (by omega), Go.bind_ok, set_eq (by omega), Go.bind_ok, Go.pure_ok, flipped_eq_set]
    · simp only [Key.clear, Key.bytes.injEq]
      apply List.ext_getElem (by simp [flipped])
      intro p h1 h2
      simp
  | int32 x => exact ⟨_, rfl, rfl, flip_int 4 32 rfl x i hi⟩
  | int64 x => exact ⟨_, rfl, rfl, flip_int 8 64 rfl x i hi⟩

theorem flipBit_flipBit (k : Key) (i : Nat) (hi : i < k.bits) {k' : Key} (h : k.flipBit i = .ok k') : k'.flipBit i = .ok k := by
  obtain ⟨k1, h1, h2, h3⟩ := flipBit_eq k i hi
  rw [h] at h1
  obtain rfl := Except.ok.inj h1
  obtain ⟨k2, h4, h5, h6⟩ := flipBit_eq k' i (by rw [(clear_length h2).2]; exact hi)
  rw [h4]
  congr 1
  apply keyBytes_inj (h5.trans h2)
  rw [h6, h3, flipped_flipped _ _ (by rw [keyBytes_length]; exact hi)]

theorem bit_clear (k : Key) (j : Nat) : bit (keyBytes k.clear) j = false := by
  cases k with
  | bytes b =>
    simp only [Key.clear, keyBytes]
    rw [List.map_const']; exact bit_zero _ _
  | int32 x => simp [Key.clear, keyBytes, bit_leBytes]
  | int64 x => simp [Key.clear, keyBytes, bit_leBytes]

/-! ### Windows -/

theorem shr_and_one (i j : Nat) : (i >>> j &&& 1 ≠ 0) ↔ i.testBit j = true := by
  rw [Nat.testBit, Nat.and_comm]
  simp

theorem windowKey_eq (k : Key) (hk : 16 ≤ k.bits) (r i : Nat) :
    ∃ k', windowKey r i k = .ok k' ∧ k'.clear = k.clear ∧ ∀ p, bit (keyBytes k') p = true ↔ ∃ t, t < 16 ∧ i.testBit t = true ∧ p = (t + r) % k.bits := by
  unfold windowKey
  obtain ⟨k', h1, h2, h3⟩ := forRange_inv
    (fun m (k' : Key) => k'.clear = k.clear ∧ ∀ p, bit (keyBytes k') p = true ↔ ∃ t, t < m ∧ i.testBit t = true ∧ p = (t + r) % k.bits) 0 16
    (body := fun j k => if i >>> j &&& 1 ≠ 0 then k.flipBit ((j + r) % k.bits) else .ok k)
    (by
      intro j s _ hj ⟨hc, hb⟩
      have hbits := (clear_length hc).2
      by_cases hj1 : i.testBit j = true
      · have hpos : (j + r) % k.bits < k.bits := Nat.mod_lt _ (by omega)
        obtain ⟨s', h1, h2, h3⟩ := flipBit_eq s ((j + r) % k.bits) (by rw [hbits]; exact hpos)
        refine ⟨s', ?_, h2.trans hc, ?_⟩
        · rw [if_pos ((shr_and_one i j).2 hj1), hbits, h1]
        · intro p
          rw [h3, bit_flipped _ _ _ (by rw [keyBytes_length, hbits]; exact hpos)]
          have hnot : bit (keyBytes s) ((j + r) % k.bits) = false := by
            rw [Bool.eq_false_iff]
            intro h
            obtain ⟨t, ht, _, he⟩ := (hb _).1 h
            have h1 : (t + r) % k.bits = (j + r) % k.bits := he.symm
            have h2 := (Nat.modEq_iff_dvd' (show t + r ≤ j + r by omega)).1 h1
            have h3 := Nat.le_of_dvd (by omega) h2
            omega
          by_cases e : p = (j + r) % k.bits
          · subst e
            rw [hnot, decide_eq_true rfl]
            simp only [Bool.bne_true, Bool.not_false, true_iff]
            exact ⟨j, by omega, hj1, rfl⟩
          · rw [decide_eq_false e, Bool.xor_false, hb]
            constructor
            · rintro ⟨t, ht, h4, h5⟩; exact ⟨t, by omega, h4, h5⟩
            · rintro ⟨t, ht, h4, h5⟩
              refine ⟨t, ?_, h4, h5⟩
              rcases Nat.lt_or_ge t j with h6 | h6
              · exact h6
              · rw [show t = j by omega] at h5; exact absurd h5 e
      · refine ⟨s, ?_, hc, ?_⟩
        · rw [if_neg (fun h => hj1 ((shr_and_one i j).1 h))]
        · intro p
          rw [hb]
          constructor
          · rintro ⟨t, ht, h4, h5⟩; exact ⟨t, by omega, h4, h5⟩
          · rintro ⟨t, ht, h4, h5⟩
            refine ⟨t, ?_, h4, h5⟩
            rcases Nat.lt_or_ge t j with h6 | h6
            · exact h6
            · rw [show t = j by omega] at h4; exact absurd h4 hj1)
    k.clear ⟨clear_clear k, by
      intro p
      rw [bit_clear]
      constructor
      · intro h; exact absurd h (by simp)
      · rintro ⟨t, ht, _⟩; omega⟩
  exact ⟨k', h1, h2, h3⟩

theorem windowKey_clear {k k' : Key} (h : k'.clear = k.clear) (r i : Nat) : windowKey r i k' = windowKey r i k := by
  unfold windowKey; rw [h]

theorem window_eq (k : Key) (hk : 16 ≤ k.bits) (r : Nat) :
    ∃ (k' : Key) (f : Nat → Key), window r k = .ok (k', (List.range (2 ^ 16)).map f) ∧ k'.clear = k.clear ∧
      ∀ i, (f i).clear = k.clear ∧ ∀ p, bit (keyBytes (f i)) p = true ↔ ∃ t, t < 16 ∧ i.testBit t = true ∧ p = (t + r) % k.bits := by
  choose f hf using windowKey_eq k hk r
  unfold window
  rw [show 1 <<< 16 = 2 ^ 16 from rfl]
  generalize 2 ^ 16 = L
  obtain ⟨k', h1, h2⟩ := forRange_collect (fun s : Key => s.clear = k.clear) (fun i => [f i]) 0 L
    (body := fun i q => do
      let k ← windowKey r i q.1
      return (k, q.2 ++ [k]))
    (by
      intro i s out _ _ hs
      refine ⟨f i, ?_, (hf i).2.1⟩
      dsimp only
      rw [windowKey_clear hs, (hf i).1, Go.bind_ok, Go.pure_ok]) k [] rfl
  refine ⟨k', f, ?_, h2, fun i => (hf i).2⟩
  rw [h1, flatMap_singleton_map, List.nil_append, ← List.range_eq_range']

theorem window_inj {k : Key} (hk : 16 ≤ k.bits) {r : Nat} {f : Nat → Key}
    (hf : ∀ i, (f i).clear = k.clear ∧ ∀ p, bit (keyBytes (f i)) p = true ↔ ∃ t, t < 16 ∧ i.testBit t = true ∧ p = (t + r) % k.bits)
    {i j : Nat} (hi : i < 2 ^ 16) (hj : j < 2 ^ 16) (h : f i = f j) : i = j := by
  have key : ∀ a b, f a = f b → ∀ t, t < 16 → a.testBit t = true → b.testBit t = true := by
    intro a b h t ht hta
    have h1 := ((hf a).2 ((t + r) % k.bits)).2 ⟨t, ht, hta, rfl⟩
    rw [h] at h1
    obtain ⟨u, hu, hub, he⟩ := ((hf b).2 _).1 h1
    rcases Nat.le_total t u with hle | hle
    · have h2 := (Nat.modEq_iff_dvd' (show t + r ≤ u + r by omega)).1 he
      rcases Nat.eq_zero_or_pos (u + r - (t + r)) with h3 | h3
      · rw [show t = u by omega]; exact hub
      · have := Nat.le_of_dvd h3 h2; omega
    · have h2 := (Nat.modEq_iff_dvd' (show u + r ≤ t + r by omega)).1 he.symm
      rcases Nat.eq_zero_or_pos (t + r - (u + r)) with h3 | h3
      · rw [show t = u by omega]; exact hub
      · have := Nat.le_of_dvd h3 h2; omega
  apply Nat.eq_of_testBit_eq
  intro t
  rcases Nat.lt_or_ge t 16 with ht | ht
  · rw [Bool.eq_iff_iff]
    exact ⟨key i j h t ht, key j i h.symm t ht⟩
  · have hb : ∀ a, a < 2 ^ 16 → a.testBit t = false := fun a ha =>
      Nat.testBit_lt_two_pow (Nat.lt_of_lt_of_le ha (Nat.pow_le_pow_right (by omega) ht))
    rw [hb i hi, hb j hj]

theorem exists_bits (P : Nat → Bool) : ∃ i, i < 2 ^ 16 ∧ ∀ t, t < 16 → i.testBit t = P t := by
  have : ∀ n, ∃ i, i < 2 ^ n ∧ ∀ t, t < n → i.testBit t = P t := by
    intro n
    induction n with
    | zero => exact ⟨0, by simp, by intro t ht; omega⟩
    | succ n ih =>
      obtain ⟨i, h1, h2⟩ := ih
      refine ⟨(if P n then 2 ^ n else 0) + i, ?_, ?_⟩
      · rw [Nat.pow_succ]; split <;> omega
      · intro t ht
        rcases Nat.lt_or_ge t n with h | h
        · rw [← h2 t h]
          split
          · rw [Nat.testBit_two_pow_add_gt h]
          · simp
        · obtain rfl : t = n := by omega
          split
          · rename_i hp; rw [Nat.testBit_two_pow_add_eq, Nat.testBit_lt_two_pow h1, hp]; rfl
          · rename_i hp
            rw [Nat.zero_add, Nat.testBit_lt_two_pow h1]
            exact (Bool.eq_false_iff.2 hp).symm
  exact this 16

/-! ### Avalanche -/

theorem hashSize_eq : hashSize = 64 := by decide

theorem addBits_eq (d : U64) (g : Nat → Nat) : ∃ d', addBits d (tab 64 g) = .ok (d', tab 64 fun j => g j + (d.getLsbD j).toNat) := by
  unfold addBits
  rw [hashSize_eq]
  let f : Nat → U64 × List Nat := fun j => (d >>> j, tab 64 fun p => if p < j then g p + (d.getLsbD p).toNat else g p)
  have h0 : (d, tab 64 g) = f 0 := by simp [f]
  rw [h0, forRange_traj f 0 64 (body := fun j (q : U64 × List Nat) => do
    let x ← Go.idx q.2 j
    let g ← Go.set q.2 j (x + (q.1 &&& 1).toNat)
    return (q.1 >>> 1, g)) (by
      intro j _ hj
      simp only [f]
      rw [tab_idx _ (by omega), Go.bind_ok, set_eq (by rw [tab_length]; omega), Go.bind_ok, Go.pure_ok, tab_set _ (by omega)]
      congr 2
      apply tab_congr
      intro p _
      by_cases e : p = j
      · subst e
        rw [if_pos rfl, if_neg (by omega), if_pos (by omega)]
        congr 1
        have : d >>> p &&& 1 = if d.getLsbD p then 1#64 else 0#64 := by
          apply BitVec.eq_of_getLsbD_eq
          intro t ht
          rw [BitVec.getLsbD_and, BitVec.getLsbD_ushiftRight, show (1 : U64) = 1#64 from rfl, BitVec.getLsbD_one]
          by_cases e : t = 0
          · subst e; cases h : d.getLsbD p <;> simp [h]
          · cases h : d.getLsbD p <;> simp [e]
        rw [this]
        cases d.getLsbD p <;> rfl
      · rw [if_neg e]
        by_cases l : p < j
        · rw [if_pos l, if_pos (by omega)]
        · rw [if_neg l, if_neg (by omega)])]
  refine ⟨d >>> 64, ?_⟩
  simp only [f]
  refine congrArg (fun x => Except.ok (d >>> 64, x)) ?_
  apply tab_congr
  intro p hp
  rw [if_pos (by omega)]

/-- Whether inverting bit `i` of the key changes bit `j` of its hash. -/
def affects (H : List U8 → U64 → U64) (k : Key) (i j : Nat) : Bool := (H (keyBytes k) 0 ^^^ H (flipped (keyBytes k) i) 0).getLsbD j

def gridOf (n : Nat) (g : Nat → Nat → Nat) : List (List Nat) := tab n fun i => tab 64 (g i)

theorem avalancheBit_eq (H : List U8 → U64 → U64) (n i : Nat) (k : Key) (hk : k.bits = n) (hi : i < n) (g : Nat → Nat → Nat) :
    avalancheBit H (H (keyBytes k) 0) i (k, gridOf n g) =
      .ok (k, gridOf n fun i' j => if i' = i then g i j + (affects H k i j).toNat else g i' j) := by
  obtain ⟨k', h1, h2, h3⟩ := flipBit_eq k i (by omega)
  obtain ⟨d', h4⟩ := addBits_eq (H (keyBytes k) 0 ^^^ H (keyBytes k') 0) (g i)
  unfold avalancheBit
  dsimp only
  rw [h1, Go.bind_ok, flipBit_flipBit k i (by omega) h1, Go.bind_ok, gridOf, tab_idx _ hi, Go.bind_ok, hash_keyBytes, h4, Go.bind_ok,
    set_eq (by rw [tab_length]; exact hi), Go.bind_ok, Go.pure_ok, tab_set _ hi]
  unfold gridOf
  refine congrArg (fun x => Except.ok (k, x)) ?_
  apply tab_congr
  intro p _
  by_cases e : p = i
  · subst e
    simp only [if_true]
    apply tab_congr
    intro j _
    rw [affects, h3]
  · simp only [if_neg e]

theorem avalancheRound_eq (H : List U8 → U64 → U64) (n : Nat) (k : Key) (hk : k.bits = n) (g : Nat → Nat → Nat) :
    avalancheRound H n (gridOf n g) k = .ok (gridOf n fun i j => g i j + (affects H k i j).toNat) := by
  unfold avalancheRound
  dsimp only
  rw [hash_keyBytes]
  let f : Nat → Key × List (List Nat) := fun m => (k, gridOf n fun i j => if i < m then g i j + (affects H k i j).toNat else g i j)
  have h0 : (k, gridOf n g) = f 0 := by simp [f]
  rw [h0, forRange_traj f 0 n (by
    intro m _ hm
    simp only [f]
    rw [avalancheBit_eq H n m k hk (by omega)]
    congr 2
    unfold gridOf
    apply tab_congr
    intro p _
    apply tab_congr
    intro j _
    dsimp only
    by_cases e : p = m
    · subst e; simp
    · rw [if_neg e]
      by_cases l : p < m
      · rw [if_pos l, if_pos (by omega)]
      · rw [if_neg l, if_neg (by omega)]), Go.bind_ok, Go.pure_ok]
  congr 1
  simp only [f]
  unfold gridOf
  apply tab_congr
  intro p hp
  apply tab_congr
  intro j _
  dsimp only
  rw [if_pos (by omega)]

theorem avalanche_eq (H : List U8 → U64 → U64) (n : Nat) (ks : List Key) (hk : ∀ k ∈ ks, k.bits = n) :
    avalanche H n ks = .ok (gridOf n fun i j => ks.countP fun k => affects H k i j) := by
  have key : ∀ (ks : List Key) (g : Nat → Nat → Nat), (∀ k ∈ ks, k.bits = n) →
      ks.foldlM (avalancheRound H n) (gridOf n g) = .ok (gridOf n fun i j => g i j + ks.countP fun k => affects H k i j) := by
    intro ks
    induction ks with
    | nil => intro g _; simp [Go.pure_ok]
    | cons k ks ih =>
      intro g h
      rw [List.foldlM_cons, avalancheRound_eq H n k (h k (by simp)), Go.bind_ok, ih _ (fun k hk => h k (List.mem_cons_of_mem _ hk))]
      congr 1
      unfold gridOf
      apply tab_congr
      intro p _
      apply tab_congr
      intro j _
      dsimp only
      rw [List.countP_cons]
      cases affects H k p j <;> simp <;> omega
  unfold avalanche
  have h0 : List.replicate n (List.replicate hashSize 0) = gridOf n fun _ _ => 0 := by
    rw [hashSize_eq]; simp [gridOf, tab, List.map_const']
  rw [h0, key ks _ hk]
  congr 2
  funext i j
  rw [Nat.zero_add]

/-! ### HashSet -/

theorem addAll_n (s : HashSet) (hs : List U64) : (s.addAll hs).n = s.n + hs.length := by
  induction hs generalizing s with
  | nil => rfl
  | cons h hs ih =>
    rw [show s.addAll (h :: hs) = (s.add h).addAll hs from rfl, ih]
    simp [HashSet.add]; omega

theorem addAll_m (s : HashSet) (hs : List U64) (hn : s.m.Nodup) : (s.addAll hs).m.Nodup ∧ ∀ x, x ∈ (s.addAll hs).m ↔ x ∈ s.m ∨ x ∈ hs := by
  induction hs generalizing s with
  | nil => exact ⟨hn, by intro x; simp [HashSet.addAll]⟩
  | cons h hs ih =>
    rw [show s.addAll (h :: hs) = (s.add h).addAll hs from rfl]
    have h1 : (s.add h).m.Nodup := by
      unfold HashSet.add
      dsimp only
      split
      · exact hn
      · rename_i hh; exact List.nodup_cons.2 ⟨hh, hn⟩
    have h2 : ∀ x, x ∈ (s.add h).m ↔ x ∈ s.m ∨ x = h := by
      intro x
      unfold HashSet.add
      dsimp only
      split
      · rename_i hh
        constructor
        · exact .inl
        · rintro (h | rfl)
          · exact h
          · exact hh
      · rw [List.mem_cons, or_comm]
    obtain ⟨h3, h4⟩ := ih (s.add h) h1
    refine ⟨h3, fun x => ?_⟩
    rw [h4, h2, List.mem_cons, or_assoc]

theorem addAll_card (hs : List U64) : (HashSet.new.addAll hs).m.length = hs.toFinset.card := by
  obtain ⟨h1, h2⟩ := addAll_m HashSet.new hs (by simp [HashSet.new])
  rw [← List.toFinset_card_of_nodup h1]
  congr 1
  ext x
  rw [List.mem_toFinset, List.mem_toFinset, h2]
  simp [HashSet.new]

theorem card_eq_iff (hs : List U64) : hs.toFinset.card = hs.length ↔ hs.Nodup := by
  constructor
  · intro h
    rw [List.card_toFinset] at h
    rw [← (List.dedup_sublist hs).eq_of_length h]
    exact List.nodup_dedup hs
  · exact List.toFinset_card_of_nodup

/-- `pairs` does not wrap. -/
theorem pairs_eq {n : ℕ} (hn : n ≤ 2 * 10 ^ 8) :
    (BitVec.ofInt 64 (n : ℤ) * BitVec.ofInt 64 ((n : ℤ) - 1) : U64).toInt.tdiv 2 = (n : ℤ) * ((n : ℤ) - 1) / 2 := by
  have h0 : (0 : ℤ) ≤ (n : ℤ) * ((n : ℤ) - 1) := by
    rcases Nat.eq_zero_or_pos n with rfl | h
    · simp
    · exact mul_nonneg (by omega) (by omega)
  have h1 : (n : ℤ) * ((n : ℤ) - 1) ≤ 4 * 10 ^ 16 := by
    have h1 : (n : ℤ) ≤ 2 * 10 ^ 8 := by exact_mod_cast hn
    have h2 : (0 : ℤ) ≤ n := by omega
    nlinarith
  rw [← BitVec.ofInt_mul, BitVec.toInt_ofInt, Int.bmod_eq_of_le (by omega) (by omega), Int.tdiv_eq_ediv_of_nonneg h0]

theorem check_iff (hs : List U64) (hn : hs.length ≤ 2 * 10 ^ 8) : (HashSet.new.addAll hs).check ↔ ¬ hs.Nodup := by
  have hle := List.toFinset_card_le hs
  unfold HashSet.check
  dsimp only
  rw [addAll_card, addAll_n, hashSize_eq]
  simp only [HashSet.new, Nat.zero_add]
  generalize hc : hs.toFinset.card = c at hle
  have hcn := card_eq_iff hs
  rw [hc] at hcn
  generalize hs.length = n at hle hn hcn
  rw [pairs_eq hn]
  have hp0 : (0 : ℤ) ≤ (n : ℤ) * ((n : ℤ) - 1) / 2 := by
    apply Int.ediv_nonneg _ (by norm_num)
    rcases Nat.eq_zero_or_pos n with rfl | h
    · simp
    · exact mul_nonneg (by omega) (by omega)
  have hp1 : (n : ℤ) * ((n : ℤ) - 1) / 2 ≤ 2 * 10 ^ 16 := by
    have h1 : (n : ℤ) ≤ 2 * 10 ^ 8 := by exact_mod_cast hn
    have h2 : (0 : ℤ) ≤ n := by omega
    have h3 : (n : ℤ) * ((n : ℤ) - 1) ≤ 2 * (2 * 10 ^ 16) := by nlinarith
    omega
  generalize (n : ℤ) * ((n : ℤ) - 1) / 2 = p at hp0 hp1
  have hP0 : (0 : ℝ) ≤ (p : ℝ) := by exact_mod_cast hp0
  have hP1 : (p : ℝ) ≤ 2 * 10 ^ 16 := by exact_mod_cast hp1
  generalize (p : ℝ) = P at hP0 hP1
  have f0 := Verif.Lemmas.FloatR.fl_nonneg hP0
  have f1 := (abs_le.1 (Verif.Lemmas.FloatR.fl_rel hP0)).2
  generalize Model.FloatR.fl P = P' at f0 f1
  have hP' : P' ≤ 2.0001 * 10 ^ 16 := by norm_num at f1 ⊢; linarith
  have g0 : (0 : ℝ) ≤ P' / 2 ^ 64 := div_nonneg f0 (by positivity)
  have g1 : P' / 2 ^ 64 ≤ 0.00108426 := by
    rw [div_le_iff₀ (by positivity)]
    norm_num at hP' ⊢
    linarith
  generalize P' / 2 ^ 64 = e' at g0 g1
  have he0 := Verif.Lemmas.FloatR.fl_nonneg g0
  have he1 := (abs_le.1 (Verif.Lemmas.FloatR.fl_rel g0)).2
  generalize Model.FloatR.fl e' = e at he0 he1
  have he2 : e ≤ 0.033 ^ 2 := by norm_num at he1 g1 ⊢; linarith
  have hs0 : 0 ≤ Real.sqrt e := Real.sqrt_nonneg e
  have hs1 : Real.sqrt e ≤ 0.033 := by
    rw [show (0.033 : ℝ) = Real.sqrt (0.033 ^ 2) by rw [Real.sqrt_sq (by norm_num)]]
    exact Real.sqrt_le_sqrt he2
  generalize Real.sqrt e = s at hs0 hs1
  have s0 := Verif.Lemmas.FloatR.fl_nonneg hs0
  have s1 := (abs_le.1 (Verif.Lemmas.FloatR.fl_rel hs0)).2
  generalize Model.FloatR.fl s = s' at s0 s1
  have t0 : (0 : ℝ) ≤ 10 * 3 * s' := by positivity
  have t0' := Verif.Lemmas.FloatR.fl_nonneg t0
  have t1 := (abs_le.1 (Verif.Lemmas.FloatR.fl_rel t0)).2
  generalize Model.FloatR.fl (10 * 3 * s') = t at t0' t1
  have u0 : (0 : ℝ) ≤ e + t := by positivity
  have u0' := Verif.Lemmas.FloatR.fl_nonneg u0
  have u1 := (abs_le.1 (Verif.Lemmas.FloatR.fl_rel u0)).2
  generalize Model.FloatR.fl (e + t) = u at u0' u1
  have hu : u < 1 := by
    norm_num at he2 hs1 s1 t1 u1 ⊢
    linarith
  rw [← hcn]
  constructor
  · intro h heq
    subst heq
    simp [Model.FloatR.fl] at h
    linarith
  · intro hne
    have hge : 1 ≤ n - c := by omega
    have hcast : (((n : ℤ) - (c : ℤ) : ℤ) : ℝ) = ((n - c : ℕ) : ℝ) := by
      rw [← Nat.cast_sub hle]; norm_cast
    rw [hcast, Verif.Lemmas.FloatR.fl_self (Verif.Lemmas.FloatR.isFloat_nat (by omega))]
    have : (1 : ℝ) ≤ ((n - c : ℕ) : ℝ) := by exact_mod_cast hge
    linarith

theorem not_nodup_map {α : Type} {ks : List α} (hk : ks.Nodup) (f : α → U64) :
    ¬ (ks.map f).Nodup ↔ ∃ x ∈ ks, ∃ y ∈ ks, x ≠ y ∧ f x = f y := by
  rw [List.nodup_map_iff_inj_on hk]
  push Not
  constructor
  · rintro ⟨x, hx, y, hy, h1, h2⟩; exact ⟨x, hx, y, hy, h2, h1⟩
  · rintro ⟨x, hx, y, hy, h1, h2⟩; exact ⟨x, hx, y, hy, h2, h1⟩

end Verif.Lemmas.Smhasher
