import Verif.Lemmas.Murmur3Inj
import Verif.Props.Murmur3
import Verif.Props.Certain

/-! Property C139: murmur3 separates short keys of different lengths. -/

namespace Verif.Props.Murmur3Short
open Verif Verif.Spec.Murmur3 Verif.Lemmas Verif.Lemmas.Murmur3

/-- Splitting a sum at a bit position: the high and the low part, with the carries `c` out of the low part and `k` out of the high part. -/
theorem split_add (L H M a b : Nat) (hL : 0 < L) (hM : M = L * H) (ha : a < M) (hb : b < M) :
    ∃ c k, c ≤ 1 ∧ k ≤ 1 ∧ (a + b) % M / L + k * H = a / L + b / L + c ∧ (a + b) % M % L + c * L = a % L + b % L := by
  obtain ⟨q, t, rfl, ht⟩ : ∃ q t, a = L * q + t ∧ t < L := ⟨a / L, a % L, (Nat.div_add_mod a L).symm, Nat.mod_lt _ hL⟩
  obtain ⟨p, s, rfl, hs⟩ : ∃ p s, b = L * p + s ∧ s < L := ⟨b / L, b % L, (Nat.div_add_mod b L).symm, Nat.mod_lt _ hL⟩
  have dm : ∀ x y, y < L → (L * x + y) / L = x ∧ (L * x + y) % L = y := fun x y hy =>
    ⟨by rw [Nat.mul_add_div hL, Nat.div_eq_of_lt hy, Nat.add_zero], by rw [Nat.mul_add_mod, Nat.mod_eq_of_lt hy]⟩
  have lt : ∀ x y, y < L → x < H → L * x + y < L * H := fun x y hy hx =>
    calc L * x + y < L * x + L := Nat.add_lt_add_left hy _
      _ = L * (x + 1) := (Nat.mul_succ L x).symm
      _ ≤ L * H := Nat.mul_le_mul_left L hx
  have inv : ∀ x y, L * x + y < M → x < H := fun x y h => by
    rw [hM] at h
    exact Nat.lt_of_mul_lt_mul_left (a := L) (by omega)
  have hq := inv q t ha
  have hp := inv p s hb
  rw [(dm q t ht).1, (dm q t ht).2, (dm p s hs).1, (dm p s hs).2]
  have key : ∀ x y k, y < L → x < H → L * q + t + (L * p + s) = L * x + y + k * M → (L * q + t + (L * p + s)) % M = L * x + y := fun x y k hy hx e => by
    rw [e, Nat.add_mul_mod_self_right, Nat.mod_eq_of_lt (hM ▸ lt x y hy hx)]
  have m1 : L * (q + p) = L * q + L * p := Nat.mul_add L q p
  rcases Nat.lt_or_ge (t + s) L with h1 | h1
  · rcases Nat.lt_or_ge (q + p) H with h2 | h2
    · rw [key (q + p) (t + s) 0 h1 h2 (by omega), (dm _ _ h1).1, (dm _ _ h1).2]
      exact ⟨0, 0, by omega⟩
    · have m2 : L * (q + p - H) + M = L * q + L * p := by rw [hM, ← Nat.mul_add, ← m1, Nat.sub_add_cancel h2]
      rw [key (q + p - H) (t + s) 1 h1 (by omega) (by omega), (dm _ _ h1).1, (dm _ _ h1).2]
      exact ⟨0, 1, by omega⟩
  · have h3 : t + s - L < L := by omega
    have m3 : L * (q + p + 1) = L * q + L * p + L := by rw [Nat.mul_succ, m1]
    rcases Nat.lt_or_ge (q + p + 1) H with h2 | h2
    · rw [key (q + p + 1) (t + s - L) 0 h3 h2 (by omega), (dm _ _ h3).1, (dm _ _ h3).2]
      exact ⟨1, 0, by omega⟩
    · have m2 : L * (q + p + 1 - H) + M = L * q + L * p + L := by rw [hM, ← Nat.mul_add, ← m3, Nat.sub_add_cancel h2]
      rw [key (q + p + 1 - H) (t + s - L) 1 h3 (by omega) (by omega), (dm _ _ h3).1, (dm _ _ h3).2]
      exact ⟨1, 1, by omega⟩

/-- Rotating a sum, on numbers. -/
theorem rotNat (L H M a b : Nat) (hL : 0 < L) (hM : M = L * H) (ha : a < M) (hb : b < M) :
    ∃ e ∈ [0, 1, M - H, M - H + 1], (a + b) % M / L + (a + b) % M % L * H = ((a / L + a % L * H) + (b / L + b % L * H) + e) % M := by
  obtain ⟨c, k, hc, hk, h1, h2⟩ := split_add L H M a b hL hM ha hb
  have hM0 : 0 < M := by omega
  have hH : H ≤ M := hM ▸ Nat.le_mul_of_pos_left H hL
  have hx : (a + b) % M / L + (a + b) % M % L * H < M := by
    have e1 : (a + b) % M / L < H := Nat.div_lt_of_lt_mul (hM ▸ Nat.mod_lt _ hM0)
    calc _ < H + (a + b) % M % L * H := Nat.add_lt_add_right e1 _
      _ = ((a + b) % M % L + 1) * H := by rw [Nat.succ_mul, Nat.add_comm]
      _ ≤ L * H := Nat.mul_le_mul_right H (Nat.mod_lt _ hL)
      _ = M := hM.symm
  have h3 : (a + b) % M % L * H + c * M = a % L * H + b % L * H := by rw [hM, ← Nat.mul_assoc, ← Nat.add_mul, ← hM, h2, Nat.add_mul]
  generalize (a + b) % M / L = X at *
  generalize (a + b) % M % L * H = Y at *
  have key : ∀ e n, X + Y + n * M = (a / L + a % L * H) + (b / L + b % L * H) + e → X + Y = ((a / L + a % L * H) + (b / L + b % L * H) + e) % M := fun e n h => by
    rw [← h, Nat.add_mul_mod_self_right, Nat.mod_eq_of_lt hx]
  have hc' : c = 0 ∨ c = 1 := by omega
  have hk' : k = 0 ∨ k = 1 := by omega
  rcases hc' with rfl | rfl <;> rcases hk' with rfl | rfl
  · exact ⟨0, by simp, key 0 0 (by omega)⟩
  · exact ⟨M - H, by simp, key _ 1 (by omega)⟩
  · exact ⟨1, by simp, key _ 1 (by omega)⟩
  · exact ⟨M - H + 1, by simp, key _ 2 (by omega)⟩

theorem rotR32 (x : U32) : (x.rotateRight 15).toNat = x.toNat / 2 ^ 15 + x.toNat % 2 ^ 15 * 2 ^ 17 := by
  rw [BitVec.rotateRight_def, BitVec.toNat_or, BitVec.toNat_ushiftRight, BitVec.toNat_shiftLeft, Nat.shiftRight_eq_div_pow, Nat.shiftLeft_eq]
  have hx := x.isLt
  rw [show 32 - 15 % 32 = 17 from rfl, show 15 % 32 = 15 from rfl, show x.toNat * 2 ^ 17 % 2 ^ 32 = 2 ^ 17 * (x.toNat % 2 ^ 15) from by omega,
    Nat.or_comm, ← Nat.two_pow_add_eq_or_of_lt (by omega)]
  omega

theorem rotR64 (x : U64) : (x.rotateRight 33).toNat = x.toNat / 2 ^ 33 + x.toNat % 2 ^ 33 * 2 ^ 31 := by
  rw [BitVec.rotateRight_def, BitVec.toNat_or, BitVec.toNat_ushiftRight, BitVec.toNat_shiftLeft, Nat.shiftRight_eq_div_pow, Nat.shiftLeft_eq]
  have hx := x.isLt
  rw [show 64 - 33 % 64 = 31 from rfl, show 33 % 64 = 33 from rfl, show x.toNat * 2 ^ 31 % 2 ^ 64 = 2 ^ 31 * (x.toNat % 2 ^ 33) from by omega,
    Nat.or_comm, ← Nat.two_pow_add_eq_or_of_lt (by omega)]
  omega

/-- Rotating a sum: the sum of the rotations, up to two carries. -/
theorem rot_add32 (u d : U32) : ∃ e ∈ [0#32, 1#32, 0xfffe0000#32, 0xfffe0001#32], (u + d).rotateRight 15 = u.rotateRight 15 + d.rotateRight 15 + e := by
  obtain ⟨e, he, h⟩ := rotNat (2 ^ 15) (2 ^ 17) (2 ^ 32) u.toNat d.toNat (by decide) (by decide) u.isLt d.isLt
  refine ⟨BitVec.ofNat 32 e, ?_, ?_⟩
  · exact List.mem_map_of_mem (f := BitVec.ofNat 32) he
  · rw [← BitVec.toNat_inj, BitVec.toNat_add, BitVec.toNat_add, rotR32, rotR32, rotR32, BitVec.toNat_add, BitVec.toNat_ofNat, h, ← Nat.add_mod]

theorem rot_add64 (u d : U64) : ∃ e ∈ [0#64, 1#64, 0xffffffff80000000#64, 0xffffffff80000001#64], (u + d).rotateRight 33 = u.rotateRight 33 + d.rotateRight 33 + e := by
  obtain ⟨e, he, h⟩ := rotNat (2 ^ 33) (2 ^ 31) (2 ^ 64) u.toNat d.toNat (by decide) (by decide) u.isLt d.isLt
  refine ⟨BitVec.ofNat 64 e, ?_, ?_⟩
  · exact List.mem_map_of_mem (f := BitVec.ofNat 64) he
  · rw [← BitVec.toNat_inj, BitVec.toNat_add, BitVec.toNat_add, rotR64, rotR64, rotR64, BitVec.toNat_add, BitVec.toNat_ofNat, h, ← Nat.add_mod]

/-- Tail values of fewer than 24 bits are mixed to values that differ by 4 or more. -/
theorem apart32 (x y : U32) (hx : x.toNat < 2 ^ 24) (hy : y.toNat < 2 ^ 24) (d : U32) (h : mixK32 y = mixK32 x + d)
    (hd : d ∈ [1#32, 2#32, 3#32, -1#32, -2#32, -3#32]) : False := by
  unfold mixK32 at h
  have h1 := congrArg (· * 0x56ed309b#32) h
  simp only [BitVec.add_mul] at h1
  rw [BitVec.mul_assoc, BitVec.mul_assoc, show (0x1b873593#32 * 0x56ed309b#32 : U32) = 1#32 from by decide, BitVec.mul_one, BitVec.mul_one] at h1
  obtain ⟨e, he, h2⟩ := rot_add32 ((x * 0xcc9e2d51#32).rotateLeft 15) (d * 0x56ed309b#32)
  rw [← h1, rotateRight_rotateLeft _ (by decide), rotateRight_rotateLeft _ (by decide)] at h2
  have h3 := congrArg (· * 0xdee13bb1#32) h2
  simp only [BitVec.add_mul] at h3
  rw [BitVec.mul_assoc, BitVec.mul_assoc, show (0xcc9e2d51#32 * 0xdee13bb1#32 : U32) = 1#32 from by decide, BitVec.mul_one, BitVec.mul_one, BitVec.add_assoc] at h3
  have key : ([1#32, 2#32, 3#32, -1#32, -2#32, -3#32].all fun d => [0#32, 1#32, 0xfffe0000#32, 0xfffe0001#32].all fun e =>
      decide (2 ^ 24 ≤ ((d * 0x56ed309b#32).rotateRight 15 * 0xdee13bb1#32 + e * 0xdee13bb1#32 : U32).toNat ∧
      ((d * 0x56ed309b#32).rotateRight 15 * 0xdee13bb1#32 + e * 0xdee13bb1#32 : U32).toNat ≤ 2 ^ 32 - 2 ^ 24)) = true := by decide +kernel
  obtain ⟨k1, k2⟩ := of_decide_eq_true (List.all_eq_true.mp (List.all_eq_true.mp key d hd) e he)
  have h4 := congrArg BitVec.toNat h3
  rw [BitVec.toNat_add] at h4
  omega

/-- The differences of fewer than sixteen. -/
def below16 : List U64 := [1, 2, 3, 4, 5, 6, 7, 8, 9, 10, 11, 12, 13, 14, 15, -1, -2, -3, -4, -5, -6, -7, -8, -9, -10, -11, -12, -13, -14, -15]

theorem apart64 (x y : U64) (hx : x.toNat < 2 ^ 56) (hy : y.toNat < 2 ^ 56) (d : U64) (h : mixK2 y = mixK2 x + d) (hd : d ∈ below16) : False := by
  unfold mixK2 at h
  have h1 := congrArg (· * 0xa98409e882ce4d7d#64) h
  simp only [BitVec.add_mul] at h1
  rw [BitVec.mul_assoc, BitVec.mul_assoc, show (0x87c37b91114253d5#64 * 0xa98409e882ce4d7d#64 : U64) = 1#64 from by decide, BitVec.mul_one, BitVec.mul_one] at h1
  obtain ⟨e, he, h2⟩ := rot_add64 ((x * 0x4cf5ad432745937f#64).rotateLeft 33) (d * 0xa98409e882ce4d7d#64)
  rw [← h1, rotateRight_rotateLeft _ (by decide), rotateRight_rotateLeft _ (by decide)] at h2
  have h3 := congrArg (· * 0xa81e14edd9de2c7f#64) h2
  simp only [BitVec.add_mul] at h3
  rw [BitVec.mul_assoc, BitVec.mul_assoc, show (0x4cf5ad432745937f#64 * 0xa81e14edd9de2c7f#64 : U64) = 1#64 from by decide, BitVec.mul_one, BitVec.mul_one, BitVec.add_assoc] at h3
  have key : (below16.all fun d => [0#64, 1#64, 0xffffffff80000000#64, 0xffffffff80000001#64].all fun e =>
      decide (2 ^ 56 ≤ ((d * 0xa98409e882ce4d7d#64).rotateRight 33 * 0xa81e14edd9de2c7f#64 + e * 0xa81e14edd9de2c7f#64 : U64).toNat ∧
      ((d * 0xa98409e882ce4d7d#64).rotateRight 33 * 0xa81e14edd9de2c7f#64 + e * 0xa81e14edd9de2c7f#64 : U64).toNat ≤ 2 ^ 64 - 2 ^ 56)) = true := by decide +kernel
  obtain ⟨k1, k2⟩ := of_decide_eq_true (List.all_eq_true.mp (List.all_eq_true.mp key d hd) e he)
  have h4 := congrArg BitVec.toNat h3
  rw [BitVec.toNat_add] at h4
  omega

/-- Two values whose quotients by `4` agree differ by less than 4. -/
theorem close32 (p q : U32) (h : p.toNat / 4 = q.toNat / 4) : q = p ∨ ∃ d ∈ [1#32, 2#32, 3#32, -1#32, -2#32, -3#32], q = p + d := by
  have hp := p.isLt
  have hq := q.isLt
  by_cases e : q = p
  · exact Or.inl e
  · refine Or.inr ⟨q - p, ?_, by rw [BitVec.add_comm, BitVec.sub_add_cancel]⟩
    have hne : p.toNat % 4 ≠ q.toNat % 4 := fun hrs => e (BitVec.eq_of_toNat_eq (by omega))
    have h2 : q - p = BitVec.ofNat 32 (q.toNat % 4) - BitVec.ofNat 32 (p.toNat % 4) := by
      apply BitVec.eq_of_toNat_eq
      rw [BitVec.toNat_sub, BitVec.toNat_sub, BitVec.toNat_ofNat, BitVec.toNat_ofNat]
      omega
    rw [h2]
    have key : ∀ r s : Fin 4, r ≠ s → [1#32, 2#32, 3#32, -1#32, -2#32, -3#32].contains (BitVec.ofNat 32 s.val - BitVec.ofNat 32 r.val) = true := by decide +kernel
    exact List.contains_iff_mem.mp (key ⟨p.toNat % 4, by omega⟩ ⟨q.toNat % 4, by omega⟩ (fun hrs => hne (congrArg Fin.val hrs)))

/-- Two values whose quotients by `16` agree differ by less than 16. -/
theorem close64 (p q : U64) (h : p.toNat / 16 = q.toNat / 16) : q = p ∨ ∃ d ∈ below16, q = p + d := by
  have hp := p.isLt
  have hq := q.isLt
  by_cases e : q = p
  · exact Or.inl e
  · refine Or.inr ⟨q - p, ?_, by rw [BitVec.add_comm, BitVec.sub_add_cancel]⟩
    have hne : p.toNat % 16 ≠ q.toNat % 16 := fun hrs => e (BitVec.eq_of_toNat_eq (by omega))
    have h2 : q - p = BitVec.ofNat 64 (q.toNat % 16) - BitVec.ofNat 64 (p.toNat % 16) := by
      apply BitVec.eq_of_toNat_eq
      rw [BitVec.toNat_sub, BitVec.toNat_sub, BitVec.toNat_ofNat, BitVec.toNat_ofNat]
      omega
    rw [h2]
    have key : ∀ r s : Fin 16, r ≠ s → below16.contains (BitVec.ofNat 64 s.val - BitVec.ofNat 64 r.val) = true := by decide +kernel
    exact List.contains_iff_mem.mp (key ⟨p.toNat % 16, by omega⟩ ⟨q.toNat % 16, by omega⟩ (fun hrs => hne (congrArg Fin.val hrs)))

/-- If `p` with length `n` and `q` with length `n'` give one value, and the lengths differ below bit 2 only, so do `p` and `q`. -/
theorem high32 (p q n n' : U32) (hn : n.toNat / 4 = n'.toNat / 4) (h : p ^^^ n = q ^^^ n') : p.toNat / 4 = q.toNat / 4 := by
  have h1 := congrArg (fun z : U32 => (z >>> 2).toNat) h
  simp only [BitVec.ushiftRight_xor_distrib, BitVec.toNat_xor, BitVec.toNat_ushiftRight, Nat.shiftRight_eq_div_pow] at h1
  rw [show (2 : Nat) ^ 2 = 4 from rfl, hn] at h1
  exact Nat.xor_left_injective h1

theorem high64 (p q n n' : U64) (hn : n.toNat / 16 = n'.toNat / 16) (h : p ^^^ n = q ^^^ n') : p.toNat / 16 = q.toNat / 16 := by
  have h1 := congrArg (fun z : U64 => (z >>> 4).toNat) h
  simp only [BitVec.ushiftRight_xor_distrib, BitVec.toNat_xor, BitVec.toNat_ushiftRight, Nat.shiftRight_eq_div_pow] at h1
  rw [show (2 : Nat) ^ 4 = 16 from rfl, hn] at h1
  exact Nat.xor_left_injective h1

theorem x86_32_tails (s : U32) (x u v : List U8) (hx : x.length % 4 = 0) (hu : u.length ≤ 3) (hv : v.length ≤ 3) (h : x86_32 s (x ++ u) = x86_32 s (x ++ v)) : u = v := by
  have h0 := h
  simp only [x86_32] at h
  have h1 := fmix32_inj h
  have eu : ∀ w : List U8, w.length ≤ 3 → body32 s (x ++ w) = body32 s x ∧ tailOf 4 (x ++ w) = w := by
    intro w hw
    rw [(body32_append s x w hx).1, (body32_append s x w hx).2, tailOf_of_lt (by omega)]
    generalize body32 s x = q
    rw [body32, blocks_of_lt (by omega)]
    exact ⟨rfl, rfl⟩
  rw [(eu u hu).1, (eu u hu).2, (eu v hv).1, (eu v hv).2, BitVec.xor_assoc, BitVec.xor_assoc] at h1
  have h2 := xor_left_inj' _ h1
  have lt : ∀ w : List U8, w.length ≤ 3 → (BitVec.ofNat 32 (leNat w)).toNat < 2 ^ 24 := by
    intro w hw
    have := leNat_lt w
    have h2 : (256 : Nat) ^ w.length ≤ 256 ^ 3 := Nat.pow_le_pow_right (by omega) hw
    rw [BitVec.toNat_ofNat, Nat.mod_eq_of_lt (by omega)]
    omega
  rw [List.length_append, List.length_append] at h2
  have hn : (BitVec.ofNat 32 (x.length + u.length)).toNat / 4 = (BitVec.ofNat 32 (x.length + v.length)).toNat / 4 := by
    rw [BitVec.toNat_ofNat, BitVec.toNat_ofNat]; omega
  rcases close32 _ _ (high32 _ _ _ _ hn h2) with h3 | ⟨d, hd, h3⟩
  · rw [h3] at h2
    have h4 := congrArg BitVec.toNat (xor_left_inj' _ h2)
    rw [BitVec.toNat_ofNat, BitVec.toNat_ofNat] at h4
    refine x86_32_one_block s x u v [] hx (by omega) (Or.inr ⟨by omega, rfl⟩) ?_
    rw [List.append_nil, List.append_nil]
    exact h0
  · exact (apart32 _ _ (lt u hu) (lt v hv) d h3 hd).elim

theorem x64_128_tails (s : U64) (x u v : List U8) (hx : x.length % 16 = 0) (hu : u.length ≤ 15) (hv : v.length ≤ 15) (h : x64_128 s (x ++ u) = x64_128 s (x ++ v)) :
    u = v := by
  have h0 := h
  simp only [x64_128] at h
  have h1 := congrArg Prod.snd (final128_inj h)
  dsimp only at h1
  have eu : ∀ w : List U8, w.length ≤ 15 → body128 (s, s) (x ++ w) = body128 (s, s) x ∧ tailOf 16 (x ++ w) = w := by
    intro w hw
    rw [(body128_append (s, s) x w hx).1, (body128_append (s, s) x w hx).2, tailOf_of_lt (by omega)]
    generalize body128 (s, s) x = q
    rw [body128, blocks_of_lt (by omega)]
    exact ⟨rfl, rfl⟩
  rw [(eu u hu).1, (eu u hu).2, (eu v hv).1, (eu v hv).2, BitVec.xor_assoc, BitVec.xor_assoc] at h1
  have h2 := xor_left_inj' _ h1
  have lt : ∀ w : List U8, w.length ≤ 15 → (BitVec.ofNat 64 (leNat (w.drop 8))).toNat < 2 ^ 56 := by
    intro w hw
    have := leNat_lt (w.drop 8)
    have h2 : (256 : Nat) ^ (w.drop 8).length ≤ 256 ^ 7 := Nat.pow_le_pow_right (by omega) (by rw [List.length_drop]; omega)
    rw [BitVec.toNat_ofNat, Nat.mod_eq_of_lt (by omega)]
    omega
  rw [List.length_append, List.length_append] at h2
  have hn : (BitVec.ofNat 64 (x.length + u.length)).toNat / 16 = (BitVec.ofNat 64 (x.length + v.length)).toNat / 16 := by
    rw [BitVec.toNat_ofNat, BitVec.toNat_ofNat]; omega
  rcases close64 _ _ (high64 _ _ _ _ hn h2) with h3 | ⟨d, hd, h3⟩
  · rw [h3] at h2
    have h4 := congrArg BitVec.toNat (xor_left_inj' _ h2)
    rw [BitVec.toNat_ofNat, BitVec.toNat_ofNat] at h4
    refine x64_128_one_block s x u v [] hx (by omega) (Or.inr ⟨by omega, rfl⟩) ?_
    rw [List.append_nil, List.append_nil]
    exact h0
  · exact (apart64 _ _ (lt u hu) (lt v hv) d h3 hd).elim

open Verif.Model.Murmur3 in
/-- C139. `Sum32` separates keys that begin with the same whole blocks and go on with at most three bytes each, whatever their lengths. -/
theorem C139_tails32 (x u v : List U8) (hx : x.length % 4 = 0) (hu : u.length ≤ 3) (hv : v.length ≤ 3) (h : Sum32 (x ++ u) = Sum32 (x ++ v)) : u = v := by
  rw [Sum32_eq, Sum32_eq] at h
  exact x86_32_tails _ x u v hx hu hv (Except.ok.inj h)

open Verif.Model.Murmur3 in
/-- C139. `Sum128` separates keys that begin with the same whole blocks and go on with at most fifteen bytes each, whatever their lengths. -/
theorem C139_tails128 (x u v : List U8) (hx : x.length % 16 = 0) (hu : u.length ≤ 15) (hv : v.length ≤ 15) (h : Sum128 (x ++ u) = Sum128 (x ++ v)) : u = v := by
  rw [Sum128_eq, Sum128_eq] at h
  exact x64_128_tails _ x u v hx hu hv (Except.ok.inj h)

open Verif.Model.Murmur3 in
/-- C139. Four bytes are too many for `Sum32`. -/
theorem C139_four_bytes : ∃ u v : List U8, u.length ≤ 4 ∧ v.length ≤ 4 ∧ u ≠ v ∧ Sum32 u = Sum32 v :=
  ⟨[196, 244], [0, 0, 255, 244], by decide, by decide, by decide, by decide +kernel⟩

section
open Verif.Spec.RunSM Verif.Spec.Hashf
open Verif.Model.Smhasher (TestFn)
open Verif.Model.RunSM (Event Out RunSMhasher)
open Verif.Model.Hashf (State Ext Hashf)
open Verif.Lemmas.RunSM

/-- C139. In every run of the SMHasher tests with murmur332 the test of small keys finds nothing. -/
theorem C139_small_keys (e : Ext) (he : Ok e) (s : State) (hs : Reach e s) (arg : String) (v : Bool) (r : Nat → U32) :
    ∃ s' os, RunSMhasher (Hashf e) r arg v { s with Hf2 := "murmur332" } = .ok (s', os) ∧ (∃ o, (TestFn.SmallKeys, o) ∈ os) ∧
      ∀ o, (TestFn.SmallKeys, o) ∈ os → o = ⟨false, []⟩ := by
  obtain ⟨H, hH, s', os, hr, _, ho, hj⟩ := (C109_hashf e he s hs "murmur332" arg v r).2.2.2 (by decide) (by decide) (by decide)
  have hH' : H = fun k _ => wide (Spec.Murmur3.x86_32 0#32 k) := by
    have : some (fun (k : List U8) (_ : U64) => some (wide (Spec.Murmur3.x86_32 0#32 k))) = some (fun k sd => some (H k sd)) := hH
    funext k sd
    exact (Option.some.inj (congrFun (congrFun (Option.some.inj this) k) sd)).symm
  refine ⟨s', os, hr, ?_, fun o hm => ?_⟩
  · have : TestFn.SmallKeys ∈ os.map (·.1) := by rw [ho]; decide
    obtain ⟨⟨t', o⟩, hm, h⟩ := List.mem_map.1 this
    dsimp only at h
    subst h
    exact ⟨o, hm⟩
  · obtain ⟨found, h1, h2, h3⟩ := hj _ hm
    cases h1 with
    | cons ha hb =>
      cases hb
      rename_i y
      have hy : y = none := by
        apply Classical.byContradiction
        intro hne
        obtain ⟨k, sd, k', sd', ⟨m1, m2⟩, ⟨m3, m4⟩, hk, heq⟩ := ha.1.1 hne
        rw [hH'] at heq
        have hw : Spec.Murmur3.x86_32 0#32 k = Spec.Murmur3.x86_32 0#32 k' := by
          have := congrArg BitVec.toNat heq
          simp only [wide, BitVec.toNat_ofNat] at this
          have a := (Spec.Murmur3.x86_32 0#32 k).isLt
          have b := (Spec.Murmur3.x86_32 0#32 k').isLt
          exact BitVec.eq_of_toNat_eq (by omega)
        exact hk (Prod.ext (x86_32_tails _ [] k k' rfl m2.2 m4.2 hw) (m1.trans m3.symm))
      subst hy
      obtain ⟨ret, ev⟩ := o
      dsimp only at h2 h3
      have hret : ret = false := by
        cases ret with
        | false => rfl
        | true =>
          obtain ⟨_, x, hx, hne⟩ := h3.1 rfl
          exact absurd (List.mem_singleton.1 hx) hne
      rw [hret, h2]
      rfl

/-- The hypotheses of C139_small_keys hold at the start. -/
example : Ok exampleExt ∧ Reach exampleExt Model.Hashf.init := ⟨exampleExt_ok, .start⟩
end

/-- C139 at work: a key and its prolongations by zeros have five values. -/
example : Spec.Murmur3.x86_32 0#32 ([1, 2, 3, 4] ++ []) ≠ Spec.Murmur3.x86_32 0#32 ([1, 2, 3, 4] ++ [0, 0, 0]) :=
  fun h => absurd (x86_32_tails 0 [1, 2, 3, 4] [] [0, 0, 0] (by decide) (by decide) (by decide) h) (by decide)

end Verif.Props.Murmur3Short
