import Verif.Lemmas.Murmur3

namespace Verif.Lemmas.Murmur3
open Verif Verif.Spec.Murmur3

theorem mixK32_inj {x y : U32} (h : mixK32 x = mixK32 y) : x = y := by
  simp only [mixK32] at h
  exact mul_odd_inj (c' := 0xdee13bb1#32) (by decide) (rotateLeft_inj (by decide)
    (mul_odd_inj (c' := 0x56ed309b#32) (by decide) h))

theorem block32_inj_k (s : U32) {x y : U32} (h : block32 s x = block32 s y) : x = y := by
  simp only [block32] at h
  exact mixK32_inj (xor_left_inj' s (rotateLeft_inj (by decide)
    (mul_odd_inj (c' := 0xcccccccd#32) (by decide) (add_right_inj' _ h))))

theorem block32_inj_h (k : U32) {x y : U32} (h : block32 x k = block32 y k) : x = y := by
  simp only [block32] at h
  exact xor_right_inj' _ (rotateLeft_inj (by decide)
    (mul_odd_inj (c' := 0xcccccccd#32) (by decide) (add_right_inj' _ h)))

theorem fmix32_inj {x y : U32} (h : fmix32 x = fmix32 y) : x = y := by
  simp only [fmix32] at h
  exact xorshiftR_inj (by decide) (mul_odd_inj (c' := 0xa5cb9243#32) (by decide) (xorshiftR_inj (by decide)
    (mul_odd_inj (c' := 0x7ed1b41d#32) (by decide) (xorshiftR_inj (by decide) h))))

theorem foldl_inj {f : σ → β → σ} (hf : ∀ b s s', f s b = f s' b → s = s') (l : List β) {s s' : σ}
    (h : l.foldl f s = l.foldl f s') : s = s' := by
  induction l generalizing s s' with
  | nil => exact h
  | cons b l ih => exact hf b _ _ (ih h)

theorem x86_32_inj_seed (m : List U8) {s s' : U32} (h : x86_32 s m = x86_32 s' m) : s = s' := by
  simp only [x86_32, body32] at h
  exact foldl_inj (fun b s s' => block32_inj_h (le32 b)) _ (xor_right_inj' _ (xor_right_inj' _ (fmix32_inj h)))

theorem ofNat_leNat_inj {w : Nat} {a b : List U8} (hl : a.length = b.length) (hw : 8 * a.length ≤ w)
    (h : BitVec.ofNat w (leNat a) = BitVec.ofNat w (leNat b)) : a = b := by
  apply leNat_inj hl
  have h1 := leNat_lt a
  have h2 := leNat_lt b
  rw [← hl] at h2
  have e : (256 : Nat) ^ a.length = 2 ^ (8 * a.length) := by rw [Nat.pow_mul]
  have hle : 2 ^ (8 * a.length) ≤ 2 ^ w := Nat.pow_le_pow_right (by omega) hw
  have := congrArg BitVec.toNat h
  rw [BitVec.toNat_ofNat, BitVec.toNat_ofNat, Nat.mod_eq_of_lt (by omega), Nat.mod_eq_of_lt (by omega)] at this
  exact this

/-- A message that starts with whole blocks `x`. -/
theorem body32_append (s : U32) (x z : List U8) (hx : x.length % 4 = 0) :
    body32 s (x ++ z) = body32 (body32 s x) z ∧ tailOf 4 (x ++ z) = tailOf 4 z := by
  have ht : tailOf 4 x = [] := List.length_eq_zero_iff.1 (by rw [tailOf_length, hx])
  simp only [body32]
  rw [blocks_append (by omega), List.foldl_append, ht, List.nil_append, tailOf_append (by omega), ht, List.nil_append]
  exact ⟨rfl, rfl⟩

theorem x86_32_one_block (s : U32) (x u v y : List U8) (hx : x.length % 4 = 0) (hl : u.length = v.length)
    (hu : u.length = 4 ∨ (u.length < 4 ∧ y = []))
    (h : x86_32 s (x ++ u ++ y) = x86_32 s (x ++ v ++ y)) : u = v := by
  simp only [x86_32] at h
  have hlen : (x ++ u ++ y).length = (x ++ v ++ y).length := by simp [hl]
  rw [hlen] at h
  have h1 := xor_right_inj' _ (fmix32_inj h)
  rw [List.append_assoc, List.append_assoc, (body32_append s x _ hx).1, (body32_append s x _ hx).1,
    (body32_append s x _ hx).2, (body32_append s x _ hx).2] at h1
  rcases hu with hu | ⟨hu, rfl⟩
  · have h2 := body32_append (body32 s x) u y (by omega)
    have h3 := body32_append (body32 s x) v y (by omega)
    rw [h2.1, h2.2, h3.1, h3.2] at h1
    have h4 : body32 (body32 s x) u = body32 (body32 s x) v := by
      have := xor_right_inj' _ h1
      simp only [body32] at this ⊢
      exact foldl_inj (fun b s s' => block32_inj_h (le32 b)) _ this
    have eu : ∀ w : List U8, w.length = 4 → body32 (body32 s x) w = block32 (body32 s x) (le32 w) := by
      intro w hw
      generalize body32 s x = q
      rw [body32, blocks_of_le (by omega) (by omega), List.drop_of_length_le (by omega), blocks_nil,
        List.take_of_length_le (by omega)]
      rfl
    rw [eu u hu, eu v (by omega)] at h4
    exact le32_inj hu (by omega) (block32_inj_k _ h4)
  · simp only [List.append_nil] at h1
    rw [tailOf_of_lt hu, tailOf_of_lt (by omega : v.length < 4)] at h1
    have eu : ∀ w : List U8, w.length < 4 → body32 (body32 s x) w = body32 s x := by
      intro w hw
      generalize body32 s x = q
      rw [body32, blocks_of_lt hw]; rfl
    rw [eu u hu, eu v (by omega)] at h1
    exact ofNat_leNat_inj hl (by omega) (mixK32_inj (xor_left_inj' _ h1))

/-! ### 128 bit -/

theorem mixK1_inj {x y : U64} (h : mixK1 x = mixK1 y) : x = y := by
  simp only [mixK1] at h
  exact mul_odd_inj (c' := 0xa98409e882ce4d7d#64) (by decide) (rotateLeft_inj (by decide)
    (mul_odd_inj (c' := 0xa81e14edd9de2c7f#64) (by decide) h))

theorem mixK2_inj {x y : U64} (h : mixK2 x = mixK2 y) : x = y := by
  simp only [mixK2] at h
  exact mul_odd_inj (c' := 0xa81e14edd9de2c7f#64) (by decide) (rotateLeft_inj (by decide)
    (mul_odd_inj (c' := 0xa98409e882ce4d7d#64) (by decide) h))

theorem fmix64_inj {x y : U64} (h : fmix64 x = fmix64 y) : x = y := by
  simp only [fmix64] at h
  exact xorshiftR_inj (by decide) (mul_odd_inj (c' := 0x4f74430c22a54005#64) (by decide) (xorshiftR_inj (by decide)
    (mul_odd_inj (c' := 0x9cb4b2f8129337db#64) (by decide) (xorshiftR_inj (by decide) h))))

theorem final128_inj {a b : U64 × U64} (h : Spec.Murmur3.final128 a = Spec.Murmur3.final128 b) : a = b := by
  obtain ⟨a1, a2⟩ := a
  obtain ⟨b1, b2⟩ := b
  simp only [Spec.Murmur3.final128, Prod.mk.injEq] at h
  obtain ⟨h1, h2⟩ := h
  rw [h1] at h2
  have e2 := add_right_inj' _ h2
  rw [e2] at h1
  have e1 := add_right_inj' _ h1
  have f1 := fmix64_inj e1
  have f2 := fmix64_inj e2
  rw [f1] at f2
  have g2 := add_right_inj' _ f2
  rw [g2] at f1
  rw [g2, add_right_inj' _ f1]

theorem block128_inj_k (s : U64 × U64) {x1 x2 y1 y2 : U64} (h : block128 s x1 x2 = block128 s y1 y2) :
    x1 = y1 ∧ x2 = y2 := by
  simp only [block128, Prod.mk.injEq] at h
  obtain ⟨h1, h2⟩ := h
  rw [h1] at h2
  constructor
  · exact mixK1_inj (xor_left_inj' _ (rotateLeft_inj (by decide) (add_right_inj' _
      (mul_odd_inj (c' := 0xcccccccccccccccd#64) (by decide) (add_right_inj' _ h1)))))
  · exact mixK2_inj (xor_left_inj' _ (rotateLeft_inj (by decide) (add_right_inj' _
      (mul_odd_inj (c' := 0xcccccccccccccccd#64) (by decide) (add_right_inj' _ h2)))))

theorem block128_inj_h (k1 k2 : U64) {x y : U64 × U64} (h : block128 x k1 k2 = block128 y k1 k2) : x = y := by
  obtain ⟨x1, x2⟩ := x
  obtain ⟨y1, y2⟩ := y
  simp only [block128, Prod.mk.injEq] at h
  obtain ⟨h1, h2⟩ := h
  rw [h1] at h2
  have e2 := xor_right_inj' _ (rotateLeft_inj (by decide) (add_right_inj' _
      (mul_odd_inj (c' := 0xcccccccccccccccd#64) (by decide) (add_right_inj' _ h2))))
  subst e2
  have e1 := xor_right_inj' _ (rotateLeft_inj (by decide) (add_right_inj' _
      (mul_odd_inj (c' := 0xcccccccccccccccd#64) (by decide) (add_right_inj' _ h1))))
  rw [e1]

theorem body128_append (s : U64 × U64) (x z : List U8) (hx : x.length % 16 = 0) :
    body128 s (x ++ z) = body128 (body128 s x) z ∧ tailOf 16 (x ++ z) = tailOf 16 z := by
  have ht : tailOf 16 x = [] := List.length_eq_zero_iff.1 (by rw [tailOf_length, hx])
  simp only [body128]
  rw [blocks_append (by omega), List.foldl_append, ht, List.nil_append, tailOf_append (by omega), ht, List.nil_append]
  exact ⟨rfl, rfl⟩

theorem x64_128_one_block (s : U64) (x u v y : List U8) (hx : x.length % 16 = 0) (hl : u.length = v.length)
    (hu : u.length = 16 ∨ (u.length < 16 ∧ y = []))
    (h : x64_128 s (x ++ u ++ y) = x64_128 s (x ++ v ++ y)) : u = v := by
  simp only [x64_128] at h
  have hlen : (x ++ u ++ y).length = (x ++ v ++ y).length := by simp [hl]
  rw [hlen] at h
  have h1 := final128_inj h
  rw [Prod.mk.injEq] at h1
  obtain ⟨ha, hb⟩ := h1
  have ha := xor_right_inj' _ ha
  have hb := xor_right_inj' _ hb
  rw [List.append_assoc, List.append_assoc, (body128_append (s, s) x _ hx).1, (body128_append (s, s) x _ hx).1,
    (body128_append (s, s) x _ hx).2, (body128_append (s, s) x _ hx).2] at ha hb
  rcases hu with hu | ⟨hu, rfl⟩
  · have h2 := body128_append (body128 (s, s) x) u y (by omega)
    have h3 := body128_append (body128 (s, s) x) v y (by omega)
    rw [h2.1, h2.2, h3.1, h3.2] at ha hb
    have h4 : body128 (body128 (s, s) x) u = body128 (body128 (s, s) x) v := by
      have ha := xor_right_inj' _ ha
      have hb := xor_right_inj' _ hb
      have := Prod.ext ha hb
      simp only [body128] at this ⊢
      exact foldl_inj (fun b s s' => block128_inj_h (le64 b) (le64 (b.drop 8))) _ this
    have eu : ∀ w : List U8, w.length = 16 →
        body128 (body128 (s, s) x) w = block128 (body128 (s, s) x) (le64 w) (le64 (w.drop 8)) := by
      intro w hw
      generalize body128 (s, s) x = q
      rw [body128, blocks_of_le (by omega) (by omega), List.drop_of_length_le (by omega), blocks_nil,
        List.take_of_length_le (by omega)]
      rfl
    rw [eu u hu, eu v (by omega)] at h4
    obtain ⟨k1, k2⟩ := block128_inj_k _ h4
    have e1 : u.take 8 = v.take 8 := le64_inj (by simp; omega) (by simp; omega) (by rw [le64_of_take, le64_of_take]; exact k1)
    have e2 : u.drop 8 = v.drop 8 := le64_inj (by simp; omega) (by simp; omega) k2
    rw [← List.take_append_drop 8 u, e1, e2, List.take_append_drop]
  · simp only [List.append_nil] at ha hb
    rw [tailOf_of_lt hu, tailOf_of_lt (by omega : v.length < 16)] at ha hb
    have eu : ∀ w : List U8, w.length < 16 → body128 (body128 (s, s) x) w = body128 (s, s) x := by
      intro w hw
      generalize body128 (s, s) x = q
      rw [body128, blocks_of_lt hw]; rfl
    rw [eu u hu, eu v (by omega)] at ha hb
    have e1 : u.take 8 = v.take 8 := ofNat_leNat_inj (by simp; omega) (by simp; omega) (mixK1_inj (xor_left_inj' _ ha))
    have e2 : u.drop 8 = v.drop 8 := ofNat_leNat_inj (by simp; omega) (by simp; omega) (mixK2_inj (xor_left_inj' _ hb))
    rw [← List.take_append_drop 8 u, e1, e2, List.take_append_drop]

end Verif.Lemmas.Murmur3
