import Verif.Lemmas.GomapInj

/-! Keys that differ in one word inside the part absorbed in four lanes. -/

namespace Verif.Lemmas.Gomap
open Verif
open Verif.Spec.Gomap (word32 word64 family32 family64 absorb lane group groupWord combine finish stir Lanes Family)

/-- Lane `j`. -/
def laneOf {w : Nat} (v : Lanes w) (j : Nat) : BitVec w := if j = 0 then v.1 else if j = 1 then v.2.1 else if j = 2 then v.2.2.1 else v.2.2.2

/-- The lanes differ in lane `i` and in no other. -/
def OneLane {w : Nat} (i : Nat) (u v : Lanes w) : Prop := ∀ j, j < 4 → (laneOf u j = laneOf v j ↔ j ≠ i)

theorem laneOf_group {w : Nat} (F : Family w) (v : Lanes w) (b : List U8) (j : Nat) (hj : j < 4) : laneOf (group F v b) j = lane F (laneOf v j) (groupWord F b j) := by
  match j, hj with
  | 0, _ => rfl
  | 1, _ => rfl
  | 2, _ => rfl
  | 3, _ => rfl

variable {w : Nat} {F : Family w} (G : Good F)
include G

theorem lane_inj' {u v x : BitVec w} (e : lane F u x = lane F v x) : u = v :=
  xor_right_inj' _ (rotateLeft_inj G.rA (mul_inj_of_odd G.o2 e))

theorem OneLane.group {i : Nat} {u v : Lanes w} (h : OneLane i u v) (b : List U8) : OneLane i (group F u b) (group F v b) := by
  intro j hj
  rw [laneOf_group F u b j hj, laneOf_group F v b j hj, ← h j hj]
  exact ⟨lane_inj' G, fun e => by rw [e]⟩

theorem OneLane.groups {i : Nat} (bs : List (List U8)) : ∀ {u v : Lanes w}, OneLane i u v → OneLane i (bs.foldl (Spec.Gomap.group F) u) (bs.foldl (Spec.Gomap.group F) v) := by
  induction bs with
  | nil => intro u v h; exact h
  | cons b bs ih => intro u v h; exact ih (OneLane.group G h b)

theorem OneLane.combine (o3 : F.m3.toNat % 2 = 1) {i : Nat} (hi : i < 4) {u v : Lanes w} (h : OneLane i u v) : combine F u ≠ combine F v := by
  intro e
  have h0 := h 0 (by omega)
  have h1 := h 1 (by omega)
  have h2 := h 2 (by omega)
  have h3 := h 3 (by omega)
  obtain ⟨u0, u1, u2, u3⟩ := u
  obtain ⟨v0, v1, v2, v3⟩ := v
  change u0 = v0 ↔ _ at h0
  change u1 = v1 ↔ _ at h1
  change u2 = v2 ↔ _ at h2
  change u3 = v3 ↔ _ at h3
  unfold Spec.Gomap.combine at e
  dsimp only at e
  match i, hi with
  | 0, _ =>
    rw [h1.2 (by decide), h2.2 (by decide), h3.2 (by decide)] at e
    exact h0.1 (rotateLeft_inj G.rB (mul_inj_of_odd G.o1 (add_right_inj' _ (add_right_inj' _ (add_right_inj' _ e))))) rfl
  | 1, _ =>
    rw [h0.2 (by decide), h2.2 (by decide), h3.2 (by decide)] at e
    exact h1.1 (rotateLeft_inj G.rB (mul_inj_of_odd G.o2 (add_left_inj' _ (add_right_inj' _ (add_right_inj' _ e))))) rfl
  | 2, _ =>
    rw [h0.2 (by decide), h1.2 (by decide), h3.2 (by decide)] at e
    exact h2.1 (rotateLeft_inj G.rB (mul_inj_of_odd o3 (add_left_inj' _ (add_right_inj' _ e)))) rfl
  | 3, _ =>
    rw [h0.2 (by decide), h1.2 (by decide), h2.2 (by decide)] at e
    exact h3.1 (rotateLeft_inj G.rB (mul_inj_of_odd G.o4 (add_left_inj' _ e))) rfl

theorem groupWord_at {p q x y : List U8} {i : Nat} (hp : p.length = i * F.bytes) (hx : x.length = F.bytes) (hy : y.length = F.bytes) (hne : x ≠ y) (j : Nat) :
    groupWord F (p ++ x ++ q) j = groupWord F (p ++ y ++ q) j ↔ j ≠ i := by
  have hb := G.bytes
  unfold groupWord
  rcases Nat.lt_trichotomy j i with h | rfl | h
  · refine ⟨fun _ => by omega, fun _ => ?_⟩
    have h1 : j * F.bytes + F.bytes ≤ p.length := by
      rw [hp]; have := Nat.mul_le_mul_right F.bytes (show j + 1 ≤ i by omega); rw [Nat.add_mul] at this; omega
    rw [List.append_assoc, List.append_assoc, word_pre p (x ++ q) (y ++ q) _ _ h1]
  · refine ⟨fun e => absurd ?_ hne, fun h => absurd rfl h⟩
    rw [← hp, List.append_assoc, List.append_assoc, List.drop_left, List.drop_left, List.take_append_of_le_length (by omega), List.take_append_of_le_length (by omega),
      List.take_of_length_le (by omega), List.take_of_length_le (by omega)] at e
    have b1 := leNat_lt x
    have b2 := leNat_lt y
    have hw := G.width
    rw [hx] at b1
    rw [hy] at b2
    have e := congrArg BitVec.toNat e
    rw [BitVec.toNat_ofNat, BitVec.toNat_ofNat, Nat.mod_eq_of_lt (by omega), Nat.mod_eq_of_lt (by omega)] at e
    exact leNat_inj (by omega) e
  · refine ⟨fun _ => by omega, fun _ => ?_⟩
    have h1 : p.length + F.bytes ≤ j * F.bytes := by
      rw [hp]; have := Nat.mul_le_mul_right F.bytes (show i + 1 ≤ j by omega); rw [Nat.add_mul] at this; omega
    have hd : ∀ z : List U8, z.length = F.bytes → (p ++ z ++ q).drop (j * F.bytes) = q.drop (j * F.bytes - (p.length + F.bytes)) := by
      intro z hz
      rw [List.drop_append, List.drop_of_length_le (by rw [List.length_append]; omega), List.nil_append, List.length_append, hz]
    rw [hd x hx, hd y hy]

/-- Keys that differ in one aligned word inside a group of four never collide. -/
theorem one_word (o3 : F.m3.toNat % 2 = 1) (p x y q : List U8) (seed : BitVec w) (hp : p.length % F.bytes = 0) (hx : x.length = F.bytes) (hy : y.length = F.bytes) (hne : x ≠ y)
    (hlong : 4 * F.bytes < (p ++ x ++ q).length) (hgroup : p.length / (4 * F.bytes) * (4 * F.bytes) + 4 * F.bytes ≤ (p ++ x ++ q).length) :
    Spec.Gomap.hash F (p ++ x ++ q) seed ≠ Spec.Gomap.hash F (p ++ y ++ q) seed := by
  have hb := G.bytes
  have h4 : 0 < 4 * F.bytes := by omega
  have hlen : (p ++ y ++ q).length = (p ++ x ++ q).length := by simp only [List.length_append]; omega
  intro e
  unfold Spec.Gomap.hash at e
  rw [hlen, if_neg (by omega), if_neg (by omega)] at e
  rw [List.append_assoc, List.append_assoc, blocks_append h4 p, blocks_append h4 p, tailOf_append h4 p, tailOf_append h4 p] at e
  have hr : (tailOf (4 * F.bytes) p).length % F.bytes = 0 := by
    rw [tailOf_length, Nat.mod_mul_left_mod]; exact hp
  have hlt := tailOf_length_lt h4 p
  have hdm := Nat.div_add_mod p.length (4 * F.bytes)
  rw [← tailOf_length, Nat.mul_comm] at hdm
  rw [List.length_append, List.length_append] at hgroup
  generalize p.length / (4 * F.bytes) * (4 * F.bytes) = a at *
  generalize tailOf (4 * F.bytes) p = p2 at *
  obtain ⟨i, hi⟩ := Nat.dvd_of_mod_eq_zero hr
  have hi4 : i < 4 := by
    rw [hi, Nat.mul_comm 4] at hlt
    exact Nat.lt_of_mul_lt_mul_left hlt
  have hle := Nat.mul_le_mul_left F.bytes (show i + 1 ≤ 4 by omega)
  rw [Nat.mul_add, Nat.mul_one, ← hi, Nat.mul_comm] at hle
  -- the group
  have hsplit : ∀ z : List U8, z.length = F.bytes →
      blocks (4 * F.bytes) (p2 ++ (z ++ q)) = (p2 ++ z ++ q.take (4 * F.bytes - (p2.length + F.bytes))) :: blocks (4 * F.bytes) (q.drop (4 * F.bytes - (p2.length + F.bytes))) ∧
      tailOf (4 * F.bytes) (p2 ++ (z ++ q)) = tailOf (4 * F.bytes) (q.drop (4 * F.bytes - (p2.length + F.bytes))) := by
    intro z hz
    have hzl : (p2 ++ z).length = p2.length + F.bytes := by rw [List.length_append, hz]
    have hl : 4 * F.bytes ≤ (p2 ++ (z ++ q)).length := by simp only [List.length_append]; omega
    rw [blocks_of_le h4 hl, tailOf_of_le h4 hl, ← List.append_assoc]
    refine ⟨?_, ?_⟩
    · rw [List.take_append, List.take_of_length_le (by omega), hzl, List.drop_append, List.drop_of_length_le (by omega), List.nil_append, hzl]
    · rw [List.drop_append, List.drop_of_length_le (by omega), List.nil_append, hzl]
  rw [(hsplit x hx).1, (hsplit x hx).2, (hsplit y hy).1, (hsplit y hy).2] at e
  have e := absorb_inj G _ (finish_inj G e)
  rw [List.foldl_append, List.foldl_cons, List.foldl_append, List.foldl_cons] at e
  refine OneLane.combine G o3 hi4 (OneLane.groups G _ ?_) e
  intro j hj
  rw [laneOf_group F _ _ j hj, laneOf_group F _ _ j hj, ← groupWord_at G (p := p2) (i := i) (by rw [hi, Nat.mul_comm]) hx hy hne j (q := q.take (4 * F.bytes - (p2.length + F.bytes)))]
  exact ⟨lane_inj G, fun e => by rw [e]⟩

end Verif.Lemmas.Gomap
