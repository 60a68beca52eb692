import Verif.Props.Reach
import Verif.Props.Jenkins
import Verif.Lemmas.Murmur3Inj

/-!
# C118: the Jenkins hashes are balanced over each block of the key
-/

namespace Verif.Props
open Verif Verif.Spec.Jenkins
open Verif.Model.Jenkins (Jenkins364 Hash232 Hash264)
open Verif.Lemmas.Murmur3 (foldl_inj)
open Verif.Spec.Hashf (resultAfter Ok)
open Verif.Model.Hashf (Ext)
open Verif.Spec.HtMain (valueOf)

/-! ## Counting -/

/-- Bytes as triples of words. -/
def triples (w n : Nat) (h : 2 ^ w = 256 ^ n) (h3 : 256 ^ n * (256 ^ n * 256 ^ n) = 256 ^ (3 * n)) : T w ≃ Fin (256 ^ (3 * n)) :=
  ((words w n h).prodCongr (((words w n h).prodCongr (words w n h)).trans finProdFinEquiv)).trans (finProdFinEquiv.trans (finCongr h3))

/-- If `f` takes each value exactly once on the byte strings of length `n`, then each part of the value is taken as often as the rest of the
value can vary. -/
theorem count_part {α β γ : Type} (n : Nat) (f : List U8 → α) (once : ∀ v, ∃! u, u.length = n ∧ f u = v) (Q : α ≃ β × γ) (v : β) :
    {u | u.length = n ∧ (Q (f u)).1 = v}.ncard = Nat.card γ := by
  choose g hg hu using once
  have hgi : Function.Injective g := fun a b h => by
    have h1 := (hg a).2
    rw [h, (hg b).2] at h1
    exact h1.symm
  have hset : {u | u.length = n ∧ (Q (f u)).1 = v} = Set.range (fun c : γ => g (Q.symm (v, c))) := by
    ext u
    constructor
    · rintro ⟨hl, hv⟩
      refine ⟨(Q (f u)).2, ?_⟩
      show g (Q.symm (v, (Q (f u)).2)) = u
      rw [show (v, (Q (f u)).2) = Q (f u) by rw [← hv]]
      rw [Q.symm_apply_apply]
      exact (hu (f u) u ⟨hl, rfl⟩).symm
    · rintro ⟨c, rfl⟩
      refine ⟨(hg _).1, ?_⟩
      rw [(hg _).2, Q.apply_symm_apply]
  rw [hset, ← Set.image_univ, Set.ncard_image_of_injective, Set.ncard_univ]
  intro c d h
  have := Q.symm.injective (hgi h)
  exact congrArg Prod.snd this

/-- The same as an existence statement. -/
theorem some_part {α β γ : Type} [Inhabited γ] (n : Nat) (f : List U8 → α) (once : ∀ v, ∃! u, u.length = n ∧ f u = v) (Q : α ≃ β × γ) (v : β) :
    ∃ u, u.length = n ∧ (Q (f u)).1 = v := by
  obtain ⟨u, h, _⟩ := once (Q.symm (v, default))
  exact ⟨u, h.1, by rw [h.2, Q.apply_symm_apply]⟩

/-- (a, b, c) as c and the rest. -/
def takeC {α β γ : Type} : α × β × γ ≃ γ × (α × β) := ⟨fun s => (s.2.2, s.1, s.2.1), fun t => (t.2.1, t.2.2, t.1), fun _ => rfl, fun _ => rfl⟩

/-- (a, b, c) as (c, b) and a. -/
def takeCB {α β γ : Type} : α × β × γ ≃ (γ × β) × α := ⟨fun s => ((s.2.2, s.2.1), s.1), fun t => (t.2, t.1.2, t.1.1), fun _ => rfl, fun _ => rfl⟩

theorem card_word (w : Nat) : Nat.card (BitVec w) = 2 ^ w := by
  rw [Nat.card_congr (⟨fun b => ⟨b.toNat, b.isLt⟩, fun i => BitVec.ofNat w i.val, fun b => by simp, fun i => by
    apply Fin.ext
    simp only [BitVec.toNat_ofNat]
    exact Nat.mod_eq_of_lt i.2⟩ : BitVec w ≃ Fin (2 ^ w)), Nat.card_eq_fintype_card, Fintype.card_fin]

/-! ## The mixers are one-to-one -/

theorem sub_right_inj' {w : Nat} {a b c : BitVec w} (h : a - c = b - c) : a = b := by
  have := congrArg (· + c) h
  simpa [BitVec.sub_add_cancel] using this

theorem xor_right_inj' {w : Nat} {a b c : BitVec w} (h : a ^^^ c = b ^^^ c) : a = b := by
  have := congrArg (· ^^^ c) h
  simpa [BitVec.xor_assoc] using this

theorem add_right_inj' {w : Nat} {a b c : BitVec w} (h : a + c = b + c) : a = b := by
  have := congrArg (· - c) h
  simpa [BitVec.add_sub_cancel] using this

theorem step2_inj {w : Nat} (sh : BitVec w → BitVec w) (s t : T w) (h : step2 s sh = step2 t sh) : s = t := by
  obtain ⟨a, b, c⟩ := s
  obtain ⟨a', b', c'⟩ := t
  simp only [step2, Prod.mk.injEq] at h
  obtain ⟨rfl, rfl, h⟩ := h
  rw [sub_right_inj' (sub_right_inj' (xor_right_inj' h))]

theorem step2alt_inj {w : Nat} (sh : BitVec w → BitVec w) (s t : T w) (h : step2alt s sh = step2alt t sh) : s = t := by
  obtain ⟨a, b, c⟩ := s
  obtain ⟨a', b', c'⟩ := t
  simp only [step2alt, Prod.mk.injEq] at h
  obtain ⟨rfl, rfl, h⟩ := h
  rw [sub_right_inj' h]

theorem mixStep_inj (r : Nat) (s t : T 32) (h : mixStep s r = mixStep t r) : s = t := by
  obtain ⟨a, b, c⟩ := s
  obtain ⟨a', b', c'⟩ := t
  simp only [mixStep, Prod.mk.injEq] at h
  obtain ⟨rfl, h1, h⟩ := h
  obtain rfl := add_right_inj' h1
  rw [sub_right_inj' (xor_right_inj' h)]

theorem finalStep_inj (r : Nat) (s t : T 32) (h : finalStep s r = finalStep t r) : s = t := by
  obtain ⟨a, b, c⟩ := s
  obtain ⟨a', b', c'⟩ := t
  simp only [finalStep, Prod.mk.injEq] at h
  obtain ⟨rfl, rfl, h⟩ := h
  rw [xor_right_inj' (sub_right_inj' h)]

theorem mix32_inj : Function.Injective mix32 := fun _ _ h => foldl_inj step2_inj _ h
theorem mix64alt_inj : Function.Injective mix64alt := fun _ _ h => foldl_inj step2alt_inj _ h
theorem mix_inj : Function.Injective mix := fun _ _ h => foldl_inj mixStep_inj _ h
theorem final_inj : Function.Injective final := fun s t h => by
  have h1 := foldl_inj finalStep_inj _ h
  obtain ⟨a, b, c⟩ := s
  obtain ⟨a', b', c'⟩ := t
  simp only [Prod.mk.injEq] at h1 ⊢
  exact ⟨h1.2.1, h1.2.2, h1.1⟩

/-! ## A block goes in one-to-one -/

theorem word_inj {w n : Nat} (h : 2 ^ w = 256 ^ n) {p q : List U8} (hp : p.length = n) (hq : q.length = n) (e : word w p = word w q) : p = q := by
  apply leNat_inj (hp.trans hq.symm)
  have e1 := congrArg BitVec.toNat e
  have h1 := leNat_lt p
  have h2 := leNat_lt q
  rw [hp, ← h] at h1
  rw [hq, ← h] at h2
  simp only [word, BitVec.toNat_ofNat] at e1
  rwa [Nat.mod_eq_of_lt h1, Nat.mod_eq_of_lt h2] at e1

/-- Three words of a block added to a state. -/
def addWords (w n : Nat) (s : T w) (p : List U8) : T w :=
  (s.1 + word w (p.take n), s.2.1 + word w ((p.drop n).take n), s.2.2 + word w ((p.drop (2 * n)).take n))

theorem addWords_inj {w n : Nat} (h : 2 ^ w = 256 ^ n) (s : T w) (p q : List U8) (hp : p.length = 3 * n) (hq : q.length = 3 * n) (e : addWords w n s p = addWords w n s q) : p = q := by
  simp only [addWords, Prod.mk.injEq] at e
  have hadd : ∀ a b c : BitVec w, a + b = a + c → b = c := fun a b c h => by
    rw [BitVec.add_comm a b, BitVec.add_comm a c] at h
    exact add_right_inj' h
  have e1 := word_inj h (by simp; omega) (by simp; omega) (hadd _ _ _ e.1)
  have e2 := word_inj h (by simp; omega) (by simp; omega) (hadd _ _ _ e.2.1)
  have e3 := word_inj h (by simp; omega) (by simp; omega) (hadd _ _ _ e.2.2)
  rw [List.take_of_length_le (by simp; omega), List.take_of_length_le (by simp; omega)] at e3
  have h4 : ∀ r : List U8, r = r.take n ++ ((r.drop n).take n ++ r.drop (2 * n)) := fun r => by
    have : r.drop (2 * n) = (r.drop n).drop n := by rw [List.drop_drop]; congr 1; omega
    rw [this, List.take_append_drop, List.take_append_drop]
  rw [h4 p, h4 q, e1, e2, e3]

theorem addWords_add {w n : Nat} (s t : T w) (p : List U8) (e : addWords w n s p = addWords w n t p) : s = t := by
  obtain ⟨a, b, c⟩ := s
  obtain ⟨a', b', c'⟩ := t
  simp only [addWords, Prod.mk.injEq] at e
  rw [add_right_inj' e.1, add_right_inj' e.2.1, add_right_inj' e.2.2]

/-- A one-to-one function of the state after a block has been added takes every value for exactly one content of the block. -/
theorem block_once {w n : Nat} (h : 2 ^ w = 256 ^ n) (h3 : 256 ^ n * (256 ^ n * 256 ^ n) = 256 ^ (3 * n)) (s : T w) (F : T w → T w) (hF : Function.Injective F) (v : T w) :
    ∃! u, u.length = 3 * n ∧ F (addWords w n s u) = v := by
  obtain ⟨u, h1, h2⟩ := exactly_once (3 * n) (triples w n h h3) (fun u => (.ok (F (addWords w n s u)) : Go (T w))) (fun u _ => ⟨_, rfl⟩)
    (fun u v hu hv e => addWords_inj h s u v hu hv (hF (Except.ok.inj e))) v
  exact ⟨u, ⟨h1.1, Except.ok.inj h1.2⟩, fun y hy => h2 y ⟨hy.1, by rw [← hy.2]⟩⟩

theorem blocks_three {n : Nat} (hn : 0 < n) (x u y : List U8) (hx : x.length % n = 0) (hu : u.length = n) :
    blocks n (x ++ u ++ y) = blocks n x ++ u :: blocks n y := by
  have ht : ∀ z : List U8, z.length % n = 0 → tailOf n z = [] := fun z hz => by
    unfold tailOf
    apply List.drop_of_length_le
    have := Nat.div_add_mod z.length n
    rw [hz, Nat.add_zero, Nat.mul_comm] at this
    omega
  have hb : blocks n u = [u] := by
    unfold blocks
    rw [hu, Nat.div_self hn]
    simp [hu]
  rw [List.append_assoc, blocks_append hn, ht x hx, List.nil_append, blocks_append hn, ht u (by rw [hu, Nat.mod_self]), List.nil_append, hb]
  rfl

theorem tailOf_three {n : Nat} (hn : 0 < n) (x u y : List U8) (hx : x.length % n = 0) (hu : u.length = n) :
    tailOf n (x ++ u ++ y) = tailOf n y := by
  have ht : ∀ z : List U8, z.length % n = 0 → tailOf n z = [] := fun z hz => by
    unfold tailOf
    apply List.drop_of_length_le
    have := Nat.div_add_mod z.length n
    rw [hz, Nat.add_zero, Nat.mul_comm] at this
    omega
  rw [tailOf_append hn, ht (x ++ u) (by rw [List.length_append, hu, Nat.add_mod_right, hx]), List.nil_append]

/-! ## The hashes as functions of one block -/

theorem look_block (pc pb : U32) (x y : List U8) (hx : x.length % 12 = 0) :
    ∃ (s : T 32) (F : T 32 → T 32), Function.Injective F ∧ ∀ u, u.length = 12 → hashlittle2 pc pb (x ++ u ++ y) = ((F (addWords 32 4 s u)).2.2, (F (addWords 32 4 s u)).2.1) := by
  obtain ⟨s0, hs0⟩ : ∃ s0 : T 32, ∀ u : List U8, u.length = 12 → (let a := 0xdeadbeef#32 + BitVec.ofNat 32 (x ++ u ++ y).length + pc; ((a, a, a + pb) : T 32)) = s0 :=
    ⟨_, fun u hu => by rw [List.length_append, List.length_append, hu]⟩
  have hne : ∀ u : List U8, u.length = 12 → (x ++ u ++ y).isEmpty = false := fun u hu => by
    cases h : (x ++ u ++ y).isEmpty with
    | false => rfl
    | true =>
      rw [List.isEmpty_iff] at h
      have := congrArg List.length h
      simp [hu] at this
  have unfolded : ∀ u : List U8, u.length = 12 → hashlittle2 pc pb (x ++ u ++ y) =
      (let s := final (addWords 32 4 ((heads 12 (x ++ u ++ y)).foldl (fun s p => mix (addWords 32 4 s p)) s0) (lastOf 12 (x ++ u ++ y))); (s.2.2, s.2.1)) := fun u hu => by
    unfold hashlittle2 lookup3
    rw [hne u hu, ← hs0 u hu]
    rfl
  rcases eq_or_ne y [] with rfl | hy
  · refine ⟨(blocks 12 x).foldl (fun s p => mix (addWords 32 4 s p)) s0, final, final_inj, fun u hu => ?_⟩
    have hq : ((x ++ u ++ []).length - 1) / 12 * 12 = x.length := by simp [hu]; omega
    have h1 : heads 12 (x ++ u ++ []) = blocks 12 x := by
      unfold heads
      rw [hq]
      simp
    have h2 : lastOf 12 (x ++ u ++ []) = u := by
      unfold lastOf
      rw [hq]
      simp
    rw [unfolded u hu, h1, h2]
  · have hyl : 0 < y.length := List.length_pos_iff.2 hy
    refine ⟨(blocks 12 x).foldl (fun s p => mix (addWords 32 4 s p)) s0,
      fun t => final (addWords 32 4 ((heads 12 y).foldl (fun s p => mix (addWords 32 4 s p)) (mix t)) (lastOf 12 y)), ?_, fun u hu => ?_⟩
    · intro t t' h
      exact mix_inj (foldl_inj (fun b s s' h => addWords_add s s' b (mix_inj h)) _ (addWords_add _ _ _ (final_inj h)))
    · have hq : ((x ++ u ++ y).length - 1) / 12 * 12 = (x ++ u).length + (y.length - 1) / 12 * 12 := by
        simp only [List.length_append, hu]
        omega
      have h1 : heads 12 (x ++ u ++ y) = blocks 12 x ++ u :: heads 12 y := by
        unfold heads
        rw [hq, List.take_length_add_append, blocks_three (by decide) x u _ hx hu]
      have h2 : lastOf 12 (x ++ u ++ y) = lastOf 12 y := by
        unfold lastOf
        rw [hq, List.drop_length_add_append]
      rw [unfolded u hu, h1, h2, List.foldl_append, List.foldl_cons]

theorem hash232_block (seed : U32) (x y : List U8) (hx : x.length % 12 = 0) :
    ∃ (s : T 32) (F : T 32 → T 32), Function.Injective F ∧ ∀ u, u.length = 12 → hash232 (x ++ u ++ y) seed = (F (addWords 32 4 s u)).2.2 := by
  refine ⟨(blocks 12 x).foldl (fun s p => mix32 (addWords 32 4 s p)) (0x9e3779b9#32, 0x9e3779b9#32, seed),
    fun t => mix32 (let s := (blocks 12 y).foldl (fun s p => mix32 (addWords 32 4 s p)) (mix32 t)
      (s.1 + 256#32 * word 32 (((tailOf 12 y).take 4).drop 1), s.2.1 + word 32 (((tailOf 12 y).drop 4).take 4),
        s.2.2 + BitVec.ofNat 32 (tailOf 12 y).length + word 32 ((tailOf 12 y).take 1) + 256#32 * word 32 ((tailOf 12 y).drop 8))), ?_, fun u hu => ?_⟩
  · intro t t' h
    have h1 := mix32_inj h
    apply mix32_inj
    apply foldl_inj (fun b s s' h => addWords_add s s' b (mix32_inj h)) (blocks 12 y)
    simp only [Prod.mk.injEq] at h1
    exact Prod.ext (add_right_inj' h1.1) (Prod.ext (add_right_inj' h1.2.1) (add_right_inj' (add_right_inj' (add_right_inj' h1.2.2))))
  · unfold hash232
    rw [blocks_three (by decide) x u y hx hu, tailOf_three (by decide) x u y hx hu, List.foldl_append, List.foldl_cons]
    rfl

theorem hash264_block (seed : U64) (x y : List U8) (hx : x.length % 24 = 0) :
    ∃ (s : T 64) (F : T 64 → T 64), Function.Injective F ∧ ∀ u, u.length = 24 → hash264 (x ++ u ++ y) seed = (F (addWords 64 8 s u)).2.2 := by
  refine ⟨(blocks 24 x).foldl (fun s p => mix64alt (addWords 64 8 s p)) (0x9e3779b97f4a7c13#64, 0x9e3779b97f4a7c13#64, seed),
    fun t => mix64alt (let s := (blocks 24 y).foldl (fun s p => mix64alt (addWords 64 8 s p)) (mix64alt t)
      (s.1 + word 64 ((tailOf 24 y).take 8), s.2.1 + word 64 (((tailOf 24 y).drop 8).take 8),
        s.2.2 + BitVec.ofNat 64 (tailOf 24 y).length + 256#64 * word 64 ((tailOf 24 y).drop 16))), ?_, fun u hu => ?_⟩
  · intro t t' h
    have h1 := mix64alt_inj h
    apply mix64alt_inj
    apply foldl_inj (fun b s s' h => addWords_add s s' b (mix64alt_inj h)) (blocks 24 y)
    simp only [Prod.mk.injEq] at h1
    exact Prod.ext (add_right_inj' h1.1) (Prod.ext (add_right_inj' h1.2.1) (add_right_inj' (add_right_inj' h1.2.2)))
  · unfold hash264
    rw [blocks_three (by decide) x u y hx hu, tailOf_three (by decide) x u y hx hu, List.foldl_append, List.foldl_cons]
    rfl

/-! ## C118 -/

/-- C118. Fix everything in the key but one aligned 12-byte block: each of the 2^64 pairs of results of the lookup3 hash is the hash of exactly 2^32 contents of that
block, and each of the 2^32 values of `Sum32` of exactly 2^64. -/
theorem C118_lookup3 (x y : List U8) (hx : x.length % 12 = 0) (pc pb c b : U32) :
    {u | u.length = 12 ∧ Jenkins364 (x ++ u ++ y) (x ++ u ++ y).length pc pb = .ok (c, b)}.ncard = 2 ^ 32 ∧
    {u | u.length = 12 ∧ Model.Jenkins.Sum32 (x ++ u ++ y) pc = .ok c}.ncard = 2 ^ 64 := by
  constructor
  · obtain ⟨s, F, hF, h⟩ := look_block pc pb x y hx
    have h1 := count_part 12 (fun u => F (addWords 32 4 s u)) (block_once (w := 32) (n := 4) rfl (by norm_num) s F hF) takeCB (c, b)
    rw [card_word] at h1
    rw [← h1]
    congr 1
    ext u
    simp only [Set.mem_ofPred_eq]
    refine and_congr_right fun hu => ?_
    rw [(C33_jenkins364 (x ++ u ++ y) pc pb).1, h u hu]
    exact ⟨fun e => Except.ok.inj e, fun e => congrArg Except.ok e⟩
  · obtain ⟨s, F, hF, h⟩ := look_block pc pc x y hx
    have h1 := count_part 12 (fun u => F (addWords 32 4 s u)) (block_once (w := 32) (n := 4) rfl (by norm_num) s F hF) takeC c
    rw [Nat.card_prod, card_word, ← Nat.pow_add] at h1
    rw [← h1]
    congr 1
    ext u
    simp only [Set.mem_ofPred_eq]
    refine and_congr_right fun hu => ?_
    unfold Model.Jenkins.Sum32
    rw [(C33_jenkins364 (x ++ u ++ y) pc pc).1, h u hu]
    exact ⟨fun e => Except.ok.inj e, fun e => congrArg Except.ok e⟩

/-- C118. The same for `Hash232` (keys shorter than 2^32 bytes), and for `Hash264` with 24-byte blocks: each 64-bit value comes from exactly 2^128 contents. -/
theorem C118_lookup2 (x y : List U8) (seed : U32) (v : U32) (hx : x.length % 12 = 0) (hl : x.length + 12 + y.length < 2 ^ 32) :
    {u | u.length = 12 ∧ Hash232 (x ++ u ++ y) seed = .ok v}.ncard = 2 ^ 64 := by
  obtain ⟨s, F, hF, h⟩ := hash232_block seed x y hx
  have h1 := count_part 12 (fun u => F (addWords 32 4 s u)) (block_once (w := 32) (n := 4) rfl (by norm_num) s F hF) takeC v
  rw [Nat.card_prod, card_word, ← Nat.pow_add] at h1
  rw [← h1]
  congr 1
  ext u
  simp only [Set.mem_ofPred_eq]
  refine and_congr_right fun hu => ?_
  have hlen : (x ++ u ++ y).length < 2 ^ 32 := by simp only [List.length_append, hu]; exact hl
  obtain ⟨a, b⟩ := C29_hash232_short false (x ++ u ++ y) hlen seed
  rw [b, a, h u hu]
  exact ⟨fun e => Except.ok.inj e, fun e => congrArg Except.ok e⟩

theorem C118_hash264 (x y : List U8) (seed v : U64) (hx : x.length % 24 = 0) :
    {u | u.length = 24 ∧ Hash264 (x ++ u ++ y) seed = .ok v}.ncard = 2 ^ 128 := by
  obtain ⟨s, F, hF, h⟩ := hash264_block seed x y hx
  have h1 := count_part 24 (fun u => F (addWords 64 8 s u)) (block_once (w := 64) (n := 8) rfl (by norm_num) s F hF) takeC v
  rw [Nat.card_prod, card_word, ← Nat.pow_add] at h1
  rw [← h1]
  congr 1
  ext u
  simp only [Set.mem_ofPred_eq]
  refine and_congr_right fun hu => ?_
  obtain ⟨a, b⟩ := C31_hash264 false (x ++ u ++ y) seed
  rw [b, a, h u hu]
  exact ⟨fun e => Except.ok.inj e, fun e => congrArg Except.ok e⟩

/-! ## Keys that all collide -/

theorem many_keys' {α : Type} (b : Nat) (f : List U8 → α) (v : α) (onto : ∀ x : List U8, x.length % b = 0 → ∃ u, u.length = b ∧ f (x ++ u) = v) (m n : Nat)
    (hlt : n ≤ 256 ^ (b * m)) : ∃ ks : List (List U8), ks.Nodup ∧ ks.length = n ∧ (∀ k ∈ ks, k.length = b * (m + 1)) ∧ ∀ k ∈ ks, f k = v := by
  have hp : ∀ i, (leBytes (b * m) i).length = b * m := fun i => leBytes_length _ _
  choose g hg using fun i => onto (leBytes (b * m) i) (by rw [hp]; simp)
  refine ⟨(List.range n).map (fun i => leBytes (b * m) i ++ g i), ?_, by simp, ?_, ?_⟩
  · apply List.Nodup.map_on _ List.nodup_range
    intro i hi j hj h
    rw [List.mem_range] at hi hj
    have h1 := List.append_inj_left h ((hp i).trans (hp j).symm)
    have h2 := congrArg leNat h1
    rw [leNat_leBytes, leNat_leBytes, Nat.mod_eq_of_lt (by omega), Nat.mod_eq_of_lt (by omega)] at h2
    exact h2
  · intro k hk
    obtain ⟨i, _, rfl⟩ := List.mem_map.1 hk
    rw [List.length_append, hp, (hg i).1, Nat.mul_add, Nat.mul_one]
  · intro k hk
    obtain ⟨i, _, rfl⟩ := List.mem_map.1 hk
    exact (hg i).2

/-- The Jenkins hashes of the dispatcher with the sizes of their blocks. -/
def jenkinsNames : List (String × Nat) :=
  [("j332c", 12), ("j332b", 12), ("j364", 12), ("j232", 12), ("j264", 24), ("j264l", 24), ("j264h", 24), ("j264xor", 24)]

theorem look_keys (s : U32) (m n : Nat) (hm : n ≤ 256 ^ (12 * m)) : ∃ ks : List (List U8), ks.Nodup ∧ ks.length = n ∧ (∀ k ∈ ks, k.length = 12 * (m + 1)) ∧
    ∀ k ∈ ks, Spec.Hashf.look3 k s = (0#32, 0#32) :=
  many_keys' 12 (fun k => Spec.Hashf.look3 k s) (0#32, 0#32) (fun x hx => by
    obtain ⟨t, F, hF, h⟩ := look_block s s x [] hx
    obtain ⟨u, h1, h2⟩ := some_part 12 (fun u => F (addWords 32 4 t u)) (block_once (w := 32) (n := 4) rfl (by norm_num) t F hF) takeCB (0#32, 0#32)
    refine ⟨u, h1, ?_⟩
    have h3 := h u h1
    rw [List.append_nil] at h3
    exact h3.trans h2) m n hm

theorem h264_keys (s : U64) (m n : Nat) (hm : n ≤ 256 ^ (24 * m)) : ∃ ks : List (List U8), ks.Nodup ∧ ks.length = n ∧ (∀ k ∈ ks, k.length = 24 * (m + 1)) ∧
    ∀ k ∈ ks, hash264 k s = 0#64 :=
  many_keys' 24 (fun k => hash264 k s) 0#64 (fun x hx => by
    obtain ⟨t, F, hF, h⟩ := hash264_block s x [] hx
    obtain ⟨u, h1, h2⟩ := some_part 24 (fun u => F (addWords 64 8 t u)) (block_once (w := 64) (n := 8) rfl (by norm_num) t F hF) takeC 0#64
    refine ⟨u, h1, ?_⟩
    have h3 := h u h1
    rw [List.append_nil] at h3
    exact h3.trans h2) m n hm

theorem h232_keys (s : U32) (m n : Nat) (hm : n ≤ 256 ^ (12 * m)) : ∃ ks : List (List U8), ks.Nodup ∧ ks.length = n ∧ (∀ k ∈ ks, k.length = 12 * (m + 1)) ∧
    ∀ k ∈ ks, hash232 k s = 0#32 :=
  many_keys' 12 (fun k => hash232 k s) 0#32 (fun x hx => by
    obtain ⟨t, F, hF, h⟩ := hash232_block s x [] hx
    obtain ⟨u, h1, h2⟩ := some_part 12 (fun u => F (addWords 32 4 t u)) (block_once (w := 32) (n := 4) rfl (by norm_num) t F hF) takeC 0#32
    refine ⟨u, h1, ?_⟩
    have h3 := h u h1
    rw [List.append_nil] at h3
    exact h3.trans h2) m n hm

/-- C118. Under each of these names, for any seed, up to `256^(b m)` different keys of length `b (m + 1)` (for j232 shorter than 2^32) have the same hash in `Hashf`,
whatever was hashed before. -/
theorem C118_collisions (e : Ext) (he : Ok e) (name : String) (b : Nat) (hname : (name, b) ∈ jenkinsNames) (m n : Nat) (hm : n ≤ 256 ^ (b * m)) (seed : U64)
    (hl : name = "j232" → b * (m + 1) < 2 ^ 32) :
    ∃ ks : List (List U8), ks.Nodup ∧ ks.length = n ∧ (∀ k ∈ ks, k.length = b * (m + 1)) ∧
      ∃ h, ∀ k ∈ ks, ∀ hist, resultAfter e hist name k seed = .ok h := by
  have one : ∀ (i : Nat) (f : List U8 → U64 → Option U64) (h : U64), (Spec.Hashf.table e)[i]? = some (name, f) →
      (∃ ks : List (List U8), ks.Nodup ∧ ks.length = n ∧ (∀ k ∈ ks, k.length = b * (m + 1)) ∧ ∀ k ∈ ks, f k seed = some h) →
      ∃ ks : List (List U8), ks.Nodup ∧ ks.length = n ∧ (∀ k ∈ ks, k.length = b * (m + 1)) ∧ ∃ h, ∀ k ∈ ks, ∀ hist, resultAfter e hist name k seed = .ok h := by
    rintro i f h hi ⟨ks, h1, h2, h3, h4⟩
    exact ⟨ks, h1, h2, h3, h, fun k hk hist => value e he hist k seed i hi (h4 k hk)⟩
  simp only [jenkinsNames, List.mem_cons, Prod.mk.injEq, List.not_mem_nil, or_false] at hname
  rcases hname with ⟨rfl, rfl⟩ | ⟨rfl, rfl⟩ | ⟨rfl, rfl⟩ | ⟨rfl, rfl⟩ | ⟨rfl, rfl⟩ | ⟨rfl, rfl⟩ | ⟨rfl, rfl⟩ | ⟨rfl, rfl⟩
  · obtain ⟨ks, h1, h2, h3, h4⟩ := look_keys (Spec.Hashf.low seed) m n hm
    exact one 11 _ 0#64 rfl ⟨ks, h1, h2, h3, fun k hk => by rw [h4 k hk]; rfl⟩
  · obtain ⟨ks, h1, h2, h3, h4⟩ := look_keys (Spec.Hashf.low seed) m n hm
    exact one 12 _ 0#64 rfl ⟨ks, h1, h2, h3, fun k hk => by rw [h4 k hk]; rfl⟩
  · obtain ⟨ks, h1, h2, h3, h4⟩ := look_keys (Spec.Hashf.low seed) m n hm
    exact one 10 _ 0#64 rfl ⟨ks, h1, h2, h3, fun k hk => by rw [h4 k hk]; rfl⟩
  · obtain ⟨ks, h1, h2, h3, h4⟩ := h232_keys (Spec.Hashf.low seed) m n hm
    refine one 13 _ 0#64 rfl ⟨ks, h1, h2, h3, fun k hk => ?_⟩
    rw [h3 k hk, Nat.mod_eq_of_lt (hl rfl), ← h3 k hk, List.take_length, h4 k hk]
    rfl
  · obtain ⟨ks, h1, h2, h3, h4⟩ := h264_keys seed m n hm
    exact one 14 _ 0#64 rfl ⟨ks, h1, h2, h3, fun k hk => by rw [h4 k hk]⟩
  · obtain ⟨ks, h1, h2, h3, h4⟩ := h264_keys seed m n hm
    exact one 15 _ 0#64 rfl ⟨ks, h1, h2, h3, fun k hk => by rw [h4 k hk]; rfl⟩
  · obtain ⟨ks, h1, h2, h3, h4⟩ := h264_keys seed m n hm
    exact one 16 _ 0#64 rfl ⟨ks, h1, h2, h3, fun k hk => by rw [h4 k hk]; rfl⟩
  · obtain ⟨ks, h1, h2, h3, h4⟩ := h264_keys seed m n hm
    exact one 17 _ 0#64 rfl ⟨ks, h1, h2, h3, fun k hk => by rw [h4 k hk]; rfl⟩

/-- C118. So these too can flood a chaining table of any size, for any seed: `n` different keys of length `b (m + 1)` in one bucket. -/
theorem C118_flood (e : Ext) (he : Ok e) (name : String) (b : Nat) (hname : (name, b) ∈ jenkinsNames) (np : Int → Int) (size seed extra : Int) (pd prime : Bool)
    (ht0 : HashTable.HT (List U8)) (hnew : HashTable.newHashTable np size seed extra pd false prime = .ok ht0) (hpos : 0 < ht0.buckets.length) (m n : Nat)
    (hn : 2 ≤ n) (hm : n ≤ 256 ^ (b * m)) (hl : name = "j232" → b * (m + 1) < 2 ^ 32) :
    ∃ ks : List (List U8), ks.Nodup ∧ ks.length = n ∧ (∀ k ∈ ks, k.length = b * (m + 1)) ∧
      ∃ ht, HashTable.insertAll (HashTable.pureEnv (valueOf (resultAfter e [] name)) (fun _ => true)) () ht0 ks = .ok ((), ht) ∧
        (∃ i : Nat, ht.buckets[i]? = some ks ∧ ∀ j : Nat, j ≠ i → ∀ c, ht.buckets[j]? = some c → c = []) ∧
        2 * ht.dups = n * (n - 1) ∧ ht.heads = 1 ∧ ht.nbuckets = n - 1 ∧ ht.longestChain = n := by
  obtain ⟨ks, h1, h2, h3, h, h4⟩ := C118_collisions e he name b hname m n hm ht0.seed hl
  exact ⟨ks, h1, h2, h3, flood_of _ np size seed extra pd prime ht0 hnew hpos n hn ks h2 h fun k hk => by simp only [valueOf, h4 k hk []]⟩

/-- C118_flood applies to the dispatcher's j264xor with a table of sixteen buckets and a thousand keys of 48 bytes. -/
example : ∃ ht0 : HashTable.HT (List U8), HashTable.newHashTable id 16 5 0 false false false = .ok ht0 ∧ 0 < ht0.buckets.length ∧ ("j264xor", 24) ∈ jenkinsNames ∧ 2 ≤ 1000 ∧
    1000 ≤ 256 ^ (24 * 1) ∧ ("j264xor" = "j232" → 24 * (1 + 1) < 2 ^ 32) ∧ Ok exampleExt :=
  ⟨_, rfl, by decide, by decide, by decide, by norm_num, by decide, exampleExt_ok⟩

/-- The 2^64 contents of the middle block that give a 25-byte key the `Sum32` 0. -/
example (x : List U8) (hx : x.length = 12) : {u | u.length = 12 ∧ Model.Jenkins.Sum32 (x ++ u ++ [7#8]) 5#32 = .ok 0#32}.ncard = 2 ^ 64 :=
  (C118_lookup3 x [7#8] (by rw [hx]) 5#32 5#32 0#32 0#32).2

end Verif.Props
