import Verif.Props.FarmBalanced
import Verif.Props.Metro

/-!
# C125: second preimages and floods of MetroHash
-/

namespace Verif.Props
open Verif Verif.Spec.Metro
open Verif.Model.Metro (Hash64_1 Hash64_2 Hash128_1 Hash128_2)
open Verif.Spec.Hashf (resultAfter Ok metro64_1)
open Verif.Model.Hashf (Ext)
open Verif.Spec.HtMain (valueOf)
open SpookyBalanced (W4 bytes32)
open FarmBalanced (al cut)

namespace MetroSteer

/-- The multipliers are odd. -/
def Odd4 (k : Keys) : Prop := k.k0.toNat % 2 = 1 ∧ k.k1.toNat % 2 = 1 ∧ k.k2.toNat % 2 = 1 ∧ k.k3.toNat % 2 = 1

theorem odd1 : Odd4 keys1 := by unfold Odd4; decide
theorem odd2 : Odd4 keys2 := by unfold Odd4; decide

theorem num_inj {u v : List U8} (i : Nat) (hu : i + 8 ≤ u.length) (hv : i + 8 ≤ v.length) (h : num u i 8 = num v i 8) : (u.drop i).take 8 = (v.drop i).take 8 :=
  word_inj (w := 64) (n := 8) rfl (by rw [List.length_take, List.length_drop]; omega) (by rw [List.length_take, List.length_drop]; omega) h

/-- One block takes a state to different states for different contents. -/
theorem block_inj {k : Keys} (hk : Odd4 k) (s : V4) {u v : List U8} (hu : u.length = 32) (hv : v.length = 32) (h : block k s u = block k s v) : u = v := by
  obtain ⟨a, b, c, d⟩ := s
  simp only [block, Prod.mk.injEq] at h
  obtain ⟨h0, h1, h2, h3⟩ := h
  rw [h0] at h2
  rw [h1] at h3
  have e0 := mul_inj_of_odd hk.1 (al (rotateRight_inj (by decide) (add_right_inj' h0)))
  have e1 := mul_inj_of_odd hk.2.1 (al (rotateRight_inj (by decide) (add_right_inj' h1)))
  have e2 := mul_inj_of_odd hk.2.2.1 (al (rotateRight_inj (by decide) (add_right_inj' h2)))
  have e3 := mul_inj_of_odd hk.2.2.2 (al (rotateRight_inj (by decide) (add_right_inj' h3)))
  have t : ∀ i, i + 8 ≤ 32 → num u i 8 = num v i 8 → u.drop (i + 8) = v.drop (i + 8) → u.drop i = v.drop i := fun i hi hw hd => by
    rw [cut 8 u i, cut 8 v i, num_inj i (by omega) (by omega) hw, hd]
  have d32 : u.drop (24 + 8) = v.drop (24 + 8) := by rw [List.drop_eq_nil_of_le (by omega), List.drop_eq_nil_of_le (by omega)]
  have := t 0 (by omega) e0 (t 8 (by omega) e1 (t 16 (by omega) e2 (t 24 (by omega) e3 d32)))
  simpa using this

/-- So one block takes any state to any state. -/
theorem reach {k : Keys} (hk : Odd4 k) (s t : V4) : ∃ u : List U8, u.length = 32 ∧ block k s u = t := by
  obtain ⟨u, h, _⟩ := exactly_once 32 bytes32 (fun u => (.ok (block k s u) : Go V4)) (fun u _ => ⟨_, rfl⟩) (fun u v hu hv e => block_inj hk s hu hv (Except.ok.inj e)) t
  exact ⟨u, h.1, Except.ok.inj h.2⟩

/-! ## What follows sees only the state -/

theorem num_tail {p p' y : List U8} (hl : p.length = p'.length) (o n : Nat) (ho : p.length ≤ o) : num (p ++ y) o n = num (p' ++ y) o n := by
  unfold num
  rw [List.drop_append, List.drop_append, List.drop_eq_nil_of_le ho, List.drop_eq_nil_of_le (as := p') (hl ▸ ho), hl]

theorem off_ge {p y : List U8} (hp : p.length % 32 = 0) (i : Nat) (hi : i ≤ 4) : p.length ≤ off (p ++ y).length i := by
  rw [List.length_append]
  unfold off
  obtain ⟨q, hq⟩ : ∃ q, p.length = 2 ^ (i + 1) * q := by
    refine ⟨2 ^ (4 - i) * (p.length / 32), ?_⟩
    rw [← Nat.mul_assoc, ← Nat.pow_add, show i + 1 + (4 - i) = 5 by omega]
    omega
  rw [hq, Nat.mul_add_div (Nat.two_pow_pos _), Nat.add_mul, Nat.mul_comm q]
  omega

theorem piece_congr {σ : Type} {p p' y : List U8} (hl : p.length = p'.length) (hp : p.length % 32 = 0) (i : Nat) (hi : i ≤ 4) (f : U64 → σ → σ) (s : σ) :
    piece (p ++ y) i f s = piece (p' ++ y) i f s := by
  have hL : (p ++ y).length = (p' ++ y).length := by rw [List.length_append, List.length_append, hl]
  unfold piece
  rw [num_tail hl _ _ (off_ge hp i hi), hL]

theorem blocks_pre {x y : List U8} (hx : x.length % 32 = 0) : blocks 32 (x ++ y) = blocks 32 x ++ blocks 32 y := (SpookyBalanced.blocks_pre hx).1

theorem run64_congr (P : Params64) {p p' y : List U8} (hl : p.length = p'.length) (hp : p.length % 32 = 0) (s : U64)
    (h : (blocks 32 p).foldl (block P.keys) (s, s, s, s) = (blocks 32 p').foldl (block P.keys) (s, s, s, s)) : run64 P (p ++ y) s = run64 P (p' ++ y) s := by
  have hL : (p ++ y).length = (p' ++ y).length := by rw [List.length_append, List.length_append, hl]
  have hh : head64 P (p ++ y) s = head64 P (p' ++ y) s := by
    unfold head64
    rw [hL, blocks_pre hp, blocks_pre (hl ▸ hp), List.foldl_append, List.foldl_append, h]
  have hs : ∀ t, sixteen64 P (p ++ y) t = sixteen64 P (p' ++ y) t := fun t => by
    have ho := off_ge (y := y) hp 4 (by omega)
    unfold sixteen64
    simp only [hL] at ho ⊢
    rw [num_tail hl _ _ ho, num_tail hl _ _ (Nat.le_trans ho (Nat.le_add_right _ _))]
  unfold run64
  rw [piece_congr hl hp 0 (by omega), piece_congr hl hp 1 (by omega), piece_congr hl hp 2 (by omega), piece_congr hl hp 3 (by omega), hs, hh]

/-- The states in which the 128-bit functions start. -/
def start128 (P : Params128) (len : Nat) (seed : U32) : V4 :=
  let s := seed.setWidth 64
  let n := BitVec.ofNat 64 len
  ((s - P.keys.k0) * P.keys.k3 + n, (s + P.keys.k1) * P.keys.k2 + n, (s + P.keys.k0) * P.keys.k2 + n, (s - P.keys.k1) * P.keys.k3 + n)

theorem metro128_congr (P : Params128) {p p' y : List U8} (hl : p.length = p'.length) (hp : p.length % 32 = 0) (seed : U32)
    (h : (blocks 32 p).foldl (block P.keys) (start128 P (p.length + y.length) seed) = (blocks 32 p').foldl (block P.keys) (start128 P (p.length + y.length) seed)) :
    metro128 P (p ++ y) seed = metro128 P (p' ++ y) seed := by
  have hL : (p ++ y).length = (p' ++ y).length := by rw [List.length_append, List.length_append, hl]
  rw [← List.length_append, hL] at h
  have hh : head128 P (p ++ y) seed = head128 P (p' ++ y) seed := by
    simp only [start128] at h
    simp only [head128, hL, blocks_pre hp, blocks_pre (hl ▸ hp), List.foldl_append, h]
  have hs : ∀ t, sixteen128 P (p ++ y) t = sixteen128 P (p' ++ y) t := fun t => by
    have ho := off_ge (y := y) hp 4 (by omega)
    unfold sixteen128
    simp only [hL] at ho ⊢
    rw [num_tail hl _ _ ho, num_tail hl _ _ (Nat.le_trans ho (Nat.le_add_right _ _))]
  unfold metro128
  rw [piece_congr hl hp 0 (by omega), piece_congr hl hp 1 (by omega), piece_congr hl hp 2 (by omega), piece_congr hl hp 3 (by omega), hs, hh]

/-- The block that brings `x` to a wanted state. -/
theorem steer {k : Keys} (hk : Odd4 k) (s t : V4) (x : List U8) (hx : x.length % 32 = 0) :
    ∃ u : List U8, u.length = 32 ∧ (blocks 32 (x ++ u)).foldl (block k) s = t := by
  obtain ⟨u, hu, h⟩ := reach hk ((blocks 32 x).foldl (block k) s) t
  refine ⟨u, hu, ?_⟩
  rw [blocks_pre hx, SpookyBalanced.blocks_one hu, List.foldl_append]
  exact h

theorem hash64_1_eq (key : List U8) (seed : U32) : Hash64_1 key seed = .ok (metro64_1 key seed) := by
  unfold metro64_1
  by_cases h : key.length % 8 = 4
  · have hne : key ≠ [] := by
      rintro rfl
      simp at h
    have e := List.dropLast_concat_getLast hne
    rw [if_pos h]
    have := C43_last_byte_skipped key.dropLast (key.getLast hne) seed (by rw [e]; exact h)
    rwa [e] at this
  · rw [if_neg h]; exact Lemmas.Metro.Hash64_1_eq key seed h

/-- Equal states after whole blocks, for a total length `n`. -/
theorem metro64_1_congr {p p' y : List U8} (hl : p.length = p'.length) (hp : p.length % 32 = 0) (seed : U32) (s : U64)
    (hs : s = (seed.setWidth 64 + keys1.k2) * keys1.k0 + BitVec.ofNat 64 (p.length + y.length))
    (h : (blocks 32 p).foldl (block keys1) (s, s, s, s) = (blocks 32 p').foldl (block keys1) (s, s, s, s)) : metro64_1 (p ++ y) seed = metro64_1 (p' ++ y) seed := by
  have hL : (p ++ y).length = p.length + y.length := by rw [List.length_append]
  have hL' : (p' ++ y).length = p.length + y.length := by rw [List.length_append, hl]
  have e : start64 params64_1 (p ++ y) seed = s ∧ start64 params64_1 (p' ++ y) seed = s := by
    unfold start64
    rw [hL, hL', hs]
    exact ⟨rfl, rfl⟩
  unfold metro64_1 metro64
  rw [e.1, e.2, hL, hL']
  by_cases h4 : (p.length + y.length) % 8 = 4
  · have hy : y ≠ [] := by
      rintro rfl
      rw [List.length_nil] at h4
      omega
    rw [if_pos h4, if_pos h4, List.dropLast_append_of_ne_nil hy, List.dropLast_append_of_ne_nil hy]
    exact run64_congr params64_1 hl hp s h
  · rw [if_neg h4, if_neg h4]
    exact run64_congr params64_1 hl hp s h

theorem metro64_2_congr {p p' y : List U8} (hl : p.length = p'.length) (hp : p.length % 32 = 0) (seed : U32) (s : U64)
    (hs : s = (seed.setWidth 64 + keys2.k2) * keys2.k0 + BitVec.ofNat 64 (p.length + y.length))
    (h : (blocks 32 p).foldl (block keys2) (s, s, s, s) = (blocks 32 p').foldl (block keys2) (s, s, s, s)) :
    metro64 params64_2 (p ++ y) seed = metro64 params64_2 (p' ++ y) seed := by
  have e : start64 params64_2 (p ++ y) seed = s ∧ start64 params64_2 (p' ++ y) seed = s := by
    unfold start64
    rw [List.length_append, List.length_append, ← hl, hs]
    exact ⟨rfl, rfl⟩
  unfold metro64
  rw [e.1, e.2]
  exact run64_congr params64_2 hl hp s h

end MetroSteer
open MetroSteer

/-- C125. Take any key `z ++ y` whose part `z` is one or more whole 32-byte blocks, and replace all blocks of `z` but the last by anything: there is a last block with which
the hash is the same, whatever follows (the length of what follows must be known). For each of the four functions and every seed. -/
theorem C125_second_preimage (z x : List U8) (hz : z.length % 32 = 0) (hx : x.length + 32 = z.length) (seed : U32) (n : Nat) :
    (∃ u, u.length = 32 ∧ ∀ y, y.length = n → Hash64_1 (x ++ u ++ y) seed = Hash64_1 (z ++ y) seed) ∧
    (∃ u, u.length = 32 ∧ ∀ y, y.length = n → Hash64_2 (x ++ u ++ y) seed = Hash64_2 (z ++ y) seed) ∧
    (∃ u, u.length = 32 ∧ ∀ y, y.length = n → Hash128_1 (x ++ u ++ y) seed = Hash128_1 (z ++ y) seed) ∧
    (∃ u, u.length = 32 ∧ ∀ y, y.length = n → Hash128_2 (x ++ u ++ y) seed = Hash128_2 (z ++ y) seed) := by
  have hx0 : x.length % 32 = 0 := by omega
  have hl : ∀ u : List U8, u.length = 32 → (x ++ u).length = z.length ∧ (x ++ u).length % 32 = 0 := fun u hu => by
    rw [List.length_append, hu]
    exact ⟨hx, by omega⟩
  refine ⟨?_, ?_, ?_, ?_⟩
  · let s := (seed.setWidth 64 + keys1.k2) * keys1.k0 + BitVec.ofNat 64 (z.length + n)
    obtain ⟨u, hu, h⟩ := steer odd1 (s, s, s, s) ((blocks 32 z).foldl (block keys1) (s, s, s, s)) x hx0
    refine ⟨u, hu, fun y hy => ?_⟩
    rw [hash64_1_eq, hash64_1_eq, metro64_1_congr (hl u hu).1 (hl u hu).2 seed s (by rw [(hl u hu).1, hy]) h]
  · let s := (seed.setWidth 64 + keys2.k2) * keys2.k0 + BitVec.ofNat 64 (z.length + n)
    obtain ⟨u, hu, h⟩ := steer odd2 (s, s, s, s) ((blocks 32 z).foldl (block keys2) (s, s, s, s)) x hx0
    refine ⟨u, hu, fun y hy => ?_⟩
    rw [(C42_published _ seed).1, (C42_published _ seed).1, metro64_2_congr (hl u hu).1 (hl u hu).2 seed s (by rw [(hl u hu).1, hy]) h]
  · obtain ⟨u, hu, h⟩ := steer odd1 (start128 params128_1 (z.length + n) seed) ((blocks 32 z).foldl (block keys1) (start128 params128_1 (z.length + n) seed)) x hx0
    refine ⟨u, hu, fun y hy => ?_⟩
    rw [(C42_published _ seed).2.1, (C42_published _ seed).2.1, metro128_congr params128_1 (hl u hu).1 (hl u hu).2 seed (by rw [(hl u hu).1, hy]; exact h)]
  · obtain ⟨u, hu, h⟩ := steer odd2 (start128 params128_2 (z.length + n) seed) ((blocks 32 z).foldl (block keys2) (start128 params128_2 (z.length + n) seed)) x hx0
    refine ⟨u, hu, fun y hy => ?_⟩
    rw [(C42_published _ seed).2.2, (C42_published _ seed).2.2, metro128_congr params128_2 (hl u hu).1 (hl u hu).2 seed (by rw [(hl u hu).1, hy]; exact h)]

def metroNames : List String := ["MetroHash64-1", "MetroHash64-2", "MetroHash128-1h", "MetroHash128-1l", "MetroHash128-1xor", "MetroHash128-2h", "MetroHash128-2l", "MetroHash128-2xor"]

/-- C125. Under each of these names and for every seed there are, for every `m`, up to `256^(32 m)` different keys of `32 (m + 1)` bytes that have one hash in `Hashf`, and keep
having one hash when the same `len` bytes, whatever they are, are appended to all of them; it is only the low half of the seed that matters. -/
theorem C125_collisions (e : Ext) (he : Ok e) (name : String) (hname : name ∈ metroNames) (m n len : Nat) (hn : n ≤ 256 ^ (32 * m)) (seed32 : U32) :
    ∃ ks : List (List U8), ks.Nodup ∧ ks.length = n ∧ (∀ k ∈ ks, k.length = 32 * (m + 1)) ∧
      ∀ (y : List U8) (seed : U64), y.length = len → seed.setWidth 32 = seed32 → ∃ h, ∀ k ∈ ks, ∀ hist, resultAfter e hist name (k ++ y) seed = .ok h := by
  have z32 : (List.replicate (32 * (m + 1)) 0#8).length = 32 * (m + 1) := List.length_replicate
  have pick : ∀ {α : Type} (H : List U8 → U32 → Go α) (_ : ∀ k s, ∃ v, H k s = .ok v),
      (∀ x : List U8, x.length = 32 * m → ∃ u, u.length = 32 ∧ ∀ y, y.length = len → H (x ++ u ++ y) seed32 = H (List.replicate (32 * (m + 1)) 0#8 ++ y) seed32) →
      ∃ ks : List (List U8), ks.Nodup ∧ ks.length = n ∧ (∀ k ∈ ks, k.length = 32 * (m + 1)) ∧ ∀ y : List U8, y.length = len → ∃ v, ∀ k ∈ ks, H (k ++ y) seed32 = .ok v := by
    intro α H tot hH
    obtain ⟨ks, h1, h2, h3, h4⟩ := prefix_keys (32 * m) 32 [] (fun k => ∀ y : List U8, y.length = len → H (k ++ y) seed32 = H (List.replicate (32 * (m + 1)) 0#8 ++ y) seed32) True
      (fun x hx => by
        obtain ⟨u, hu, h⟩ := hH x hx
        refine ⟨u, hu, eq_true fun y hy => ?_⟩
        rw [List.append_nil]
        exact h y hy) n hn
    refine ⟨ks, h1, h2, fun k hk => by rw [h3 k hk, List.length_nil]; omega, fun y hy => ?_⟩
    obtain ⟨v, hv⟩ := tot (List.replicate (32 * (m + 1)) 0#8 ++ y) seed32
    exact ⟨v, fun k hk => (of_eq_true (h4 k hk) y hy).trans hv⟩
  have sp := fun (x : List U8) (hx : x.length = 32 * m) => C125_second_preimage (List.replicate (32 * (m + 1)) 0#8) x (by rw [z32]; omega) (by rw [z32]; omega) seed32 len
  have fin : ∀ {α : Type} (H : List U8 → U32 → Go α) (S : List U8 → U32 → α) (_ : ∀ k s, H k s = .ok (S k s)) (g : α → U64) (i : Nat),
      (Spec.Hashf.table e)[i]? = some (name, fun k s => some (g (S k (Spec.Hashf.low s)))) →
      (∃ ks : List (List U8), ks.Nodup ∧ ks.length = n ∧ (∀ k ∈ ks, k.length = 32 * (m + 1)) ∧ ∀ y : List U8, y.length = len → ∃ v, ∀ k ∈ ks, H (k ++ y) seed32 = .ok v) →
      ∃ ks : List (List U8), ks.Nodup ∧ ks.length = n ∧ (∀ k ∈ ks, k.length = 32 * (m + 1)) ∧
        ∀ (y : List U8) (seed : U64), y.length = len → seed.setWidth 32 = seed32 → ∃ h, ∀ k ∈ ks, ∀ hist, resultAfter e hist name (k ++ y) seed = .ok h := by
    rintro α H S hS g i hi ⟨ks, h1, h2, h3, h4⟩
    refine ⟨ks, h1, h2, h3, fun y seed hy hs => ?_⟩
    obtain ⟨v, hv⟩ := h4 y hy
    refine ⟨g v, fun k hk hist => value e he hist (k ++ y) seed i hi ?_⟩
    have := Except.ok.inj ((hS (k ++ y) seed32).symm.trans (hv k hk))
    show some (g (S (k ++ y) (seed.setWidth 32))) = some (g v)
    rw [hs, this]
  have k1 := pick Hash64_1 (fun k s => (C42_total k s).1) fun x hx => (sp x hx).1
  have k2 := pick Hash64_2 (fun k s => (C42_total k s).2.1) fun x hx => (sp x hx).2.1
  have k3 := pick Hash128_1 (fun k s => (C42_total k s).2.2.1) fun x hx => (sp x hx).2.2.1
  have k4 := pick Hash128_2 (fun k s => (C42_total k s).2.2.2) fun x hx => (sp x hx).2.2.2
  have p2 := fun k s => (C42_published k s).1
  have p3 := fun k s => (C42_published k s).2.1
  have p4 := fun k s => (C42_published k s).2.2
  simp only [metroNames, List.mem_cons, List.not_mem_nil, or_false] at hname
  rcases hname with rfl | rfl | rfl | rfl | rfl | rfl | rfl | rfl
  · exact fin Hash64_1 metro64_1 hash64_1_eq id 32 rfl k1
  · exact fin Hash64_2 (metro64 params64_2) p2 id 33 rfl k2
  · exact fin Hash128_1 (metro128 params128_1) p3 (fun v => v.1) 34 rfl k3
  · exact fin Hash128_1 (metro128 params128_1) p3 (fun v => v.2) 35 rfl k3
  · exact fin Hash128_1 (metro128 params128_1) p3 (fun v => v.1 ^^^ v.2) 36 rfl k3
  · exact fin Hash128_2 (metro128 params128_2) p4 (fun v => v.1) 37 rfl k4
  · exact fin Hash128_2 (metro128 params128_2) p4 (fun v => v.2) 38 rfl k4
  · exact fin Hash128_2 (metro128 params128_2) p4 (fun v => v.1 ^^^ v.2) 39 rfl k4

/-- C125. So MetroHash can flood a chaining table of any size, for any seed; the keys may share any end. -/
theorem C125_flood (e : Ext) (he : Ok e) (name : String) (hname : name ∈ metroNames) (np : Int → Int) (size seed extra : Int) (pd prime : Bool)
    (ht0 : HashTable.HT (List U8)) (hnew : HashTable.newHashTable np size seed extra pd false prime = .ok ht0) (hpos : 0 < ht0.buckets.length) (m n : Nat) (y : List U8)
    (hn : 2 ≤ n) (hm : n ≤ 256 ^ (32 * m)) :
    ∃ ks : List (List U8), ks.Nodup ∧ ks.length = n ∧ (∀ k ∈ ks, k.length = 32 * (m + 1) + y.length ∧ y <:+ k) ∧
      ∃ ht, HashTable.insertAll (HashTable.pureEnv (valueOf (resultAfter e [] name)) (fun _ => true)) () ht0 ks = .ok ((), ht) ∧
        (∃ i : Nat, ht.buckets[i]? = some ks ∧ ∀ j : Nat, j ≠ i → ∀ c, ht.buckets[j]? = some c → c = []) ∧
        2 * ht.dups = n * (n - 1) ∧ ht.heads = 1 ∧ ht.nbuckets = n - 1 ∧ ht.longestChain = n := by
  obtain ⟨ks, h1, h2, h3, h4⟩ := C125_collisions e he name hname m n y.length hm (ht0.seed.setWidth 32)
  obtain ⟨h, h5⟩ := h4 y ht0.seed rfl rfl
  refine ⟨ks.map (· ++ y), ?_, by rw [List.length_map, h2], ?_, ?_⟩
  · exact h1.map_on fun a _ b _ hab => List.append_cancel_right hab
  · intro k hk
    obtain ⟨a, ha, rfl⟩ := List.mem_map.1 hk
    exact ⟨by rw [List.length_append, h3 a ha], List.suffix_append _ _⟩
  · refine flood_of _ np size seed extra pd prime ht0 hnew hpos n hn (ks.map (· ++ y)) (by rw [List.length_map, h2]) h fun k hk => ?_
    obtain ⟨a, ha, rfl⟩ := List.mem_map.1 hk
    simp only [valueOf, h5 a ha []]

/-- C125_flood applies to MetroHash128-2xor with a table of sixteen buckets and a million keys of 64 bytes that end in two given bytes. -/
example : ∃ ht0 : HashTable.HT (List U8), HashTable.newHashTable id 16 5 0 false false false = .ok ht0 ∧ 0 < ht0.buckets.length ∧ "MetroHash128-2xor" ∈ metroNames ∧ 2 ≤ 1000000 ∧
    1000000 ≤ 256 ^ (32 * 1) ∧ Ok exampleExt :=
  ⟨_, rfl, by decide, by decide, by decide, by norm_num, exampleExt_ok⟩

/-- A key of three blocks and a tail, of which the first two blocks are replaced by zeros. -/
example (z y : List U8) (hz : z.length = 96) (seed : U32) : ∃ u, u.length = 32 ∧ Hash64_2 (List.replicate 64 0#8 ++ u ++ y) seed = Hash64_2 (z ++ y) seed := by
  obtain ⟨u, hu, h⟩ := (C125_second_preimage z (List.replicate 64 0#8) (by omega) (by rw [List.length_replicate]; omega) seed y.length).2.1
  exact ⟨u, hu, h y rfl⟩

end Verif.Props
