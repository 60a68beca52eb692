import Verif.Props.Murmur3
import Verif.Props.Gomap
import Verif.Props.Hashf
import Verif.Props.HashTable
import Verif.Spec.HtMain
import Mathlib.Data.Set.Card
import Mathlib.Data.Fintype.Card
import Mathlib.Logic.Equiv.Fin.Basic

/-!
# C116: one block of the key reaches every hash value
-/

namespace Verif.Props
open Verif Verif.Spec.HashTable
open Verif.Model.Murmur3 (Sum32 Sum64 Sum128)
open Verif.Model.Gomap (Hash32 Hash64)
open Verif.Spec.Hashf (resultAfter Ok)
open Verif.Model.Hashf (Ext)
open Verif.Spec.HtMain (valueOf)

/-- A function of the byte strings of length `n` that never fails, is injective and has `256^n` possible values takes every value, once. -/
theorem exactly_once {α : Type} (n : Nat) (E : α ≃ Fin (256 ^ n)) (f : List U8 → Go α) (total : ∀ u, u.length = n → ∃ v, f u = .ok v)
    (inj : ∀ u v, u.length = n → v.length = n → f u = f v → u = v) (v : α) : ∃! u, u.length = n ∧ f u = .ok v := by
  have hlen : ∀ i : Fin (256 ^ n), (leBytes n i.val).length = n := fun i => leBytes_length _ _
  choose g hg using fun i : Fin (256 ^ n) => total (leBytes n i.val) (hlen i)
  have hgi : Function.Injective g := fun i j h => by
    have h1 := inj _ _ (hlen i) (hlen j) (by rw [hg, hg, h])
    have h2 := congrArg leNat h1
    rw [leNat_leBytes, leNat_leBytes, Nat.mod_eq_of_lt i.2, Nat.mod_eq_of_lt j.2] at h2
    exact Fin.ext h2
  have hgs : Function.Surjective g := (Finite.injective_iff_surjective_of_equiv E.symm).1 hgi
  obtain ⟨i, hi⟩ := hgs v
  refine ⟨leBytes n i.val, ⟨hlen i, by rw [hg, hi]⟩, fun u ⟨hu, hv⟩ => inj _ _ hu (hlen i) (by rw [hv, hg, hi])⟩

/-- The `w`-bit words as numbers. -/
def words (w n : Nat) (h : 2 ^ w = 256 ^ n) : BitVec w ≃ Fin (256 ^ n) :=
  ⟨fun b => ⟨b.toNat, Nat.lt_of_lt_of_eq b.isLt h⟩, fun i => BitVec.ofNat w i.val, fun b => by simp, fun i => by
    apply Fin.ext
    simp only [BitVec.toNat_ofNat]
    exact Nat.mod_eq_of_lt (Nat.lt_of_lt_of_eq i.2 h.symm)⟩

def pairs : U64 × U64 ≃ Fin (256 ^ 16) :=
  ((words 64 8 rfl).prodCongr (words 64 8 rfl)).trans (finProdFinEquiv.trans (finCongr rfl))

/-- C116. Fix everything in the key but one aligned 4-byte block: each of the 2^32 values of `murmur3.Sum32` is the hash of exactly one
content of that block. -/
theorem C116_murmur32 (x y : List U8) (hx : x.length % 4 = 0) (v : U32) : ∃! u, u.length = 4 ∧ Sum32 (x ++ u ++ y) = .ok v :=
  exactly_once 4 (words 32 4 rfl) (fun u => Sum32 (x ++ u ++ y)) (fun _ _ => ⟨_, C21_sum32_is_murmur3 _⟩)
    (fun u w hu hw h => C25_one_block32 x u w y hx (hu.trans hw.symm) (.inl hu) h) v

/-- C116. The same for `murmur3.Sum128` and 16-byte blocks: every pair of words, once. -/
theorem C116_murmur128 (x y : List U8) (hx : x.length % 16 = 0) (v : U64 × U64) : ∃! u, u.length = 16 ∧ Sum128 (x ++ u ++ y) = .ok v :=
  exactly_once 16 pairs (fun u => Sum128 (x ++ u ++ y)) (fun _ _ => ⟨_, (C23_sum128_is_murmur3 _).1⟩)
    (fun u w hu hw h => C25_one_block128 x u w y hx (hu.trans hw.symm) (.inl hu) h) v

/-- C116. The same for the last aligned word of a key under the gomap hashes, whatever the seed. -/
theorem C116_gomap_last (p32 p64 : List U8) (s32 : U32) (s64 : U64) (h32 : p32.length % 4 = 0) (h64 : p64.length % 8 = 0) (v32 : U32) (v64 : U64) :
    (∃! u, u.length = 4 ∧ Hash32 (p32 ++ u) s32 = .ok v32) ∧ (∃! u, u.length = 8 ∧ Hash64 (p64 ++ u) s64 = .ok v64) := by
  have ne : ∀ (p u : List U8) (n : Nat), u.length = n + 1 → p ++ u ≠ [] := fun p u n hu h => by
    have := congrArg List.length h
    simp [hu] at this
  refine ⟨exactly_once 4 (words 32 4 rfl) (fun u => Hash32 (p32 ++ u) s32) (fun u hu => ⟨_, (C48_total _ s32 0#64 (ne _ u 3 hu)).1⟩) (fun u w hu hw h => ?_) v32,
    exactly_once 8 (words 64 8 rfl) (fun u => Hash64 (p64 ++ u) s64) (fun u hu => ⟨_, (C48_total _ 0#32 s64 (ne _ u 7 hu)).2⟩) (fun u w hu hw h => ?_) v64⟩
  · by_contra hne
    exact C49_last_group32 p32 u w s32 h32 (hu.trans hw.symm) (by omega) hne h
  · by_contra hne
    exact C49_last_group64 p64 u w s64 h64 (hu.trans hw.symm) (by omega) hne h

/-- C116. And for any aligned word of a whole block of a key longer than one block. -/
theorem C116_gomap_block (p q p' q' : List U8) (s32 : U32) (s64 : U64) (h4 : p.length % 4 = 0) (h8 : p'.length % 8 = 0)
    (hlong : 16 < p.length + 4 + q.length) (hblock : p.length / 16 * 16 + 16 ≤ p.length + 4 + q.length)
    (hlong' : 32 < p'.length + 8 + q'.length) (hblock' : p'.length / 32 * 32 + 32 ≤ p'.length + 8 + q'.length) (v32 : U32) (v64 : U64) :
    (∃! u, u.length = 4 ∧ Hash32 (p ++ u ++ q) s32 = .ok v32) ∧ (∃! u, u.length = 8 ∧ Hash64 (p' ++ u ++ q') s64 = .ok v64) := by
  have ne : ∀ (p u q : List U8) (n : Nat), u.length = n + 1 → p ++ u ++ q ≠ [] := fun p u q n hu h => by
    have := congrArg List.length h
    simp [hu] at this
  refine ⟨exactly_once 4 (words 32 4 rfl) (fun u => Hash32 (p ++ u ++ q) s32) (fun u hu => ⟨_, (C48_total _ s32 0#64 (ne _ u _ 3 hu)).1⟩) (fun u w hu hw h => ?_) v32,
    exactly_once 8 (words 64 8 rfl) (fun u => Hash64 (p' ++ u ++ q') s64) (fun u hu => ⟨_, (C48_total _ 0#32 s64 (ne _ u _ 7 hu)).2⟩) (fun u w hu hw h => ?_) v64⟩
  · by_contra hne
    exact C49_one_group32 p u w q s32 h4 hu hw hne (by simp only [List.length_append]; omega) (by simp only [List.length_append]; omega) h
  · by_contra hne
    exact C49_one_group64 p' u w q' s64 h8 hu hw hne (by simp only [List.length_append]; omega) (by simp only [List.length_append]; omega) h

/-- A function that takes every `w`-bit value exactly once on the byte strings of length `n` meets every residue modulo `2^k` equally often. -/
theorem residues {w n : Nat} (f : List U8 → Go (BitVec w)) (once : ∀ v, ∃! u, u.length = n ∧ f u = .ok v) (k r : Nat) (hk : k ≤ w) (hr : r < 2 ^ k) :
    {u | u.length = n ∧ ∃ v, f u = .ok v ∧ v.toNat % 2 ^ k = r}.ncard = 2 ^ (w - k) := by
  choose g hg hu using once
  have hgi : Function.Injective g := fun a b h => by
    have h1 := (hg a).2
    rw [h, (hg b).2] at h1
    exact (Except.ok.inj h1).symm
  have hw : 2 ^ w = 2 ^ k * 2 ^ (w - k) := by rw [← Nat.pow_add]; congr 1; omega
  have hkp : 0 < 2 ^ k := Nat.two_pow_pos k
  have hb : ∀ i : Fin (2 ^ (w - k)), r + 2 ^ k * i.val < 2 ^ w := fun i => by
    rw [hw]
    calc r + 2 ^ k * i.val < 2 ^ k + 2 ^ k * i.val := by omega
      _ = 2 ^ k * (i.val + 1) := by rw [Nat.mul_add]; omega
      _ ≤ 2 ^ k * 2 ^ (w - k) := Nat.mul_le_mul_left _ i.2
  have hset : {u | u.length = n ∧ ∃ v, f u = .ok v ∧ v.toNat % 2 ^ k = r} =
      Set.range (fun i : Fin (2 ^ (w - k)) => g (BitVec.ofNat w (r + 2 ^ k * i.val))) := by
    ext u
    constructor
    · rintro ⟨hl, v, hv, hm⟩
      have hvlt : v.toNat / 2 ^ k < 2 ^ (w - k) := by
        apply Nat.div_lt_of_lt_mul
        rw [← hw]
        exact v.isLt
      refine ⟨⟨v.toNat / 2 ^ k, hvlt⟩, ?_⟩
      have he : BitVec.ofNat w (r + 2 ^ k * (v.toNat / 2 ^ k)) = v := by
        rw [← hm, Nat.mod_add_div]
        simp
      show g (BitVec.ofNat w (r + 2 ^ k * (v.toNat / 2 ^ k))) = u
      rw [he]
      exact (hu v u ⟨hl, hv⟩).symm
    · rintro ⟨i, rfl⟩
      refine ⟨(hg _).1, _, (hg _).2, ?_⟩
      rw [BitVec.toNat_ofNat, Nat.mod_eq_of_lt (hb i), Nat.add_mul_mod_self_left, Nat.mod_eq_of_lt hr]
  rw [hset, ← Set.image_univ, Set.ncard_image_of_injective, Set.ncard_univ, Nat.card_eq_fintype_card, Fintype.card_fin]
  intro i j h
  have h1 := congrArg BitVec.toNat (hgi h)
  rw [BitVec.toNat_ofNat, BitVec.toNat_ofNat, Nat.mod_eq_of_lt (hb i), Nat.mod_eq_of_lt (hb j)] at h1
  apply Fin.ext
  exact Nat.eq_of_mul_eq_mul_left hkp (by omega)

/-- C116. So, over the contents of that block, the hashes are spread evenly: every bucket of a table of `2^k` buckets gets exactly `2^(32-k)`
of the `2^32` keys under `Sum32`, and the same under the gomap hashes. -/
theorem C116_even (x y p32 p64 : List U8) (s32 : U32) (s64 : U64) (hx : x.length % 4 = 0) (h32 : p32.length % 4 = 0) (h64 : p64.length % 8 = 0)
    (k r : Nat) (hr : r < 2 ^ k) :
    (k ≤ 32 → {u | u.length = 4 ∧ ∃ v, Sum32 (x ++ u ++ y) = .ok v ∧ v.toNat % 2 ^ k = r}.ncard = 2 ^ (32 - k)) ∧
    (k ≤ 32 → {u | u.length = 4 ∧ ∃ v, Hash32 (p32 ++ u) s32 = .ok v ∧ v.toNat % 2 ^ k = r}.ncard = 2 ^ (32 - k)) ∧
    (k ≤ 64 → {u | u.length = 8 ∧ ∃ v, Hash64 (p64 ++ u) s64 = .ok v ∧ v.toNat % 2 ^ k = r}.ncard = 2 ^ (64 - k)) :=
  ⟨fun hk => residues (w := 32) (n := 4) _ (C116_murmur32 x y hx) k r hk hr,
    fun hk => residues (w := 32) (n := 4) _ (fun v => (C116_gomap_last p32 p64 s32 s64 h32 h64 v 0#64).1) k r hk hr,
    fun hk => residues (w := 64) (n := 8) _ (fun v => (C116_gomap_last p32 p64 s32 s64 h32 h64 0#32 v).2) k r hk hr⟩

/-! ## Keys that all collide -/

/-- If a last block can steer the hash to any value, then `n ≤ 256^(b m)` different keys of length `b (m + 1)` have the hash `v`. -/
theorem many_keys {α : Type} (b : Nat) (f : List U8 → Go α) (once : ∀ x : List U8, x.length % b = 0 → ∀ v, ∃! u, u.length = b ∧ f (x ++ u) = .ok v) (m n : Nat) (v : α)
    (hlt : n ≤ 256 ^ (b * m)) : ∃ ks : List (List U8), ks.Nodup ∧ ks.length = n ∧ (∀ k ∈ ks, k.length = b * (m + 1)) ∧ ∀ k ∈ ks, f k = .ok v := by
  have hp : ∀ i, (leBytes (b * m) i).length = b * m := fun i => leBytes_length _ _
  choose g hg using fun i => (once (leBytes (b * m) i) (by rw [hp]; simp) v).exists
  refine ⟨(List.range n).map (fun i => leBytes (b * m) i ++ g i), ?_, by simp, ?_, ?_⟩
  · apply List.Nodup.map_on _ List.nodup_range
    intro i hi j hj h
    rw [List.mem_range] at hi hj
    have h1 := List.append_inj_left h ((hp i).trans (hp j).symm)
    have h2 := congrArg leNat h1
    rw [leNat_leBytes, leNat_leBytes, Nat.mod_eq_of_lt (by omega), Nat.mod_eq_of_lt (by omega)] at h2
    exact h2
  · intro k hk
    obtain ⟨i, _, rfl⟩ := List.mem_map.1 hk
    rw [List.length_append, hp, (hg i).1, Nat.mul_add, Nat.mul_one]
  · intro k hk
    obtain ⟨i, _, rfl⟩ := List.mem_map.1 hk
    exact (hg i).2

/-- The functions of the dispatcher that a last block can steer, with the size of the block. -/
def steerable : List (String × Nat) := [("murmur332", 4), ("murmur364", 16), ("gomap32", 4), ("gomap64", 8)]

/-- C116. Under each of these names up to `256^(b m)` different keys of length `b (m + 1)` have the same hash in `Hashf`, whatever was hashed before: they can
be found for any given seed; under the murmur names they then collide for every seed. -/
theorem C116_collisions (e : Ext) (he : Ok e) (name : String) (b : Nat) (hname : (name, b) ∈ steerable) (m n : Nat) (hm : n ≤ 256 ^ (b * m)) (seed : U64) :
    ∃ ks : List (List U8), ks.Nodup ∧ ks.length = n ∧ (∀ k ∈ ks, k.length = b * (m + 1)) ∧
      ∃ h, ∀ k ∈ ks, ∀ hist, resultAfter e hist name k seed = .ok h ∧
        (name = "murmur332" ∨ name = "murmur364" → ∀ s, resultAfter e hist name k s = .ok h) := by
  have ne : ∀ (k : List U8) (c : Nat), 0 < c → k.length = c * (m + 1) → k ≠ [] := by
    rintro k c hc hk rfl
    simp only [List.length_nil] at hk
    have h0 : 0 < c * (m + 1) := Nat.mul_pos hc (Nat.succ_pos m)
    omega
  simp only [steerable, List.mem_cons, Prod.mk.injEq, List.not_mem_nil, or_false] at hname
  rcases hname with ⟨rfl, rfl⟩ | ⟨rfl, rfl⟩ | ⟨rfl, rfl⟩ | ⟨rfl, rfl⟩
  · obtain ⟨ks, h1, h2, h3, h4⟩ := many_keys 4 Sum32 (fun x hx v => by simpa using C116_murmur32 x [] hx v) m n 0#32 hm
    refine ⟨ks, h1, h2, h3, 0#64, fun k hk hist => ?_⟩
    have h5 := h4 k hk
    rw [C21_sum32_is_murmur3] at h5
    have hv : ∀ s, resultAfter e hist "murmur332" k s = .ok 0#64 := fun s =>
      value e he hist k s 23 rfl (congrArg (fun h => some (Spec.Hashf.wide h)) (Except.ok.inj h5))
    exact ⟨hv seed, fun _ => hv⟩
  · obtain ⟨ks, h1, h2, h3, h4⟩ := many_keys 16 Sum128 (fun x hx v => by simpa using C116_murmur128 x [] hx v) m n (0#64, 0#64) hm
    refine ⟨ks, h1, h2, h3, 0#64, fun k hk hist => ?_⟩
    have h5 := h4 k hk
    rw [(C23_sum128_is_murmur3 k).1] at h5
    have hv : ∀ s, resultAfter e hist "murmur364" k s = .ok 0#64 := fun s =>
      value e he hist k s 24 rfl (congrArg (fun h => some (Prod.fst h)) (Except.ok.inj h5))
    exact ⟨hv seed, fun _ => hv⟩
  · obtain ⟨ks, h1, h2, h3, h4⟩ := many_keys 4 (fun k => Hash32 k (Spec.Hashf.low seed)) (fun x hx v => (C116_gomap_last x [] (Spec.Hashf.low seed) 0#64 hx rfl v 0#64).1) m n 0#32 hm
    refine ⟨ks, h1, h2, h3, 0#64, fun k hk hist => ⟨?_, fun h => absurd h (by decide)⟩⟩
    have h5 := h4 k hk
    have hne := ne k 4 (by decide) (h3 k hk)
    rw [(C48_total k (Spec.Hashf.low seed) 0#64 hne).1] at h5
    refine value e he hist k seed 2 rfl ?_
    rw [if_neg hne, Except.ok.inj h5]
    rfl
  · obtain ⟨ks, h1, h2, h3, h4⟩ := many_keys 8 (fun k => Hash64 k seed) (fun x hx v => (C116_gomap_last [] x 0#32 seed rfl hx 0#32 v).2) m n 0#64 hm
    refine ⟨ks, h1, h2, h3, 0#64, fun k hk hist => ⟨?_, fun h => absurd h (by decide)⟩⟩
    have h5 := h4 k hk
    have hne := ne k 8 (by decide) (h3 k hk)
    rw [(C48_total k 0#32 seed hne).2] at h5
    refine value e he hist k seed 1 rfl ?_
    rw [if_neg hne, Except.ok.inj h5]

theorem eqPairs_same (a : U64) : ∀ n, 2 * eqPairs (List.replicate n a) = n * (n - 1)
  | 0 => rfl
  | n + 1 => by
    have ih := eqPairs_same a n
    rw [List.replicate_succ, eqPairs, Nat.mul_add, ih, List.countP_replicate]
    simp only [decide_true, if_true, Nat.add_sub_cancel]
    cases n with
    | zero => rfl
    | succ m => simp only [Nat.add_sub_cancel]; ring

/-- Keys with equal hashes all land in one bucket of a chaining table. -/
theorem flood_of (H : List U8 → U64 → U64) (np : Int → Int) (size seed extra : Int) (pd prime : Bool)
    (ht0 : HashTable.HT (List U8)) (hnew : HashTable.newHashTable np size seed extra pd false prime = .ok ht0) (hpos : 0 < ht0.buckets.length) (n : Nat)
    (hn : 2 ≤ n) (ks : List (List U8)) (h2 : ks.length = n) (h : U64) (hv : ∀ k ∈ ks, H k ht0.seed = h) :
    ∃ ht, HashTable.insertAll (HashTable.pureEnv H (fun _ => true)) () ht0 ks = .ok ((), ht) ∧
        (∃ i : Nat, ht.buckets[i]? = some ks ∧ ∀ j : Nat, j ≠ i → ∀ c, ht.buckets[j]? = some c → c = []) ∧
        2 * ht.dups = n * (n - 1) ∧ ht.heads = 1 ∧ ht.nbuckets = n - 1 ∧ ht.longestChain = n := by
  obtain ⟨ht, c1, c2⟩ := C04_chain_contents H np size seed extra pd prime ht0 ks hnew hpos
  refine ⟨ht, c1, ?_⟩
  have hi : homeOf prime ht0.buckets.length h < ht0.buckets.length := by
    unfold homeOf
    split
    · exact Nat.mod_lt _ hpos
    · exact Nat.lt_of_le_of_lt Nat.and_le_right (by omega)
  generalize hi0 : homeOf prime ht0.buckets.length h = i0 at hi
  generalize ht0.buckets.length = len at hi c2 hi0
  have hget : ∀ i, i < len → ht.buckets[i]? = some (if i = i0 then ks else []) := by
    intro i hlt
    rw [c2, List.getElem?_map, List.getElem?_range hlt, Option.map_some]
    congr 1
    split
    · rename_i e
      rw [List.filter_eq_self]
      intro k hk
      rw [hv k hk, hi0, e]
      simp
    · rename_i hne
      rw [List.filter_eq_nil_iff]
      intro k hk
      rw [hv k hk, hi0]
      simpa using fun h => hne h.symm
  have hlen : ht.buckets.length = len := by rw [c2]; simp
  have hb : ht.buckets = List.replicate i0 [] ++ ks :: List.replicate (len - i0 - 1) [] := by
    apply List.ext_getElem?
    intro i
    rcases Nat.lt_or_ge i len with hlt | hge
    · rw [hget i hlt]
      rcases Nat.lt_trichotomy i i0 with h | h | h
      · rw [List.getElem?_append_left (by simpa using h), List.getElem?_replicate, if_pos h, if_neg (by omega)]
      · subst h
        rw [List.getElem?_append_right (by simp)]
        simp
      · rw [List.getElem?_append_right (by simp; omega), List.length_replicate, if_neg (by omega)]
        obtain ⟨d, rfl⟩ : ∃ d, i = i0 + 1 + d := ⟨i - i0 - 1, by omega⟩
        rw [show i0 + 1 + d - i0 = d + 1 by omega, List.getElem?_cons_succ, List.getElem?_replicate, if_pos (by omega)]
    · rw [List.getElem?_eq_none (by omega), List.getElem?_eq_none (by simp; omega)]
  have hks : ks ≠ [] := by rintro rfl; simp at h2; omega
  have hocc : occupied ht.buckets = 1 := by
    rw [hb]
    simp [occupied, List.countP_append, List.countP_cons, List.countP_replicate, hks]
  have hrep : ∀ m d, (List.replicate d ([] : List (List U8))).foldr (fun b m => max b.length m) m = m := by
    intro m d
    induction d with
    | zero => rfl
    | succ d ih => rw [List.replicate_succ, List.foldr_cons, ih]; simp
  have hlong : longest ht.buckets = n := by
    rw [hb]
    unfold longest
    rw [List.foldr_append, List.foldr_cons, hrep, hrep]
    simpa using h2
  obtain ⟨w, ht', d1, d2, d3, d4, d5, d6, d7⟩ := C05_chain_stats (HashTable.pureEnv H (fun _ => true)) (fun _ => rfl) np size seed extra pd prime ht0 () ks hnew hpos
  obtain ⟨ht'', e1, e2⟩ := C06_chain_dups H np size seed extra pd prime ht0 ks hnew hpos
  rw [c1] at d1 e1
  obtain rfl : ht = ht' := congrArg Prod.snd (Except.ok.inj d1)
  obtain rfl : ht = ht'' := congrArg Prod.snd (Except.ok.inj e1)
  refine ⟨⟨i0, by rw [hget i0 hi, if_pos rfl], fun j hj c hc => ?_⟩, ?_, by rw [d5, hocc], by rw [d6, d5, hocc, h2], ?_⟩
  · have hjl : j < len := by
      rw [← hlen]
      exact (List.getElem?_eq_some_iff.1 hc).1
    rw [hget j hjl, if_neg hj] at hc
    exact (Option.some.inj hc).symm
  · rw [e2, show ks.map (fun k => H k ht0.seed) = List.replicate n h from ?_, eqPairs_same]
    rw [List.eq_replicate_iff]
    refine ⟨by simp [h2], fun x hx => ?_⟩
    obtain ⟨k, hk, rfl⟩ := List.mem_map.1 hx
    exact hv k hk
  · rw [d7, hlong, if_neg (by omega)]

/-- C116. A chaining table can be flooded: for every size of the table, every seed and every `n` up to `256^(b m)` there are `n` different keys of
length `b (m + 1)` that all land in one bucket; the table then reports `n(n-1)/2` duplicates, one used bucket and a chain of length `n`. -/
theorem C116_flood (e : Ext) (he : Ok e) (name : String) (b : Nat) (hname : (name, b) ∈ steerable) (np : Int → Int) (size seed extra : Int) (pd prime : Bool)
    (ht0 : HashTable.HT (List U8)) (hnew : HashTable.newHashTable np size seed extra pd false prime = .ok ht0) (hpos : 0 < ht0.buckets.length) (m n : Nat)
    (hn : 2 ≤ n) (hm : n ≤ 256 ^ (b * m)) :
    ∃ ks : List (List U8), ks.Nodup ∧ ks.length = n ∧ (∀ k ∈ ks, k.length = b * (m + 1)) ∧
      ∃ ht, HashTable.insertAll (HashTable.pureEnv (valueOf (resultAfter e [] name)) (fun _ => true)) () ht0 ks = .ok ((), ht) ∧
        (∃ i : Nat, ht.buckets[i]? = some ks ∧ ∀ j : Nat, j ≠ i → ∀ c, ht.buckets[j]? = some c → c = []) ∧
        2 * ht.dups = n * (n - 1) ∧ ht.heads = 1 ∧ ht.nbuckets = n - 1 ∧ ht.longestChain = n := by
  obtain ⟨ks, h1, h2, h3, h, h4⟩ := C116_collisions e he name b hname m n hm ht0.seed
  exact ⟨ks, h1, h2, h3, flood_of _ np size seed extra pd prime ht0 hnew hpos n hn ks h2 h fun k hk => by simp only [valueOf, (h4 k hk []).1]⟩

/-- C116_flood applies to the dispatcher's murmur364 with a table of sixteen buckets and a thousand keys of 32 bytes. -/
example : ∃ ht0 : HashTable.HT (List U8), HashTable.newHashTable id 16 5 0 false false false = .ok ht0 ∧ 0 < ht0.buckets.length ∧ ("murmur364", 16) ∈ steerable ∧ 2 ≤ 1000 ∧ 1000 ≤ 256 ^ (16 * 1) ∧ Ok exampleExt :=
  ⟨_, rfl, by decide, by decide, by decide, by norm_num, exampleExt_ok⟩

/-- The 4 bytes that steer `Sum32` of "abcd????e" to 0. -/
example : ∃ u : List U8, u.length = 4 ∧ Sum32 ([97#8, 98#8, 99#8, 100#8] ++ u ++ [101#8]) = .ok 0#32 :=
  (C116_murmur32 [97#8, 98#8, 99#8, 100#8] [101#8] rfl 0#32).exists

/-- The premises of C116_gomap_block hold of the second word of a 20-byte key and the third of a 40-byte key. -/
example (q : List U8) (hq : q.length = 12) (p' q' : List U8) (hp' : p'.length = 16) (hq' : q'.length = 16) (v32 : U32) (v64 : U64) :
    (∃! u, u.length = 4 ∧ Hash32 ([1#8, 2#8, 3#8, 4#8] ++ u ++ q) 7#32 = .ok v32) ∧ (∃! u, u.length = 8 ∧ Hash64 (p' ++ u ++ q') 7#64 = .ok v64) :=
  C116_gomap_block _ q p' q' 7#32 7#64 rfl (by omega) (by simp; omega) (by simp; omega) (by omega) (by omega) v32 v64

end Verif.Props
