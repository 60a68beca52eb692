import Verif.Lemmas.Smhasher
import Verif.Lemmas.Threefish
import Mathlib.Data.Nat.GCD.Basic
import Mathlib.Data.Nat.Choose.Basic
import Mathlib.Data.List.Perm.Lattice
import Mathlib.Tactic.Positivity
import Mathlib.Tactic.NormNum

namespace Verif.Lemmas.Smhasher
open Verif Verif.Model.Smhasher Verif.Spec.Smhasher
open Verif.Lemmas.Ht (set_eq forRange_collect flatMap_singleton_map)

/-! ### Prefixes -/

theorem addBTo_eq {s : List U8} {n : Nat} (h : n ≤ s.length) (out : List (List U8)) : addBTo n (s, out) = .ok (s, out ++ [s.take n]) := by
  unfold addBTo
  dsimp only
  rw [Go.slice, if_pos ⟨by omega, h⟩, Go.bind_ok, Go.pure_ok]
  simp

theorem prefixes_eq (s : List U8) :
    Go.forRange 0 (s.length + 1) addBTo (s, []) = .ok (s, (List.range (s.length + 1)).map s.take) := by
  obtain ⟨s', h1, h2⟩ := forRange_collect (fun b : List U8 => b = s) (fun i => [s.take i]) 0 (s.length + 1) (body := addBTo)
    (by
      rintro i b out _ hi rfl
      exact ⟨b, addBTo_eq (by omega) out, rfl⟩) s [] rfl
  subst h2
  rw [h1, flatMap_singleton_map, List.nil_append, List.range_eq_range']

theorem mem_prefixes (s x : List U8) : x ∈ (List.range (s.length + 1)).map s.take ↔ x <+: s := by
  rw [List.mem_map]
  constructor
  · rintro ⟨i, _, rfl⟩; exact List.take_prefix _ _
  · intro h
    exact ⟨x.length, by rw [List.mem_range]; have := h.length_le; omega, (List.prefix_iff_eq_take.1 h).symm⟩

theorem nodup_prefixes (s : List U8) : ((List.range (s.length + 1)).map s.take).Nodup := by
  rw [List.nodup_map_iff_inj_on List.nodup_range]
  intro i hi j hj h
  rw [List.mem_range] at hi hj
  have := congrArg List.length h
  rw [List.length_take, List.length_take] at this
  omega

/-! ### Small keys -/

def small (L : Nat) : List (List U8) :=
  (List.range L).flatMap fun i => [BitVec.ofNat 8 i] :: (List.range L).flatMap fun j => [BitVec.ofNat 8 i, BitVec.ofNat 8 j] ::
    (List.range L).map fun k => [BitVec.ofNat 8 i, BitVec.ofNat 8 j, BitVec.ofNat 8 k]

theorem smallKeys_eq : ∃ b, smallKeys = .ok (b, small 256) := by
  unfold smallKeys small
  generalize 256 = L
  obtain ⟨s', h1, _⟩ := forRange_collect (fun b : List U8 => b.length = 3)
    (fun i => [BitVec.ofNat 8 i] :: (List.range L).flatMap fun j => [BitVec.ofNat 8 i, BitVec.ofNat 8 j] ::
      (List.range L).map fun k => [BitVec.ofNat 8 i, BitVec.ofNat 8 j, BitVec.ofNat 8 k]) 0 L
    (body := fun i q => do
      let q ← put 0 (BitVec.ofNat 8 i) q
      let q ← addBTo 1 q
      Go.forRange 0 L (fun j q => do
        let q ← put 1 (BitVec.ofNat 8 j) q
        let q ← addBTo 2 q
        Go.forRange 0 L (fun k q => do
          let q ← put 2 (BitVec.ofNat 8 k) q
          addBTo 3 q) q) q)
    (by
      intro i s out _ _ hs
      obtain ⟨x, y, z, rfl⟩ : ∃ x y z, s = [x, y, z] := by
        match s, hs with
        | [x, y, z], _ => exact ⟨x, y, z, rfl⟩
      rw [put]
      dsimp only
      rw [set_eq (by simp), Go.bind_ok, Go.pure_ok, Go.bind_ok, addBTo_eq (by simp), Go.bind_ok]
      obtain ⟨s1, h1, h2⟩ := forRange_collect (fun b : List U8 => ∃ y z, b = [BitVec.ofNat 8 i, y, z])
        (fun j => [BitVec.ofNat 8 i, BitVec.ofNat 8 j] :: (List.range L).map fun k => [BitVec.ofNat 8 i, BitVec.ofNat 8 j, BitVec.ofNat 8 k]) 0 L
        (body := fun j q => do
          let q ← put 1 (BitVec.ofNat 8 j) q
          let q ← addBTo 2 q
          Go.forRange 0 L (fun k q => do
            let q ← put 2 (BitVec.ofNat 8 k) q
            addBTo 3 q) q)
        (by
          rintro j _ out _ _ ⟨y, z, rfl⟩
          rw [put]
          dsimp only
          rw [set_eq (by simp), Go.bind_ok, Go.pure_ok, Go.bind_ok, addBTo_eq (by simp), Go.bind_ok]
          obtain ⟨s2, h3, h4⟩ := forRange_collect (fun b : List U8 => ∃ z, b = [BitVec.ofNat 8 i, BitVec.ofNat 8 j, z])
            (fun k => [[BitVec.ofNat 8 i, BitVec.ofNat 8 j, BitVec.ofNat 8 k]]) 0 L
            (body := fun k q => do
              let q ← put 2 (BitVec.ofNat 8 k) q
              addBTo 3 q)
            (by
              rintro k _ out _ _ ⟨z, rfl⟩
              rw [put]
              dsimp only
              rw [set_eq (by simp), Go.bind_ok, Go.pure_ok, Go.bind_ok, addBTo_eq (by simp)]
              exact ⟨_, rfl, _, rfl⟩) [BitVec.ofNat 8 i, BitVec.ofNat 8 j, z] (out ++ [[BitVec.ofNat 8 i, BitVec.ofNat 8 j]]) ⟨z, rfl⟩
          obtain ⟨z', rfl⟩ := h4
          refine ⟨[BitVec.ofNat 8 i, BitVec.ofNat 8 j, z'], h3.trans ?_, _, _, rfl⟩
          rw [flatMap_singleton_map, List.range_eq_range', List.append_assoc]; rfl)
        [BitVec.ofNat 8 i, y, z] (out ++ [[BitVec.ofNat 8 i]]) ⟨y, z, rfl⟩
      obtain ⟨y', z', rfl⟩ := h2
      refine ⟨[BitVec.ofNat 8 i, y', z'], h1.trans ?_, rfl⟩
      rw [List.append_assoc, ← List.range_eq_range']; rfl) (List.replicate 3 0#8) [] rfl
  refine ⟨s', h1.trans ?_⟩
  rw [List.nil_append, ← List.range_eq_range']

theorem ofNat_toNat8 (v : U8) : BitVec.ofNat 8 v.toNat = v := by simp

theorem mem_small (x : List U8) : x ∈ small 256 ↔ 1 ≤ x.length ∧ x.length ≤ 3 := by
  simp only [small, List.mem_flatMap, List.mem_cons, List.mem_map, List.mem_range]
  constructor
  · rintro ⟨i, _, rfl | ⟨j, _, rfl | ⟨k, _, rfl⟩⟩⟩ <;> simp
  · rintro ⟨h1, h2⟩
    match x, h1, h2 with
    | [a], _, _ => exact ⟨a.toNat, a.isLt, .inl (by rw [ofNat_toNat8])⟩
    | [a, b], _, _ => exact ⟨a.toNat, a.isLt, .inr ⟨b.toNat, b.isLt, .inl (by rw [ofNat_toNat8, ofNat_toNat8])⟩⟩
    | [a, b, c], _, _ =>
      exact ⟨a.toNat, a.isLt, .inr ⟨b.toNat, b.isLt, .inr ⟨c.toNat, c.isLt, by rw [ofNat_toNat8, ofNat_toNat8, ofNat_toNat8]⟩⟩⟩
    | a :: b :: c :: d :: x, _, h => simp at h; omega

theorem ofNat8_inj {a b : Nat} (ha : a < 256) (hb : b < 256) (h : BitVec.ofNat 8 a = BitVec.ofNat 8 b) : a = b := by
  have := congrArg BitVec.toNat h
  rw [BitVec.toNat_ofNat, BitVec.toNat_ofNat, Nat.mod_eq_of_lt ha, Nat.mod_eq_of_lt hb] at this
  exact this

theorem nodup_range_flatMap {β : Type} {L : Nat} {f : Nat → List β} (h1 : ∀ i < L, (f i).Nodup)
    (h2 : ∀ i < L, ∀ j < L, ∀ x, x ∈ f i → x ∈ f j → i = j) : ((List.range L).flatMap f).Nodup := by
  rw [List.nodup_flatMap]
  refine ⟨fun i hi => h1 i (List.mem_range.1 hi), ?_⟩
  have : (List.range L).Pairwise (· < ·) := List.pairwise_lt_range
  apply (List.Pairwise.and_mem.1 this).imp
  rintro i j ⟨hi, hj, hlt⟩ x hx hy
  have := h2 i (List.mem_range.1 hi) j (List.mem_range.1 hj) x hx hy
  omega

theorem nodup_small (L : Nat) (hL : L ≤ 256) : (small L).Nodup := by
  unfold small
  apply nodup_range_flatMap
  · intro i hi
    rw [List.nodup_cons]
    constructor
    · intro h
      obtain ⟨j, _, h⟩ := List.mem_flatMap.1 h
      rcases List.mem_cons.1 h with h | h
      · simp at h
      · obtain ⟨k, _, h⟩ := List.mem_map.1 h
        simp at h
    · apply nodup_range_flatMap
      · intro j hj
        rw [List.nodup_cons]
        constructor
        · intro h
          obtain ⟨k, _, h⟩ := List.mem_map.1 h
          simp at h
        · rw [List.nodup_map_iff_inj_on List.nodup_range]
          intro a ha b hb h
          rw [List.mem_range] at ha hb
          simp only [List.cons.injEq, and_true, true_and] at h
          exact ofNat8_inj (by omega) (by omega) h
      · intro j hj j' hj' x hx hy
        have : ∀ m, x ∈ [BitVec.ofNat 8 i, BitVec.ofNat 8 m] :: (List.range L).map (fun k => [BitVec.ofNat 8 i, BitVec.ofNat 8 m, BitVec.ofNat 8 k]) →
            x.getD 1 0 = BitVec.ofNat 8 m := by
          intro m hm
          rcases List.mem_cons.1 hm with rfl | hm
          · rfl
          · obtain ⟨k, _, rfl⟩ := List.mem_map.1 hm; rfl
        exact ofNat8_inj (by omega) (by omega) ((this j hx).symm.trans (this j' hy))
  · intro j hj j' hj' x hx hy
    have : ∀ m, x ∈ [BitVec.ofNat 8 m] :: ((List.range L).flatMap fun j => [BitVec.ofNat 8 m, BitVec.ofNat 8 j] ::
        (List.range L).map fun k => [BitVec.ofNat 8 m, BitVec.ofNat 8 j, BitVec.ofNat 8 k]) → x.getD 0 0 = BitVec.ofNat 8 m := by
      intro m hm
      rcases List.mem_cons.1 hm with rfl | hm
      · rfl
      · obtain ⟨k, _, hm⟩ := List.mem_flatMap.1 hm
        rcases List.mem_cons.1 hm with rfl | hm
        · rfl
        · obtain ⟨k, _, rfl⟩ := List.mem_map.1 hm; rfl
    exact ofNat8_inj (by omega) (by omega) ((this j hx).symm.trans (this j' hy))

theorem length_small (L : Nat) : (small L).length = L * (1 + L * (1 + L)) := by
  have hr : ∀ n c, ((List.range n).map fun _ => c).sum = n * c := by intro n c; simp
  simp only [small, List.length_flatMap, List.length_cons, List.length_map, List.length_range, hr, Nat.add_comm]

/-! ### Text -/

def textKeys (S pre suf : List U8) : List (List U8) :=
  S.flatMap fun a => S.flatMap fun b => S.flatMap fun c => S.map fun d => pre ++ [a, b, c, d] ++ suf

theorem forRange_list {β σ : Type} {S : List U8} (I : σ → Prop) (g : U8 → List β) {body : Nat → σ × List β → Go (σ × List β)}
    (hb : ∀ i v s out, S.getD i 0 = v → I s → ∃ s', body i (s, out) = .ok (s', out ++ g v) ∧ I s') (s : σ) (out : List β) (hs : I s) :
    ∃ s', Go.forRange 0 S.length body (s, out) = .ok (s', out ++ S.flatMap g) ∧ I s' := by
  obtain ⟨s', h1, h2⟩ := forRange_collect I (fun i => g (S.getD i 0)) 0 S.length (body := body)
    (fun i s out _ _ hs => hb i _ s out rfl hs) s out hs
  refine ⟨s', h1.trans ?_, h2⟩
  have : (List.range' 0 S.length).map (fun i => S.getD i 0) = S := by
    apply List.ext_getElem (by simp)
    intro i h1 h2
    simp [List.getElem?_eq_getElem h2]
  rw [← List.range_eq_range'] at this ⊢
  conv_rhs => rw [← this]
  rw [List.flatMap_map]

theorem set_in (pre r : List U8) (a v : U8) (n : Nat) (hn : n = pre.length) : (pre ++ a :: r).set n v = pre ++ v :: r := by
  subst hn; simp

theorem text_eq (S pre suf : List U8) : ∃ b, text S pre suf = .ok (b, textKeys S pre suf) := by
  unfold text
  dsimp only
  have one : ∀ (p r : List U8) (a v : U8) (n : Nat) (out : List (List U8)), n = p.length → put n v (p ++ a :: r, out) = .ok (p ++ v :: r, out) := by
    intro p r a v n out hn
    subst hn
    unfold put
    dsimp only
    rw [set_eq (by simp), Go.bind_ok, Go.pure_ok, set_in _ _ _ _ _ rfl]
  obtain ⟨s', h, _⟩ := forRange_list (S := S) (fun b : List U8 => ∃ a b' c d, b = pre ++ a :: ([b', c, d] ++ suf))
    (fun a => S.flatMap fun b => S.flatMap fun c => S.map fun d => pre ++ [a, b, c, d] ++ suf)
    (body := fun i q => do
      let q ← put pre.length (S.getD i 0) q
      Go.forRange 0 S.length (fun j q => do
        let q ← put (pre.length + 1) (S.getD j 0) q
        Go.forRange 0 S.length (fun k q => do
          let q ← put (pre.length + 2) (S.getD k 0) q
          Go.forRange 0 S.length (fun x q => do
            let q ← put (pre.length + 3) (S.getD x 0) q
            return addB q) q) q) q)
    (by
      rintro i v _ out hv ⟨a, b', c, d, rfl⟩
      rw [hv, one _ _ _ _ _ _ rfl, Go.bind_ok]
      obtain ⟨s1, h1, x, y, z, rfl⟩ := forRange_list (S := S) (fun b : List U8 => ∃ b' c d, b = (pre ++ [v]) ++ b' :: ([c, d] ++ suf))
        (fun b => S.flatMap fun c => S.map fun d => pre ++ [v, b, c, d] ++ suf)
        (body := fun j q => do
          let q ← put (pre.length + 1) (S.getD j 0) q
          Go.forRange 0 S.length (fun k q => do
            let q ← put (pre.length + 2) (S.getD k 0) q
            Go.forRange 0 S.length (fun x q => do
              let q ← put (pre.length + 3) (S.getD x 0) q
              return addB q) q) q)
        (by
          rintro j w _ out hw ⟨b', c, d, rfl⟩
          rw [hw, one _ _ _ _ _ _ (by simp), Go.bind_ok]
          obtain ⟨s2, h2, y, z, rfl⟩ := forRange_list (S := S) (fun b : List U8 => ∃ c d, b = (pre ++ [v, w]) ++ c :: ([d] ++ suf))
            (fun c => S.map fun d => pre ++ [v, w, c, d] ++ suf)
            (body := fun k q => do
              let q ← put (pre.length + 2) (S.getD k 0) q
              Go.forRange 0 S.length (fun x q => do
                let q ← put (pre.length + 3) (S.getD x 0) q
                return addB q) q)
            (by
              rintro k u _ out hu ⟨c, d, rfl⟩
              rw [hu, one _ _ _ _ _ _ (by simp), Go.bind_ok]
              obtain ⟨s3, h3, z, rfl⟩ := forRange_list (S := S) (fun b : List U8 => ∃ d, b = (pre ++ [v, w, u]) ++ d :: suf)
                (fun d => [pre ++ [v, w, u, d] ++ suf])
                (body := fun x q => do
                  let q ← put (pre.length + 3) (S.getD x 0) q
                  return addB q)
                (by
                  rintro x t _ out ht ⟨d, rfl⟩
                  rw [ht, one _ _ _ _ _ _ (by simp), Go.bind_ok, Go.pure_ok]
                  refine ⟨_, ?_, t, rfl⟩
                  simp [addB]) ((pre ++ [v, w, u]) ++ d :: suf) out ⟨d, rfl⟩
              refine ⟨(pre ++ [v, w, u]) ++ z :: suf, ?_, u, z, by simp⟩
              · rw [show (pre ++ [v, w]) ++ u :: ([d] ++ suf) = (pre ++ [v, w, u]) ++ d :: suf by simp, h3]
                rw [flatMap_singleton_map]) ((pre ++ [v, w]) ++ c :: ([d] ++ suf)) out ⟨c, d, rfl⟩
          refine ⟨(pre ++ [v, w]) ++ y :: ([z] ++ suf), ?_, w, y, z, by simp⟩
          · rw [show (pre ++ [v]) ++ w :: ([c, d] ++ suf) = (pre ++ [v, w]) ++ c :: ([d] ++ suf) by simp, h2]) ((pre ++ [v]) ++ b' :: ([c, d] ++ suf)) out ⟨b', c, d, rfl⟩
      refine ⟨(pre ++ [v]) ++ x :: ([y, z] ++ suf), ?_, v, x, y, z, by simp⟩
      · rw [show pre ++ v :: ([b', c, d] ++ suf) = (pre ++ [v]) ++ b' :: ([c, d] ++ suf) by simp, h1]) (pre ++ List.replicate 4 0#8 ++ suf) []
    ⟨0, 0, 0, 0, by simp⟩
  exact ⟨s', h⟩

theorem mem_textKeys (S pre suf x : List U8) :
    x ∈ textKeys S pre suf ↔ ∃ w : List U8, w.length = 4 ∧ (∀ v ∈ w, v ∈ S) ∧ x = pre ++ w ++ suf := by
  simp only [textKeys, List.mem_flatMap, List.mem_map]
  constructor
  · rintro ⟨a, ha, b, hb, c, hc, d, hd, rfl⟩
    exact ⟨[a, b, c, d], rfl, by simp [ha, hb, hc, hd], rfl⟩
  · rintro ⟨w, hw, hv, rfl⟩
    match w, hw with
    | [a, b, c, d], _ =>
      simp only [List.mem_cons, List.not_mem_nil, or_false, forall_eq_or_imp, forall_eq] at hv
      exact ⟨a, hv.1, b, hv.2.1, c, hv.2.2.1, d, hv.2.2.2, rfl⟩

theorem nodup_list_flatMap {α β : Type} {S : List α} (hS : S.Nodup) {f : α → List β} (h1 : ∀ a, (f a).Nodup)
    (h2 : ∀ a b x, x ∈ f a → x ∈ f b → a = b) : (S.flatMap f).Nodup := by
  rw [List.nodup_flatMap]
  refine ⟨fun i _ => h1 i, ?_⟩
  apply hS.imp
  intro a b hab x hx hy
  exact hab (h2 a b x hx hy)

theorem nodup_textKeys {S : List U8} (hS : S.Nodup) (pre suf : List U8) : (textKeys S pre suf).Nodup := by
  have inj : ∀ w w' : List U8, pre ++ w ++ suf = pre ++ w' ++ suf → w = w' := by
    intro w w' h
    exact List.append_cancel_left (List.append_cancel_right h)
  unfold textKeys
  refine nodup_list_flatMap hS (fun a => nodup_list_flatMap hS (fun b => nodup_list_flatMap hS (fun c => ?_) ?_) ?_) ?_
  · rw [List.nodup_map_iff_inj_on hS]
    intro d _ d' _ h
    have := inj _ _ h
    simp at this; exact this
  · intro c c' x hx hy
    obtain ⟨d, _, rfl⟩ := List.mem_map.1 hx
    obtain ⟨d', _, h⟩ := List.mem_map.1 hy
    have := inj _ _ h
    simp at this; exact this.1.symm
  · intro b b' x hx hy
    obtain ⟨c, _, hx⟩ := List.mem_flatMap.1 hx
    obtain ⟨d, _, rfl⟩ := List.mem_map.1 hx
    obtain ⟨c', _, hy⟩ := List.mem_flatMap.1 hy
    obtain ⟨d', _, h⟩ := List.mem_map.1 hy
    have := inj _ _ h
    simp at this; exact this.1.symm
  · intro a a' x hx hy
    obtain ⟨b, _, hx⟩ := List.mem_flatMap.1 hx
    obtain ⟨c, _, hx⟩ := List.mem_flatMap.1 hx
    obtain ⟨d, _, rfl⟩ := List.mem_map.1 hx
    obtain ⟨b', _, hy⟩ := List.mem_flatMap.1 hy
    obtain ⟨c', _, hy⟩ := List.mem_flatMap.1 hy
    obtain ⟨d', _, h⟩ := List.mem_map.1 hy
    have := inj _ _ h
    simp at this; exact this.1.symm

theorem length_flatMap_const {α β : Type} (l : List α) (f : α → List β) (c : Nat) (h : ∀ a ∈ l, (f a).length = c) : (l.flatMap f).length = l.length * c := by
  induction l with
  | nil => simp
  | cons a l ih =>
    rw [List.flatMap_cons, List.length_append, h a (by simp), ih (fun b hb => h b (List.mem_cons_of_mem _ hb)), List.length_cons, Nat.add_mul]
    omega

theorem length_textKeys (S pre suf : List U8) : (textKeys S pre suf).length = S.length * (S.length * (S.length * S.length)) := by
  unfold textKeys
  rw [length_flatMap_const _ _ (S.length * (S.length * S.length))]
  intro a _
  rw [length_flatMap_const _ _ (S.length * S.length)]
  intro b _
  rw [length_flatMap_const _ _ S.length]
  intro c _
  simp

/-! ### Counts of the other enumerations -/

/-- Number of subsets of at most `k` of `m` positions. -/
def upto : Nat → Nat → Nat
  | 0, m => m.choose 0
  | k + 1, m => upto k m + m.choose (k + 1)

theorem upto_zero_right (k : Nat) : upto k 0 = 1 := by
  induction k with
  | zero => rfl
  | succ k ih => rw [upto, ih]; rfl

theorem upto_succ (k m : Nat) : upto (k + 1) (m + 1) = upto (k + 1) m + upto k m := by
  induction k with
  | zero => simp [upto]; omega
  | succ k ih =>
    have e1 : upto (k + 1 + 1) m = upto (k + 1) m + m.choose (k + 1 + 1) := rfl
    have e2 : upto (k + 1) m = upto k m + m.choose (k + 1) := rfl
    have e3 : upto (k + 1 + 1) (m + 1) = upto (k + 1) (m + 1) + (m + 1).choose (k + 1 + 1) := rfl
    have e4 : (m + 1).choose (k + 1 + 1) = m.choose (k + 1) + m.choose (k + 1 + 1) := Nat.choose_succ_succ m (k + 1)
    omega

theorem length_subsets (k i : Nat) (b : List U8) : (subsets k i b).length = upto k (8 * b.length - i) := by
  induction k generalizing i b with
  | zero => simp [subsets, upto]
  | succ k ih =>
    have key : ∀ m i, i + m = 8 * b.length →
        ((List.range' i m).flatMap fun j => subsets k (j + 1) (setBit b j)).length + 1 = upto (k + 1) m := by
      intro m
      induction m with
      | zero => intro i _; rw [upto_zero_right]; rfl
      | succ m ihm =>
        intro i hi
        rw [List.range'_succ, List.flatMap_cons, List.length_append, ih, setBit_length, upto_succ, ← ihm (i + 1) (by omega),
          show 8 * b.length - (i + 1) = m by omega]
        omega
    rw [subsets, List.length_cons]
    rcases Nat.lt_or_ge i (8 * b.length) with h | h
    · exact key _ _ (by omega)
    · rw [show 8 * b.length - i = 0 by omega, upto_zero_right]; rfl

theorem length_ones (b : List U8) (lo n : Nat) : (ones b lo n).length = n * 255 := by
  unfold ones
  rw [length_flatMap_const _ _ 255 (by intro a _; simp), List.length_range']

theorem length_seqs (s : List U32) (m : Nat) : (seqs s (m + 1)).length = 1 + s.length * (seqs s m).length := by
  rw [seqs, List.length_cons, length_flatMap_const _ _ (seqs s m).length (by intro a _; simp)]
  omega

end Verif.Lemmas.Smhasher
