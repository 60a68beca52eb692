import Verif.Model.Halloc
import Verif.Props.Hashf
import Verif.Props.Small
import Verif.Props.Jenkins

/-! # C108: the objects made by `Halloc` -/

namespace Verif.Props
open Verif Verif.Model.Halloc Verif.Model.Hashf
open Verif.Spec.Hashf (Ok resultAfter)
open Verif.Spec.Small (seedInForce)

namespace Halloc

/-- A history on an object all of whose calls return. -/
theorem run_of {P : Obj → U32 → Prop} (f : U32 → List U8 → U32) (next : U32 → List U32 → U32)
    (h : ∀ o s b seeds, P o s → ∃ o', o.Hash32 b seeds = .ok (o', f (next s seeds) b) ∧ P o' (next s seeds)) :
    ∀ (calls : List (List U8 × List U32)) (o : Obj) (s : U32), P o s → ∃ out, o.run calls = .ok out ∧ out.length = calls.length ∧
      ∀ i c, calls[i]? = some c → out[i]? = some (f ((calls.take (i + 1)).foldl (fun s c => next s c.2) s) c.1) := by
  intro calls
  induction calls with
  | nil => intro o s _; exact ⟨[], rfl, rfl, fun i c hc => by simp at hc⟩
  | cons c calls ih =>
    intro o s hp
    obtain ⟨b, seeds⟩ := c
    obtain ⟨o', h1, h2⟩ := h o s b seeds hp
    obtain ⟨out, h3, h4, h5⟩ := ih o' _ h2
    refine ⟨f (next s seeds) b :: out, ?_, by simp [h4], ?_⟩
    · rw [Obj.run, h1, Go.bind_ok]
      dsimp only
      rw [h3]; rfl
    · intro i c hc
      cases i with
      | zero => cases hc; rfl
      | succ i => exact h5 i c hc

theorem seed_fold (calls : List (List U8 × List U32)) : ∀ s : U32, calls.foldl (fun s c => match c.2 with | [] => s | x :: _ => x) s = seedInForce s calls := by
  induction calls with
  | nil => intro s; rfl
  | cons c calls ih =>
    intro s
    obtain ⟨b, seeds⟩ := c
    rw [List.foldl_cons, ih]
    unfold seedInForce
    cases seeds with
    | nil => simp [List.filterMap_cons]
    | cons x xs =>
      simp only [List.filterMap_cons, List.head?_cons]
      rw [List.getLast?_cons]
      rfl

end Halloc
open Halloc

/-- C108. `Halloc` makes an object for exactly four names; under every other name it returns nil, and the first call panics. -/
theorem C108_names (name : String) : (Halloc name = .none ↔ name ∉ ["sbox", "CrapWow", "j332c", "j232"]) ∧
    (name ∉ ["sbox", "CrapWow", "j332c", "j232"] → ∀ c calls, (Halloc name).run (c :: calls) = .error (.explicit "nil")) := by
  have h : Halloc name = .none ↔ name ∉ ["sbox", "CrapWow", "j332c", "j232"] := by
    unfold Model.Halloc.Halloc
    simp only [List.mem_cons, List.not_mem_nil, or_false, not_or]
    split
    · simp [*]
    · split
      · simp [*]
      · split
        · simp [*]
        · split <;> simp [*]
  refine ⟨h, fun hn c calls => ?_⟩
  rw [h.2 hn]
  rfl

/-- C108. Every call of `Hash32` on an object made by `Halloc`, in any history of calls, returns what `Hashf` returns for this key under the same name: for `sbox` and `CrapWow` with
the last seed passed to the object so far (0 if none was), for `j332c` and `j232` with seed 0, whatever seeds are passed. -/
theorem C108_hashf (e : Ext) (he : Ok e) (name : String) (hn : name ∈ ["sbox", "CrapWow", "j332c", "j232"]) (calls : List (List U8 × List U32)) :
    ∃ out, (Halloc name).run calls = .ok out ∧ out.length = calls.length ∧ ∀ (i : Nat) key seeds, calls[i]? = some (key, seeds) → ∃ v : U32, out[i]? = some v ∧
      ∀ hist, resultAfter e hist name key (if name = "sbox" ∨ name = "CrapWow" then (seedInForce 0#32 (calls.take (i + 1))).setWidth 64 else 0#64) = .ok (v.setWidth 64) := by
  have hlow : ∀ x : U32, Spec.Hashf.low (x.setWidth 64) = x := by
    intro x
    unfold Spec.Hashf.low
    ext i hi
    simp
  have hwide : ∀ x : U32, Spec.Hashf.wide x = x.setWidth 64 := by
    intro x
    unfold Spec.Hashf.wide
    apply BitVec.eq_of_toNat_eq
    have := x.isLt
    simp
  rcases List.mem_cons.1 hn with rfl | hn
  · obtain ⟨out, h1, h2, h3⟩ := run_of (P := fun o s => ∃ t : Model.Sbox.State, o = .sbox t ∧ t.seed = s) (fun s b => Spec.Sbox.sbox b s)
      (fun s seeds => match seeds with | [] => s | x :: _ => x) (by
        rintro o s b seeds ⟨t, rfl, rfl⟩
        refine ⟨.sbox ⟨Spec.Sbox.sbox b (match seeds with | [] => t.seed | x :: _ => x), match seeds with | [] => t.seed | x :: _ => x⟩, ?_, _, rfl, rfl⟩
        unfold Obj.Hash32 Model.Sbox.State.Hash32
        dsimp only
        rw [C51_fold]
        rfl) calls (Halloc "sbox") 0#32 ⟨_, rfl, rfl⟩
    refine ⟨out, h1, h2, fun i key seeds hi => ⟨_, h3 i _ hi, fun hist => ?_⟩⟩
    rw [if_pos (Or.inl rfl), seed_fold]
    refine value e he hist key _ 7 rfl ?_
    dsimp only
    rw [hlow, hwide]
  rcases List.mem_cons.1 hn with rfl | hn
  · obtain ⟨out, h1, h2, h3⟩ := run_of (P := fun o s => ∃ t : Model.CrapWow.State, o = .crapwow t ∧ t.seed = s) (fun s b => Spec.CrapWow.crapwow b s)
      (fun s seeds => match seeds with | [] => s | x :: _ => x) (by
        rintro o s b seeds ⟨t, rfl, rfl⟩
        refine ⟨.crapwow ⟨Spec.CrapWow.crapwow b (match seeds with | [] => t.seed | x :: _ => x), match seeds with | [] => t.seed | x :: _ => x⟩, ?_, _, rfl, rfl⟩
        unfold Obj.Hash32 Model.CrapWow.State.Hash32
        dsimp only
        rw [C52_sum]
        rfl) calls (Halloc "CrapWow") 0#32 ⟨_, rfl, rfl⟩
    refine ⟨out, h1, h2, fun i key seeds hi => ⟨_, h3 i _ hi, fun hist => ?_⟩⟩
    rw [if_pos (Or.inr rfl), seed_fold]
    refine value e he hist key _ 8 rfl ?_
    dsimp only
    rw [hlow, hwide]
  rcases List.mem_cons.1 hn with rfl | hn
  · obtain ⟨out, h1, h2, h3⟩ := run_of (P := fun o _ => ∃ t : Model.Jenkins.State332c, o = .j332c t) (fun _ b => (Spec.Jenkins.hashlittle2 0#32 0#32 b).1)
      (fun s _ => s) (by
        rintro o s b seeds ⟨t, rfl⟩
        refine ⟨.j332c { t with pc := (Spec.Jenkins.hashlittle2 0#32 0#32 b).1, pb := (Spec.Jenkins.hashlittle2 0#32 0#32 b).2, hash := (Spec.Jenkins.hashlittle2 0#32 0#32 b).1 }, ?_, _, rfl⟩
        unfold Obj.Hash32 Model.Jenkins.State332c.hash32
        dsimp only
        rw [Lemmas.Jenkins.Jenkins364_full]
        rfl) calls (Halloc "j332c") 0#32 ⟨_, rfl⟩
    refine ⟨out, h1, h2, fun i key seeds hi => ⟨_, h3 i _ hi, fun hist => ?_⟩⟩
    rw [if_neg (by decide)]
    rw [← hwide]
    exact value e he hist key _ 11 rfl rfl
  · rw [List.mem_singleton] at hn
    subst hn
    obtain ⟨out, h1, h2, h3⟩ := run_of (P := fun o _ => ∃ t : Model.Jenkins.State232, o = .j232 t ∧ t.seed = 0#32) (fun _ b => Spec.Jenkins.hash232 (b.take (b.length % 2 ^ 32)) 0#32)
      (fun s _ => s) (by
        rintro o s b seeds ⟨t, rfl, ht⟩
        have hs : (if seeds.length > 0 then { t with seed := 0#32 } else t) = t := by
          split
          · cases t; cases ht; rfl
          · rfl
        refine ⟨.j232 { t with hash := Spec.Jenkins.hash232 (b.take (b.length % 2 ^ 32)) 0#32 }, ?_, _, rfl, ht⟩
        unfold Obj.Hash32 Model.Jenkins.State232.hash32
        dsimp only
        rw [hs, ht, Model.Jenkins.Hash232, C29_hash232]
        rfl) calls (Halloc "j232") 0#32 ⟨_, rfl, rfl⟩
    refine ⟨out, h1, h2, fun i key seeds hi => ⟨_, h3 i _ hi, fun hist => ?_⟩⟩
    rw [if_neg (by decide)]
    rw [← hwide]
    exact value e he hist key _ 13 rfl rfl

/-- C108. The expected `Hash32(key, seed) = Hashf(key, seed)` is false for `j332c` and `j232`: with seed 1 and the empty key the object returns something else. -/
theorem C108_violated (name : String) (hn : name = "j332c" ∨ name = "j232") : ∃ v w : U32, (Halloc name).run [([], [1#32])] = .ok [v] ∧
    resultAfter exampleExt [] name [] 1#64 = .ok (w.setWidth 64) ∧ v ≠ w := by
  rcases hn with rfl | rfl
  · exact ⟨_, _, rfl, value exampleExt exampleExt_ok [] [] 1#64 11 rfl (by rw [show Spec.Hashf.wide = fun x : U32 => x.setWidth 64 by
      funext x; apply BitVec.eq_of_toNat_eq; have := x.isLt; simp [Spec.Hashf.wide]]), by decide +kernel⟩
  · exact ⟨_, _, rfl, value exampleExt exampleExt_ok [] [] 1#64 13 rfl (by rw [show Spec.Hashf.wide = fun x : U32 => x.setWidth 64 by
      funext x; apply BitVec.eq_of_toNat_eq; have := x.isLt; simp [Spec.Hashf.wide]]), by decide +kernel⟩

/-- C108. The sizes the four objects report: each is a 32-bit hash (4 bytes, 32 bits); the block sizes are 2, 8, 1 and 12, the seeds 4, 4, 8 and 4 bytes long. -/
theorem C108_info (name : String) (size block seed bits : Int) (h : (name, size, block, seed, bits) ∈
    [("sbox", 4, 2, 4, 32), ("CrapWow", 4, 8, 4, 32), ("j332c", 4, 1, 8, 32), ("j232", 4, 12, 4, 32)]) :
    ∃ i, (Halloc name).info = some i ∧ i.size = size ∧ i.blockSize = block ∧ i.seedBytes = some seed ∧ i.bits = some bits := by
  simp only [List.mem_cons, List.not_mem_nil, or_false, Prod.mk.injEq] at h
  rcases h with ⟨rfl, rfl, rfl, rfl, rfl⟩ | ⟨rfl, rfl, rfl, rfl, rfl⟩ | ⟨rfl, rfl, rfl, rfl, rfl⟩ | ⟨rfl, rfl, rfl, rfl, rfl⟩ <;>
    exact ⟨_, rfl, rfl, rfl, rfl, rfl⟩

/-- The hypotheses are met: the seed of the first call stays in force for the second. -/
example : ∃ out : List U32, (Halloc "sbox").run [([1#8], [7#32]), ([2#8], [])] = .ok out ∧ ∃ v, out[1]? = some v ∧ resultAfter exampleExt [] "sbox" [2#8] 7#64 = .ok (v.setWidth 64) := by
  obtain ⟨out, h1, _, h2⟩ := C108_hashf exampleExt exampleExt_ok "sbox" (by decide) [([1#8], [7#32]), ([2#8], [])]
  obtain ⟨v, h3, h4⟩ := h2 1 _ _ rfl
  exact ⟨out, h1, v, h3, h4 []⟩

end Verif.Props
