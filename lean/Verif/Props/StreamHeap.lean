import Verif.Lemmas.StreamHeap4

/-!
# C114: hash objects and the caller's memory

`run` executes a program on the memory model of `Model/StreamHeap.lean`, `ideal` on objects that are values (`Spec/StreamHeap.lean`).
-/

namespace Verif.Props
open Verif
open Verif.Model.KeccakHeap (Heap Slice Ref nil append CSlice)
open Verif.Model.StreamHeap
open Verif.Spec.StreamHeap
open Verif.Lemmas.StreamHeap

/-- C114. Any program with any number of `murmur3.New32` objects: what the calls return and what is in the program's memory at the end
are as with ideal objects. -/
theorem C114_murmur32 (grow : Nat → Nat) (mem : List (List U8)) (ops : List (Op Unit)) (hc : NoCopy ops) :
    run (mem32 grow) grow ⟨mem, []⟩ [] ops = ideal murmur32 grow mem [] ops :=
  run_ideal (sim32 grow) grow ops hc _ _ _ (inv_nil _ _)

/-- C114. The same for `murmur3.New64`. -/
theorem C114_murmur64 (grow : Nat → Nat) (mem : List (List U8)) (ops : List (Op Unit)) (hc : NoCopy ops) :
    run (mem64 grow) grow ⟨mem, []⟩ [] ops = ideal murmur64 grow mem [] ops :=
  run_ideal (sim64 grow) grow ops hc _ _ _ (inv_nil _ _)

/-- C114. The same for `murmur3.New128`. -/
theorem C114_murmur128 (grow : Nat → Nat) (mem : List (List U8)) (ops : List (Op Unit)) (hc : NoCopy ops) :
    run (mem128 grow) grow ⟨mem, []⟩ [] ops = ideal murmur128 grow mem [] ops :=
  run_ideal (sim128 grow) grow ops hc _ _ _ (inv_nil _ _)

/-- C114. The same for `jenkins.New` and `jenkins.New332c`. -/
theorem C114_jenkins332c (grow : Nat → Nat) (mem : List (List U8)) (ops : List (Op U32)) (hc : NoCopy ops) :
    run (mem332c grow) grow ⟨mem, []⟩ [] ops = ideal jenkins332c grow mem [] ops :=
  run_ideal (sim332c grow) grow ops hc _ _ _ (inv_nil _ _)

/-- C114. The same for `jenkins.New364`. -/
theorem C114_jenkins364 (grow : Nat → Nat) (mem : List (List U8)) (ops : List (Op U64)) (hc : NoCopy ops) :
    run (mem364 grow) grow ⟨mem, []⟩ [] ops = ideal jenkins364 grow mem [] ops :=
  run_ideal (sim364 grow) grow ops hc _ _ _ (inv_nil _ _)

/-- C114. The same for `jenkins.New232`. -/
theorem C114_jenkins232 (grow : Nat → Nat) (mem : List (List U8)) (ops : List (Op U32)) (hc : NoCopy ops) :
    run (mem232 grow) grow ⟨mem, []⟩ [] ops = ideal jenkins232 grow mem [] ops :=
  run_ideal (sim232 grow) grow ops hc _ _ _ (inv_nil _ _)

/-- C114. The same for `siphash.New`, with a key of any length. -/
theorem C114_siphash64 (grow : Nat → Nat) (mem : List (List U8)) (ops : List (Op Unit)) (hc : NoCopy ops) :
    run memSip grow ⟨mem, []⟩ [] ops = ideal siphash64 grow mem [] ops :=
  run_ideal simSip grow ops hc _ _ _ (inv_nil _ _)

/-- C114. The same for `siphash.New128`. -/
theorem C114_siphash128 (grow : Nat → Nat) (mem : List (List U8)) (ops : List (Op Unit)) (hc : NoCopy ops) :
    run memSip128 grow ⟨mem, []⟩ [] ops = ideal siphash128 grow mem [] ops :=
  run_ideal simSip128 grow ops hc _ _ _ (inv_nil _ _)

/-! Concrete programs: two objects, overlapping slices with spare capacity, stores between the calls, a digest appended into the middle of
the array just hashed. -/

def heapMem : List (List U8) := [(List.range 40).map (BitVec.ofNat 8), List.replicate 16 7#8]

def heapProg (i : ι) : List (Op ι) :=
  [.new ⟨1, 0, 16, 16⟩ i, .new ⟨0, 0, 20, 40⟩ i, .write 0 ⟨0, 0, 7, 40⟩, .write 1 ⟨0, 3, 30, 37⟩, .poke 0 2 99#8, .poke 0 5 98#8, .write 0 ⟨0, 2, 20, 38⟩,
    .sum 0 ⟨0, 1, 3, 39⟩, .value 0, .value 1, .write 1 ⟨0, 0, 40, 40⟩, .sum 1 ⟨1, 14, 2, 2⟩, .reset 0, .write 0 ⟨2, 0, 4, 4⟩, .value 1, .value 0]

theorem heapProg_noCopy (i : ι) : NoCopy (heapProg i) := by
  intro j h
  simp [heapProg] at h

example : run (mem32 (· + 3)) (· + 3) ⟨heapMem, []⟩ [] (heapProg ()) = ideal murmur32 (· + 3) heapMem [] (heapProg ()) ∧
    (ideal murmur32 (· + 3) heapMem [] (heapProg ())).isOk = true := ⟨C114_murmur32 _ _ _ (heapProg_noCopy _), by decide +kernel⟩
example : run (mem64 (· + 3)) (· + 3) ⟨heapMem, []⟩ [] (heapProg ()) = ideal murmur64 (· + 3) heapMem [] (heapProg ()) ∧
    (ideal murmur64 (· + 3) heapMem [] (heapProg ())).isOk = true := ⟨C114_murmur64 _ _ _ (heapProg_noCopy _), by decide +kernel⟩
example : run (mem128 (· + 3)) (· + 3) ⟨heapMem, []⟩ [] (heapProg ()) = ideal murmur128 (· + 3) heapMem [] (heapProg ()) ∧
    (ideal murmur128 (· + 3) heapMem [] (heapProg ())).isOk = true := ⟨C114_murmur128 _ _ _ (heapProg_noCopy _), by decide +kernel⟩
example : run (mem332c (· + 3)) (· + 3) ⟨heapMem, []⟩ [] (heapProg 5#32) = ideal jenkins332c (· + 3) heapMem [] (heapProg 5#32) ∧
    (ideal jenkins332c (· + 3) heapMem [] (heapProg 5#32)).isOk = true := ⟨C114_jenkins332c _ _ _ (heapProg_noCopy _), by decide +kernel⟩
example : run (mem364 (· + 3)) (· + 3) ⟨heapMem, []⟩ [] (heapProg 5#64) = ideal jenkins364 (· + 3) heapMem [] (heapProg 5#64) ∧
    (ideal jenkins364 (· + 3) heapMem [] (heapProg 5#64)).isOk = true := ⟨C114_jenkins364 _ _ _ (heapProg_noCopy _), by decide +kernel⟩
example : run (mem232 (· + 3)) (· + 3) ⟨heapMem, []⟩ [] (heapProg 5#32) = ideal jenkins232 (· + 3) heapMem [] (heapProg 5#32) ∧
    (ideal jenkins232 (· + 3) heapMem [] (heapProg 5#32)).isOk = true := ⟨C114_jenkins232 _ _ _ (heapProg_noCopy _), by decide +kernel⟩
example : run memSip (· + 3) ⟨heapMem, []⟩ [] (heapProg ()) = ideal siphash64 (· + 3) heapMem [] (heapProg ()) ∧
    (ideal siphash64 (· + 3) heapMem [] (heapProg ())).isOk = true := ⟨C114_siphash64 _ _ _ (heapProg_noCopy _), by decide +kernel⟩
example : run memSip128 (· + 3) ⟨heapMem, []⟩ [] (heapProg ()) = ideal siphash128 (· + 3) heapMem [] (heapProg ()) ∧
    (ideal siphash128 (· + 3) heapMem [] (heapProg ())).isOk = true := ⟨C114_siphash128 _ _ _ (heapProg_noCopy _), by decide +kernel⟩

/-! ## Copies -/

/-- Make an object, write `m` to it, copy it, write `a` to the first and `b` to the copy, ask the first and then the copy. The program's
memory is the three byte strings. -/
def copyProg (i : ι) (m a b : List U8) : List (Op ι) :=
  [.new ⟨0, 0, 0, 0⟩ i, .write 0 ⟨0, 0, m.length, m.length⟩, .copy 0, .write 0 ⟨1, 0, a.length, a.length⟩, .write 1 ⟨2, 0, b.length, b.length⟩,
    .value 0, .value 1]

/-- What the three writes do to the memory and the slices. -/
theorem copy_heap (count : κ → Nat → κ) (grow : Nat → Nat) (core : κ) (m a b : List U8) (hm : m ≠ []) (hab : a.length = b.length)
    (hg : a.length ≤ grow m.length) : ∃ h1 h2 h3 s s',
    jenWrite count grow ⟨[m, a, b], []⟩ ⟨core, nil⟩ ⟨.caller 0, 0, m.length, m.length⟩ = .ok (h1, ⟨count core m.length, s⟩, m.length) ∧
    jenWrite count grow h1 ⟨count core m.length, s⟩ ⟨.caller 1, 0, a.length, a.length⟩ = .ok (h2, ⟨count (count core m.length) a.length, s'⟩, a.length) ∧
    jenWrite count grow h2 ⟨count core m.length, s⟩ ⟨.caller 2, 0, b.length, b.length⟩ = .ok (h3, ⟨count (count core m.length) b.length, s'⟩, b.length) ∧
    h1.caller = [m, a, b] ∧ h2.caller = [m, a, b] ∧ h3.caller = [m, a, b] ∧ h3.read s' = m ++ b := by
  have hpos : 0 < m.length := List.length_pos_of_ne_nil hm
  have e1 : append grow ⟨[m, a, b], []⟩ nil m = (⟨[m, a, b], [m ++ List.replicate (grow m.length) 0#8]⟩, ⟨.own 0, 0, m.length, m.length + grow m.length⟩) := by
    unfold append
    rw [if_neg (by simp [nil]; omega)]
    rfl
  have e2 : ∀ (c x : List U8), x.length ≤ grow m.length → append grow ⟨[m, a, b], [c]⟩ ⟨.own 0, 0, m.length, m.length + grow m.length⟩ x =
      (⟨[m, a, b], [Model.KeccakHeap.overwrite c m.length x]⟩, ⟨.own 0, 0, m.length + x.length, m.length + grow m.length⟩) := by
    intro c x hx
    unfold append
    rw [if_pos (by dsimp only; omega)]
    show (_, _) = _
    simp [Heap.put]
  have r0 : ∀ own, (⟨[m, a, b], own⟩ : Heap).read ⟨.caller 0, 0, m.length, m.length⟩ = m := fun own => List.take_length
  have r1 : ∀ own, (⟨[m, a, b], own⟩ : Heap).read ⟨.caller 1, 0, a.length, a.length⟩ = a := fun own => List.take_length
  have r2 : ∀ own, (⟨[m, a, b], own⟩ : Heap).read ⟨.caller 2, 0, b.length, b.length⟩ = b := fun own => List.take_length
  refine ⟨⟨[m, a, b], [m ++ List.replicate (grow m.length) 0#8]⟩, ⟨[m, a, b], [Model.KeccakHeap.overwrite (m ++ List.replicate (grow m.length) 0#8) m.length a]⟩,
    ⟨[m, a, b], [Model.KeccakHeap.overwrite (Model.KeccakHeap.overwrite (m ++ List.replicate (grow m.length) 0#8) m.length a) m.length b]⟩,
    ⟨.own 0, 0, m.length, m.length + grow m.length⟩, ⟨.own 0, 0, m.length + a.length, m.length + grow m.length⟩, ?_, ?_, ?_, rfl, rfl, rfl, ?_⟩
  · unfold jenWrite; dsimp only; rw [r0, e1]
  · unfold jenWrite; dsimp only; rw [r1, e2 _ _ hg]
  · unfold jenWrite; dsimp only; rw [r2, e2 _ _ (by omega), hab]
  · show ((Model.KeccakHeap.overwrite (Model.KeccakHeap.overwrite (m ++ List.replicate (grow m.length) 0#8) m.length a) m.length b).drop 0).take (m.length + a.length) = m ++ b
    unfold Model.KeccakHeap.overwrite
    rw [hab, List.drop_zero]
    have hl : ∀ x y : List U8, ((m ++ x) ++ y).take m.length = m := fun x y => by rw [List.append_assoc]; exact List.take_left
    rw [show (m ++ List.replicate (grow m.length) 0#8).take m.length = m from List.take_left, ← List.append_assoc, ← List.append_assoc, hl]
    rw [← List.length_append]
    exact List.take_left

section
variable {M : MemHasher ι τ} {grow : Nat → Nat} {h h' : Heap} {ts : List τ} {t t' : τ} {ops : List (Op ι)} {os : List HOut} {mem : List (List U8)}

theorem run_new {k : CSlice} {i : ι} (c : check h.caller k = .ok ()) (e : M.new h k.slice i = .ok (h', t))
    (r : run M grow h' (ts ++ [t]) ops = .ok (os, mem)) : run M grow h ts (.new k i :: ops) = .ok (.done :: os, mem) := by
  rw [run, c, Go.bind_ok, e, Go.bind_ok]; dsimp only; rw [r]; rfl

theorem run_write {p : CSlice} {j n : Nat} (c : check h.caller p = .ok ()) (o : objAt ts j = .ok t) (e : M.write h t p.slice = .ok (h', t', n))
    (r : run M grow h' (ts.set j t') ops = .ok (os, mem)) : run M grow h ts (.write j p :: ops) = .ok (.wrote n :: os, mem) := by
  rw [run, c, Go.bind_ok, o, Go.bind_ok, e, Go.bind_ok]; dsimp only; rw [r]; rfl

theorem run_copy {j : Nat} (o : objAt ts j = .ok t) (r : run M grow h (ts ++ [t]) ops = .ok (os, mem)) :
    run M grow h ts (.copy j :: ops) = .ok (.done :: os, mem) := by
  rw [run, o, Go.bind_ok, r]; rfl

theorem run_value {j : Nat} {v : List U64} (o : objAt ts j = .ok t) (e : M.value h t = .ok (t', v))
    (r : run M grow h (ts.set j t') ops = .ok (os, mem)) : run M grow h ts (.value j :: ops) = .ok (.value v :: os, mem) := by
  rw [run, o, Go.bind_ok, e, Go.bind_ok]; dsimp only; rw [r]; rfl

end

/-- C114. An exported struct of package jenkins (`State232`), copied with `d2 := *d` after a write that left spare capacity `grow n`: writes
of the same length to the two go to the same memory, and the first object, too, answers for the bytes written to its copy. -/
theorem C114_copy_shares (grow : Nat → Nat) (i : U32) (m a b : List U8) (hm : m ≠ []) (hab : a.length = b.length) (hg : a.length ≤ grow m.length) :
    run (mem232 grow) grow ⟨[m, a, b], []⟩ [] (copyProg i m a b) =
      .ok ([.done, .wrote m.length, .done, .wrote a.length, .wrote b.length, .value (jenkins232.value (m ++ b)).2, .value (jenkins232.value (m ++ b)).2],
        [m, a, b]) := by
  obtain ⟨h1, h2, h3, s, s', w1, w2, w3, c1, c2, c3, hr⟩ :=
    copy_heap (fun (s : Model.Jenkins.State232) n => { s with clen := s.clen + n }) grow (Model.Jenkins.new232 i) m a b hm hab hg
  have k0 : check [m, a, b] ⟨0, 0, 0, 0⟩ = .ok () := by unfold check; rw [if_pos (by simp)]
  have k1 : check [m, a, b] ⟨0, 0, m.length, m.length⟩ = .ok () := by unfold check; rw [if_pos (by simp)]
  have k2 : check [m, a, b] ⟨1, 0, a.length, a.length⟩ = .ok () := by unfold check; rw [if_pos (by simp)]
  have k3 : check [m, a, b] ⟨2, 0, b.length, b.length⟩ = .ok () := by unfold check; rw [if_pos (by simp)]
  have v : ∀ core : Model.Jenkins.State232, core.seed = 0#32 → ∃ t, (mem232 grow).value h3 ⟨core, s'⟩ = .ok (t, (jenkins232.value (m ++ b)).2) := by
    intro core hs
    refine ⟨⟨{ core with tail := m ++ b, hash := Spec.Jenkins.hash232 ((m ++ b).take ((m ++ b).length % 2 ^ 32)) 0#32 }, s'⟩, ?_⟩
    show (do
      let (s, r) ← ({ core with tail := h3.read s' } : Model.Jenkins.State232).sum32
      return ((⟨s, s'⟩ : JenObj _), [r.setWidth 64])) = _
    rw [hr]
    simp only [Model.Jenkins.State232.sum32, Model.Jenkins.Hash232, hs, Lemmas.Jenkins.Hash232'_eq, Go.bind_ok, Go.pure_ok]
    rfl
  obtain ⟨x, v0⟩ := v { (Model.Jenkins.new232 i) with clen := (Model.Jenkins.new232 i).clen + m.length + a.length } rfl
  obtain ⟨y, v1⟩ := v { (Model.Jenkins.new232 i) with clen := (Model.Jenkins.new232 i).clen + m.length + b.length } rfl
  unfold copyProg
  refine run_new k0 rfl ?_
  refine run_write k1 rfl w1 ?_
  refine run_copy rfl ?_
  refine run_write (by rw [c1]; exact k2) rfl w2 ?_
  refine run_write (by rw [c2]; exact k3) rfl w3 ?_
  refine run_value rfl v0 ?_
  refine run_value rfl v1 ?_
  rw [run, c3]

/-- Concretely: hash "m", copy, write "a" to the original and "b" to the copy: both answer for "mb". -/
example : run (mem232 (fun _ => 7)) (fun _ => 7) ⟨[[0x6d#8], [0x61#8], [0x62#8]], []⟩ [] (copyProg 0#32 [0x6d#8] [0x61#8] [0x62#8]) =
    .ok ([.done, .wrote 1, .done, .wrote 1, .wrote 1, .value (jenkins232.value [0x6d#8, 0x62#8]).2, .value (jenkins232.value [0x6d#8, 0x62#8]).2],
      [[0x6d#8], [0x61#8], [0x62#8]]) :=
  C114_copy_shares _ _ _ _ _ (by decide) rfl (by decide)

/-- C114 (refutation). So programs that copy objects can tell them from ideal ones: the restriction `NoCopy` is needed. -/
theorem C114_copy_violated : ¬ ∀ (grow : Nat → Nat) (mem : List (List U8)) (ops : List (Op U32)),
    run (mem232 grow) grow ⟨mem, []⟩ [] ops = ideal jenkins232 grow mem [] ops := by
  intro h
  have e := h (fun _ => 7) [[0x6d#8], [0x61#8], [0x62#8]] (copyProg 0#32 [0x6d#8] [0x61#8] [0x62#8])
  rw [C114_copy_shares (fun _ => 7) 0#32 [0x6d#8] [0x61#8] [0x62#8] (by decide) rfl (by decide)] at e
  exact absurd e (by decide +kernel)

end Verif.Props
