import Verif.Lemmas.KeccakMore

/-!
# C55-C59: package keccakpg
-/

namespace Verif.Props
open Verif Verif.Model.Keccak
open Verif.Spec.Keccak (sponge lossy)

/-- C55. Every history of calls on a Keccak hasher whose digest size is a multiple of 4 bytes and at most a third of the state
sees, in every `Sum`, the Keccak sponge of the bytes written since the last reset; `Write` reports the length. -/
theorem C55_stream (bits rounds : Nat) (h4 : bits / 8 % 4 = 0) (h3 : 3 * (bits / 8) ≤ 200) (hr : rounds ≤ 24) (ops : List HOp) :
    hasher.run (NewCustom bits rounds) ops = .ok (contract (sponge rounds (200 - 2 * (bits / 8)) (bits / 8)) (fun _ => []) [] ops) := by
  have e := Lemmas.Keccak.run_ok bits rounds (by omega) hr ops
  rw [show NewCustom bits rounds = newKeccak bits rounds from rfl, e]
  congr 2
  funext m
  exact Lemmas.Keccak.lossy_sponge (by omega) (by omega) (by omega) (by omega) m

/-- C55. The five standard instances. -/
theorem C55_standard (ops : List HOp) :
    hasher.run New160 ops = .ok (contract (sponge 24 160 20) (fun _ => []) [] ops) ∧
    hasher.run New224 ops = .ok (contract (sponge 24 144 28) (fun _ => []) [] ops) ∧
    hasher.run New256 ops = .ok (contract (sponge 24 136 32) (fun _ => []) [] ops) ∧
    hasher.run New384 ops = .ok (contract (sponge 24 104 48) (fun _ => []) [] ops) ∧
    hasher.run New512 ops = .ok (contract (sponge 24 72 64) (fun _ => []) [] ops) :=
  ⟨C55_stream 160 24 (by decide) (by decide) (by decide) ops, C55_stream 224 24 (by decide) (by decide) (by decide) ops,
    C55_stream 256 24 (by decide) (by decide) (by decide) ops, C55_stream 384 24 (by decide) (by decide) (by decide) ops,
    C55_stream 512 24 (by decide) (by decide) (by decide) ops⟩

/-- C55. Any chunking of a message gives the digest of the message. -/
theorem C55_chunks (bits rounds : Nat) (h4 : bits / 8 % 4 = 0) (h3 : 3 * (bits / 8) ≤ 200) (hr : rounds ≤ 24) (chunks : List (List U8)) (b : List U8) :
    hasher.run (NewCustom bits rounds) (chunks.map HOp.write ++ [.sum b]) =
      .ok (chunks.map (fun c => HOut.wrote c.length) ++ [.bytes (b ++ sponge rounds (200 - 2 * (bits / 8)) (bits / 8) chunks.flatten)]) := by
  rw [C55_stream bits rounds h4 h3 hr]
  have key : ∀ (cs : List (List U8)) (d : List U8 → List U8) (m : List U8), contract d (fun _ => []) m (cs.map HOp.write ++ [.sum b]) =
      cs.map (fun c => HOut.wrote c.length) ++ [.bytes (b ++ d (m ++ cs.flatten))] := by
    intro cs d
    induction cs with
    | nil => intro m; simp [contract]
    | cons c cs ih => intro m; simp [contract, ih]
  rw [key, List.nil_append]

/-- C55_stream and C55_chunks at work: a 96-bit digest of 12 rounds, which `New*` do not make, fed in three pieces. -/
example : hasher.run (NewCustom 96 12) ([[1#8, 2#8], [], [3#8]].map HOp.write ++ [.sum [9#8]]) = .ok ([.wrote 2, .wrote 0, .wrote 1] ++ [.bytes ([9#8] ++ sponge 12 176 12 [1#8, 2#8, 3#8])]) :=
  C55_chunks 96 12 (by decide) (by decide) (by decide) [[1#8, 2#8], [], [3#8]] [9#8]

/-- The digest in the results of `Write; Sum`. -/
def digestOf : Go (List HOut) → List U8
  | .ok [_, .bytes d] => d
  | _ => []

theorem C55_sponge256 (m : List U8) : sponge 24 136 32 m = digestOf (hasher.run New256 [.write m, .sum []]) := by
  rw [(C55_standard _).2.2.1]
  rfl

/-! The code modelled, and so the specified sponge, gives published values: 256 bits, messages empty and `cc` (keccak_test.go, keccak_vectors_test.go). -/

set_option maxRecDepth 1000000 in
example : (sponge 24 136 32 []).take 16 =
    [0xc5#8, 0xd2#8, 0x46#8, 0x01#8, 0x86#8, 0xf7#8, 0x23#8, 0x3c#8, 0x92#8, 0x7e#8, 0x7d#8, 0xb2#8, 0xdc#8, 0xc7#8, 0x03#8, 0xc0#8] := by
  rw [C55_sponge256]
  decide +kernel
set_option maxRecDepth 1000000 in
example : (sponge 24 136 32 [0xcc#8]).take 12 = [0xee#8, 0xad#8, 0x6d#8, 0xbf#8, 0xc7#8, 0x34#8, 0x0a#8, 0x56#8, 0xca#8, 0xed#8, 0xc0#8, 0x44#8] := by
  rw [C55_sponge256]
  decide +kernel

/-- C56. `Sum` leaves the hasher as it was, whatever its state, and whether or not it succeeds no field changes. -/
theorem C56_sum_pure (k k' : Keccak) (b d : List U8) (h : k.Sum b = .ok (k', d)) : k' = k := by
  unfold Keccak.Sum at h
  cases e1 : k.pad with
  | error x => rw [e1] at h; exact nomatch h
  | ok last =>
    rw [e1, Go.bind_ok] at h
    cases e2 : k.f last with
    | error x => rw [e2] at h; exact nomatch h
    | ok k1 =>
      rw [e2, Go.bind_ok] at h
      dsimp only at h
      cases e3 : Go.slice (k1.S.flatMap putUint64le) 0 k1.size with
      | error x => rw [e3] at h; exact nomatch h
      | ok d' =>
        rw [e3, Go.bind_ok, Go.pure_ok] at h
        injection h with h
        exact (congrArg Prod.fst h).symm

/-- C56. What a caller sees after any history does not depend on the sums requested in it. -/
theorem C56_sum_unobservable (bits rounds : Nat) (h1 : bits / 8 ≤ 99) (hr : rounds ≤ 24) (pre post : List HOp) (b : List U8) :
    ∃ o1 o2 d, hasher.run (NewCustom bits rounds) (pre ++ post) = .ok (o1 ++ o2) ∧
      hasher.run (NewCustom bits rounds) (pre ++ .sum b :: post) = .ok (o1 ++ .bytes (b ++ d) :: o2) ∧
      hasher.run (NewCustom bits rounds) pre = .ok o1 := by
  have key : ∀ (dg : List U8 → List U8) (pre : List HOp) (m : List U8), ∃ o1 m', ∀ q, contract dg (fun _ => []) m (pre ++ q) = o1 ++ contract dg (fun _ => []) m' q := by
    intro dg pre
    induction pre with
    | nil => intro m; exact ⟨[], m, fun q => rfl⟩
    | cons op pre ih =>
      intro m
      cases op with
      | write p => obtain ⟨o, m', h⟩ := ih (m ++ p); exact ⟨.wrote p.length :: o, m', fun q => by simp [contract, h]⟩
      | reset => obtain ⟨o, m', h⟩ := ih []; exact ⟨.done :: o, m', fun q => by simp [contract, h]⟩
      | sum c => obtain ⟨o, m', h⟩ := ih m; exact ⟨.bytes (c ++ dg m) :: o, m', fun q => by simp [contract, h]⟩
      | value => obtain ⟨o, m', h⟩ := ih m; exact ⟨.value [] :: o, m', fun q => by simp [contract, h]⟩
  obtain ⟨o1, m', h⟩ := key (lossy rounds (200 - 2 * (bits / 8)) (bits / 8)) pre []
  refine ⟨o1, contract (lossy rounds (200 - 2 * (bits / 8)) (bits / 8)) (fun _ => []) m' post, lossy rounds (200 - 2 * (bits / 8)) (bits / 8) m', ?_, ?_, ?_⟩
  · rw [← h]; exact Lemmas.Keccak.run_ok bits rounds h1 hr _
  · rw [show HOut.bytes (b ++ lossy rounds (200 - 2 * (bits / 8)) (bits / 8) m') :: contract (lossy rounds (200 - 2 * (bits / 8)) (bits / 8)) (fun _ => []) m' post =
      contract (lossy rounds (200 - 2 * (bits / 8)) (bits / 8)) (fun _ => []) m' (.sum b :: post) from rfl, ← h]
    exact Lemmas.Keccak.run_ok bits rounds h1 hr _
  · have h' := h []
    simp only [List.append_nil, contract] at h'
    rw [← h']
    exact Lemmas.Keccak.run_ok bits rounds h1 hr _

/-- C56. After `Reset`, from any history, the hasher behaves like a new one. -/
theorem C56_reset (bits rounds : Nat) (h1 : bits / 8 ≤ 99) (hr : rounds ≤ 24) (pre post : List HOp) :
    ∃ o1 o2, hasher.run (NewCustom bits rounds) post = .ok o2 ∧ hasher.run (NewCustom bits rounds) (pre ++ .reset :: post) = .ok (o1 ++ .done :: o2) := by
  have key : ∀ (dg : List U8 → List U8) (pre : List HOp) (m : List U8), ∃ o1, contract dg (fun _ => []) m (pre ++ .reset :: post) = o1 ++ .done :: contract dg (fun _ => []) [] post := by
    intro dg pre
    induction pre with
    | nil => intro m; exact ⟨[], rfl⟩
    | cons op pre ih =>
      intro m
      cases op with
      | write p => obtain ⟨o, h⟩ := ih (m ++ p); exact ⟨.wrote p.length :: o, by simp [contract, h]⟩
      | reset => obtain ⟨o, h⟩ := ih []; exact ⟨.done :: o, by simp [contract, h]⟩
      | sum c => obtain ⟨o, h⟩ := ih m; exact ⟨.bytes (c ++ dg m) :: o, by simp [contract, h]⟩
      | value => obtain ⟨o, h⟩ := ih m; exact ⟨.value [] :: o, by simp [contract, h]⟩
  obtain ⟨o1, h⟩ := key (lossy rounds (200 - 2 * (bits / 8)) (bits / 8)) pre []
  refine ⟨o1, _, Lemmas.Keccak.run_ok bits rounds h1 hr _, ?_⟩
  rw [show contract (Lemmas.Keccak.digestW rounds (200 - 2 * (bits / 8)) (bits / 8)) (fun _ => []) [] post = contract (lossy rounds (200 - 2 * (bits / 8)) (bits / 8)) (fun _ => []) [] post from rfl, ← h]
  exact Lemmas.Keccak.run_ok bits rounds h1 hr _

/-- C56 at work, also for a digest of 5 bytes. -/
example : ∃ o1 o2, hasher.run (NewCustom 40 24) [.write [1#8], .sum []] = .ok o2 ∧
    hasher.run (NewCustom 40 24) ([.write [5#8], .sum [7#8]] ++ .reset :: [.write [1#8], .sum []]) = .ok (o1 ++ .done :: o2) :=
  C56_reset 40 24 (by decide) (by decide) _ _

/-- C56. `Reset` brings every hasher, in whatever state, back to the fields of a new one with the same parameters. -/
theorem C56_reset_fields (k : Keccak) : k.Reset = ⟨List.replicate 25 0#64, k.size, k.blockSize, k.rounds, []⟩ := rfl

section memory
open Verif.Model.KeccakHeap
open Verif.Spec.KeccakHeap

/-- C57. A caller that passes slices without spare capacity and leaves the arrays it wrote alone until `Reset` sees exactly
the value-level contract, and its own memory is changed by nobody else, whatever it does otherwise. -/
theorem C57_polite (grow : Nat → Nat) (bits rounds : Nat) (h4 : bits / 8 % 4 = 0) (h3 : 3 * (bits / 8) ≤ 200) (hr : rounds ≤ 24) (mem : List (List U8)) (ops : List Op)
    (h : Polite mem [] ops) :
    run grow ⟨mem, []⟩ (new bits rounds) ops =
      .ok (contract (sponge rounds (200 - 2 * (bits / 8)) (bits / 8)) (fun _ => []) [] (callsOf mem ops), finalMem mem ops) := by
  have I := Lemmas.KeccakHeap.new_inv mem bits rounds (by omega) hr []
  rw [Lemmas.KeccakHeap.run_polite grow (by omega) ops ⟨mem, []⟩ (new bits rounds) [] [] I h]
  congr 3
  funext m
  exact Lemmas.Keccak.lossy_sponge (by omega) (by omega) (by omega) (by omega) m

/-- C57. `Write` retains the caller's slice: a store into it after a `Write` of less than a block changes the message that is
hashed, for every slice and every store. -/
theorem C57_retained (grow : Nat → Nat) (bits rounds : Nat) (h4 : bits / 8 % 4 = 0) (h3 : 3 * (bits / 8) ≤ 200) (hr : rounds ≤ 24) (mem : List (List U8)) (s b : CSlice)
    (a i : Nat) (v : U8) (hv : Valid mem s) (hl : s.len < 200 - 2 * (bits / 8)) (hcap : b.cap = b.len) :
    run grow ⟨mem, []⟩ (new bits rounds) [.write s, .poke a i v, .sum b] =
      .ok ([.wrote s.len, .bytes (bytesOf (poke mem a i v) b ++ sponge rounds (200 - 2 * (bits / 8)) (bits / 8) (bytesOf (poke mem a i v) s))], poke mem a i v) := by
  rw [Lemmas.KeccakHeap.retained grow bits rounds (by omega) hr mem s b a i v hv hl hcap]
  rw [Lemmas.Keccak.digestW_lossy, Lemmas.Keccak.lossy_sponge (by omega) (by omega) (by omega) (by omega)]

/-- C57_retained at work: the byte changed after `Write` is the one hashed. -/
example : run (fun _ => 0) ⟨[[1#8, 2#8, 3#8], []], []⟩ (new 256 24) [.write ⟨0, 1, 2, 2⟩, .poke 0 1 7#8, .sum ⟨1, 0, 0, 0⟩] =
    .ok ([.wrote 2, .bytes ([] ++ sponge 24 136 32 [7#8, 3#8])], [[1#8, 7#8, 3#8], []]) :=
  C57_retained (fun _ => 0) 256 24 (by decide) (by decide) (by decide) [[1#8, 2#8, 3#8], []] ⟨0, 1, 2, 2⟩ ⟨1, 0, 0, 0⟩ 0 1 7#8 (by simp [Valid]) (by decide) rfl

/-- C57. A second short `Write` stores into the spare capacity of the slice of the first: the caller's array changes, for
all slices. -/
theorem C57_overwritten (grow : Nat → Nat) (bits rounds : Nat) (h1 : bits / 8 ≤ 99) (hr : rounds ≤ 24) (mem : List (List U8)) (s p : CSlice)
    (hs : Valid mem s) (hp : Valid mem p) (h0 : 0 < s.len) (hl : s.len + p.len < 200 - 2 * (bits / 8)) (hcap : s.len + p.len ≤ s.cap) :
    run grow ⟨mem, []⟩ (new bits rounds) [.write s, .write p] =
      .ok ([.wrote s.len, .wrote p.len], mem.set s.arr (overwrite (mem.getD s.arr []) (s.off + s.len) (bytesOf mem p))) :=
  Lemmas.KeccakHeap.overwritten grow bits rounds h1 hr mem s p hs hp h0 hl hcap

/-- C57_overwritten at work: the second `Write` changes the first caller's array. -/
example : run (fun _ => 0) ⟨[[1#8, 2#8, 3#8], [9#8]], []⟩ (new 256 24) [.write ⟨0, 0, 2, 3⟩, .write ⟨1, 0, 1, 1⟩] = .ok ([.wrote 2, .wrote 1], [[1#8, 2#8, 9#8], [9#8]]) :=
  C57_overwritten (fun _ => 0) 256 24 (by decide) (by decide) [[1#8, 2#8, 3#8], [9#8]] ⟨0, 0, 2, 3⟩ ⟨1, 0, 1, 1⟩ (by simp [Valid]) (by simp [Valid]) (by decide) (by decide) (by decide)

/-- C57. The rule of `io.Writer` that neither happens is violated: the bytes `2, 3` of the caller become `9, 3`. -/
theorem C57_io_writer_violated : ¬ ∀ (mem : List (List U8)) (ops : List Op), (∀ op ∈ ops, match op with | .write s => Valid mem s | .sum s => Valid mem s | _ => True) →
    run (fun _ => 0) ⟨mem, []⟩ (new 256 24) ops = .ok (contract (sponge 24 136 32) (fun _ => []) [] (callsOf mem ops), finalMem mem ops) := by
  intro h
  have h1 := h [[1#8, 2#8, 3#8], [9#8]] [.write ⟨0, 0, 1, 3⟩, .write ⟨1, 0, 1, 1⟩] (by simp [Valid])
  have h2 := C57_overwritten (fun _ => 0) 256 24 (by decide) (by decide) [[1#8, 2#8, 3#8], [9#8]] ⟨0, 0, 1, 3⟩ ⟨1, 0, 1, 1⟩ (by simp [Valid]) (by simp [Valid]) (by decide) (by decide) (by decide)
  rw [h2] at h1
  injection h1 with h1
  have := congrArg Prod.snd h1
  revert this
  decide

set_option maxRecDepth 1000000 in
/-- C57. The digest of the byte 1 becomes that of the byte 2 when the caller reuses its buffer. -/
theorem C57_digest_changes : ∃ (mem : List (List U8)) (s b : CSlice) (v : U8), Valid mem s ∧
    run (fun _ => 0) ⟨mem, []⟩ (new 256 24) [.write s, .poke s.arr s.off v, .sum b] ≠
      .ok ([.wrote s.len, .bytes (bytesOf mem b ++ sponge 24 136 32 (bytesOf mem s))], poke mem s.arr s.off v) := by
  refine ⟨[[1#8], []], ⟨0, 0, 1, 1⟩, ⟨1, 0, 0, 0⟩, 2#8, by simp [Valid], ?_⟩
  rw [C57_retained (fun _ => 0) 256 24 (by decide) (by decide) (by decide) _ _ _ _ _ _ (by simp [Valid]) (by decide) rfl]
  intro h
  injection h with h
  have h := congrArg Prod.fst h
  injection h with _ h
  injection h with h _
  injection h with h
  have e1 : bytesOf (poke [[1#8], []] 0 0 2#8) ⟨0, 0, 1, 1⟩ = [2#8] := by decide
  have e2 : bytesOf [[1#8], []] ⟨0, 0, 1, 1⟩ = [1#8] := by decide
  have e3 : bytesOf (poke [[1#8], []] 0 0 2#8) ⟨1, 0, 0, 0⟩ = [] := by decide
  have e4 : bytesOf [[1#8], []] ⟨1, 0, 0, 0⟩ = [] := by decide
  rw [e1, e2, e3, e4, List.nil_append, List.nil_append, show 256 / 8 = 32 from rfl, show 200 - 2 * 32 = 136 from rfl] at h
  rw [C55_sponge256, C55_sponge256] at h
  have h := congrArg (List.take 2) h
  revert h
  decide +kernel

/-- A history that meets the hypothesis of `C57_polite`: it writes a tail of one array, stores elsewhere, sums into a third. -/
example : Polite [[1#8, 2#8, 3#8], [9#8], []] [] [.write ⟨0, 1, 2, 2⟩, .poke 1 0 7#8, .write ⟨1, 0, 1, 1⟩, .sum ⟨2, 0, 0, 0⟩, .reset, .poke 0 0 4#8] := by
  simp [Polite, Valid, poke]

end memory

/-- C58. Applying up to 24 rounds to the 25 lanes always succeeds and permutes the 1600-bit states. -/
theorem C58_permutation (n : Nat) (hn : n ≤ 24) :
    (∀ S : List U64, S.length = 25 → ∃ T, Go.forRange 0 n (fun r S => round S r) S = .ok T ∧ T.length = 25) ∧
    (∀ S T U : List U64, S.length = 25 → T.length = 25 → Go.forRange 0 n (fun r S => round S r) S = .ok U → Go.forRange 0 n (fun r S => round S r) T = .ok U → S = T) ∧
    (∀ U : List U64, U.length = 25 → ∃ S, S.length = 25 ∧ Go.forRange 0 n (fun r S => round S r) S = .ok U) := by
  refine ⟨?_, ?_, ?_⟩
  · intro S hS
    obtain ⟨T, e, _, l⟩ := Lemmas.Keccak.rounds_eq hS hn
    exact ⟨T, e, l⟩
  · intro S T U hS hT e1 e2
    obtain ⟨A, a1, a2, _⟩ := Lemmas.Keccak.rounds_eq hS hn
    obtain ⟨B, b1, b2, _⟩ := Lemmas.Keccak.rounds_eq hT hn
    rw [a1] at e1
    rw [b1] at e2
    injection e1 with e1
    injection e2 with e2
    subst e1
    subst e2
    rw [a2] at b2
    exact Lemmas.Keccak.lanes_inj hS hT ((Lemmas.Keccak.keccakf_bij n).1 b2)
  · intro U hU
    obtain ⟨A, hA⟩ := (Lemmas.Keccak.keccakf_bij n).2 (Lemmas.Keccak.lanes U)
    obtain ⟨S, hS, e⟩ := Lemmas.Keccak.lanes_surj A
    obtain ⟨T, t1, t2, t3⟩ := Lemmas.Keccak.rounds_eq hS hn
    refine ⟨S, hS, ?_⟩
    rw [t1]
    congr 1
    apply Lemmas.Keccak.lanes_inj t3 hU
    rw [t2, e, hA]

/-- C58. The rounds are those of Keccak-f[1600]. -/
theorem C58_is_keccakf (n : Nat) (hn : n ≤ 24) (S : List U64) (hS : S.length = 25) :
    ∃ T, Go.forRange 0 n (fun r S => round S r) S = .ok T ∧ ∀ x y : Fin 5, T.getD (x.val + 5 * y.val) 0#64 =
      Spec.Keccak.keccakf n (fun x y => S.getD (x.val + 5 * y.val) 0#64) x y := by
  obtain ⟨T, e, l, _⟩ := Lemmas.Keccak.rounds_eq hS hn
  exact ⟨T, e, fun x y => congrFun (congrFun l x) y⟩

/-- C59. For every size up to 99 bytes `NewCustom` computes the lossy variant of the sponge. -/
theorem C59_exact (bits rounds : Nat) (h1 : bits / 8 ≤ 99) (hr : rounds ≤ 24) (ops : List HOp) :
    hasher.run (NewCustom bits rounds) ops = .ok (contract (lossy rounds (200 - 2 * (bits / 8)) (bits / 8)) (fun _ => []) [] ops) :=
  Lemmas.Keccak.run_ok bits rounds h1 hr ops

/-- C59_exact at work: a digest of 5 bytes. -/
example (m : List U8) : hasher.run (NewCustom 40 24) [.write m, .sum []] = .ok [.wrote m.length, .bytes ([] ++ lossy 24 190 5 m)] :=
  C59_exact 40 24 (by decide) (by decide) [.write m, .sum []]

/-- C59. The bytes at positions `8 * (r / 8)` and later of each block of `r` bytes have no effect on the digest. -/
theorem C59_ignored (bits rounds : Nat) (h1 : bits / 8 ≤ 99) (hr : rounds ≤ 24) (m m' b : List U8) (hl : m.length = m'.length)
    (h : ∀ i, i % (200 - 2 * (bits / 8)) < 8 * ((200 - 2 * (bits / 8)) / 8) → m[i]? = m'[i]?) :
    hasher.run (NewCustom bits rounds) [.write m, .sum b] = hasher.run (NewCustom bits rounds) [.write m', .sum b] := by
  rw [C59_exact bits rounds h1 hr, C59_exact bits rounds h1 hr]
  simp only [contract, List.nil_append, hl]
  rw [Lemmas.Keccak.lossy_congr (by omega) hl h]

/-- C59. Hence every size that is not a multiple of 4 bytes has collisions that need no search: the expectation that every byte
of the message influences the digest is violated. -/
theorem C59_every_byte_violated (bits rounds : Nat) (h1 : bits / 8 ≤ 99) (h4 : bits / 8 % 4 ≠ 0) (hr : rounds ≤ 24) (pre : List U8) (hp : pre.length = 200 - 2 * (bits / 8) - 1) (x y b : List U8)
    (hx : x.length = 1) (hy : y.length = 1) :
    hasher.run (NewCustom bits rounds) [.write (pre ++ x), .sum b] = hasher.run (NewCustom bits rounds) [.write (pre ++ y), .sum b] := by
  apply C59_ignored bits rounds h1 hr
  · simp [hx, hy]
  · intro i hi
    by_cases h : i < pre.length
    · rw [List.getElem?_append_left h, List.getElem?_append_left h]
    · rw [List.getElem?_append_right (by omega), List.getElem?_append_right (by omega)]
      by_cases h2 : i = pre.length
      · exfalso
        rw [h2, hp, Nat.mod_eq_of_lt (by omega)] at hi
        omega
      · rw [List.getElem?_eq_none (by omega), List.getElem?_eq_none (by omega)]

/-- C59_every_byte_violated at work: with a digest of 5 bytes the byte at position 189 is ignored. -/
example (b : List U8) : hasher.run (NewCustom 40 24) [.write (List.replicate 189 0#8 ++ [1#8]), .sum b] = hasher.run (NewCustom 40 24) [.write (List.replicate 189 0#8 ++ [2#8]), .sum b] :=
  C59_every_byte_violated 40 24 (by decide) (by decide) (by decide) _ List.length_replicate _ _ b rfl rfl

/-- C59. For block sizes that are multiples of 8 every byte of a block influences the state. -/
theorem C59_influence (k k1 k2 : Keccak) (b b' : List U8) (hS : k.S.length = 25) (hr : k.rounds ≤ 24) (h8 : k.blockSize % 8 = 0) (h200 : k.blockSize ≤ 200)
    (e1 : k.f b = .ok k1) (e2 : k.f b' = .ok k2) (hS' : k1.S = k2.S) : b = b' := by
  have l1 : (b.length : Int) = k.blockSize := by
    by_cases h : (b.length : Int) = k.blockSize
    · exact h
    · unfold Keccak.f at e1; rw [if_pos h] at e1; exact nomatch e1
  have l2 : (b'.length : Int) = k.blockSize := by
    by_cases h : (b'.length : Int) = k.blockSize
    · exact h
    · unfold Keccak.f at e2; rw [if_pos h] at e2; exact nomatch e2
  obtain ⟨S1, f1, _, g1⟩ := Lemmas.Keccak.f_eq k b hS l1 (by omega) hr
  obtain ⟨S2, f2, _, g2⟩ := Lemmas.Keccak.f_eq k b' hS l2 (by omega) hr
  rw [e1] at f1
  rw [e2] at f2
  injection f1 with f1
  injection f2 with f2
  rw [f1, f2] at hS'
  simp only at hS'
  rw [hS', g2] at g1
  have := (Lemmas.Keccak.keccakf_bij k.rounds).1 g1
  rw [Lemmas.Keccak.whole_of_dvd (by omega), Lemmas.Keccak.whole_of_dvd (by omega)] at this
  exact (Lemmas.Keccak.xorInto_inj (by omega) (by omega) (by omega) this).symm

/-- C59. With more than 24 rounds every history that asks for a sum panics. -/
theorem C59_rounds (bits rounds : Nat) (h1 : bits / 8 ≤ 99) (hr : 24 < rounds) (ops : List HOp) (h : ∃ b, HOp.sum b ∈ ops) :
    hasher.run (NewCustom bits rounds) ops = .error .index :=
  Lemmas.Keccak.bad_run ops _ (Lemmas.Keccak.new_bad bits rounds h1 hr) h

/-- C59_rounds at work. -/
example : hasher.run (NewCustom 256 25) [.write [1#8], .sum []] = .error .index := C59_rounds 256 25 (by decide) (by decide) _ ⟨[], by simp⟩

/-- C59. A digest of 100 bytes leaves a block size of 0: the loop of `Write` never ends, for any message and however long one
waits, and `Sum` panics. -/
theorem C59_zero_block (bits rounds : Nat) (h1 : bits / 8 = 100) (hr : rounds ≤ 24) (fuel : Nat) (p b : List U8) :
    Go.while_ fuel (fun q : Keccak × List U8 => decide ((q.2.length : Int) ≥ q.1.blockSize)) writeBody (NewCustom bits rounds, p) = .error .diverge ∧
    (NewCustom bits rounds).Sum b = .error .index := by
  constructor
  · have key : ∀ fuel (k : Keccak), k.blockSize = 0 → k.rounds ≤ 24 → k.S.length = 25 →
        Go.while_ fuel (fun q : Keccak × List U8 => decide ((q.2.length : Int) ≥ q.1.blockSize)) writeBody (k, p) = .error .diverge := by
      intro fuel
      induction fuel with
      | zero =>
        intro k hb _ _
        have hc : decide ((p.length : Int) ≥ k.blockSize) = true := by rw [hb, decide_eq_true_eq]; omega
        rw [Go.while_]
        simp only [hc]
        rfl
      | succ f ih =>
        intro k hb hk hS
        have hc : decide ((p.length : Int) ≥ k.blockSize) = true := by rw [hb, decide_eq_true_eq]; omega
        obtain ⟨S1, f1, f2, _⟩ := Lemmas.Keccak.f_eq k (p.take 0) hS (by rw [hb]; rfl) (by simp) hk
        have hbody : writeBody (k, p) = .ok ({ k with S := S1 }, p) := by
          unfold writeBody upto after
          simp only [hb]
          rw [if_pos (by omega), Go.bind_ok, show (0 : Int).toNat = 0 from rfl, f1, Go.bind_ok]
          simp only [hb]
          rw [if_pos (by omega), Go.bind_ok, Go.pure_ok]
          rfl
        rw [Go.while_]
        simp only [hc, hbody, if_true]
        exact ih _ hb hk f2
    exact key fuel _ (by simp only [NewCustom, newKeccak]; omega) hr (by simp [NewCustom, newKeccak])
  · unfold Keccak.Sum
    have hb : (NewCustom bits rounds).blockSize = 0 := by simp only [NewCustom, newKeccak]; omega
    have : (NewCustom bits rounds).pad = .error .index := by
      unfold Keccak.pad
      rw [hb]
      rfl
    rw [this]
    rfl

/-- C59. Larger digests make `Write` and `Sum` panic on every message. -/
theorem C59_negative_block (bits rounds : Nat) (h1 : 100 < bits / 8) (p b : List U8) :
    (NewCustom bits rounds).Write p = .error .slice ∧ (NewCustom bits rounds).Sum b = .error .slice := by
  have hb : (NewCustom bits rounds).blockSize < 0 := by simp only [NewCustom, newKeccak]; omega
  constructor
  · unfold Keccak.Write
    rw [if_neg (by simp [NewCustom, newKeccak])]
    unfold Keccak.writeBlocks
    have hc : decide ((p.length : Int) ≥ (NewCustom bits rounds).blockSize) = true := by rw [decide_eq_true_eq]; omega
    have hbody : writeBody (NewCustom bits rounds, p) = .error .slice := by
      unfold writeBody upto
      dsimp only
      rw [if_neg (by omega)]
      rfl
    have : Go.while_ (p.length + 1) (fun q : Keccak × List U8 => decide ((q.2.length : Int) ≥ q.1.blockSize)) writeBody (NewCustom bits rounds, p) = .error .slice := by
      rw [Go.while_]
      simp only [hc, hbody, if_true]
      rfl
    rw [this]
    rfl
  · unfold Keccak.Sum
    have : (NewCustom bits rounds).pad = .error .slice := by
      unfold Keccak.pad
      rw [if_pos hb]
    rw [this]
    rfl

/-- C59_zero_block and C59_negative_block at work: digests of 800 and 808 bits. -/
example : (NewCustom 800 24).Sum [] = .error .index ∧ (NewCustom 808 24).Write [] = .error .slice :=
  ⟨(C59_zero_block 800 24 (by decide) (by decide) 0 [] []).2, (C59_negative_block 808 24 (by decide) [] []).1⟩

/-- The violated claim is not vacuous: 8-bit digests, a block of 198 bytes, two messages that differ in the last byte. -/
example : ∃ x y : List U8, x.length = 1 ∧ y.length = 1 ∧ (List.replicate 197 0#8 ++ x) ≠ (List.replicate 197 0#8 ++ y) :=
  ⟨[1#8], [2#8], rfl, rfl, fun h => absurd (List.append_cancel_left h) (by decide)⟩

end Verif.Props
