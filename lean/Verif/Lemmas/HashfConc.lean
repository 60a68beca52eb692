import Verif.Model.HashfConc
import Verif.Spec.HashfConc
import Verif.Lemmas.Hashf2

namespace Verif.Lemmas.HashfConc
open Verif Verif.Model.Hashf Verif.Model.HashfConc

/-- Statements executed without interruption. -/
def seq (e : Ext) (k : List U8) (seed : U64) : List Stmt → Shared → U64 → Go (Shared × U64)
  | [], s, h => .ok (s, h)
  | f :: rest, s, h => do
    let (s, h) ← f e s k seed h
    seq e k seed rest s h

theorem seq_append (e : Ext) (k : List U8) (seed : U64) (p q : List Stmt) : ∀ s h, seq e k seed (p ++ q) s h = (seq e k seed p s h >>= fun x => seq e k seed q x.1 x.2) := by
  induction p with
  | nil => intro s h; rfl
  | cons f p ih =>
    intro s h
    simp only [List.cons_append, seq]
    cases f e s k seed h with
    | error err => rfl
    | ok x => obtain ⟨s', h'⟩ := x; exact ih s' h'

theorem run_append (e : Ext) (a b : List Nat) : ∀ x, run e (a ++ b) x = (run e a x >>= run e b) := by
  induction a with
  | nil => intro x; rfl
  | cons i a ih =>
    intro x
    simp only [List.cons_append, run]
    cases step e i x with
    | error err => rfl
    | ok y => exact ih y

/-- Goroutine `i` runs `p` without interruption. -/
theorem run_seq (e : Ext) (i : Nat) (p : List Stmt) : ∀ (s : Shared) (ts : List Thread) (t : Thread) (q : List Stmt), ts[i]? = some t → t.left = p ++ q →
    run e (List.replicate p.length i) (s, ts) = (seq e t.k t.seed p s t.h).map fun x => (x.1, ts.set i ⟨t.k, t.seed, q, x.2⟩) := by
  induction p with
  | nil =>
    intro s ts t q ht hq
    have hi : i < ts.length := (List.getElem?_eq_some_iff.1 ht).1
    have : ts.set i ⟨t.k, t.seed, q, t.h⟩ = ts := by
      have e1 : (⟨t.k, t.seed, q, t.h⟩ : Thread) = ts[i] := by
        rw [List.getElem?_eq_getElem hi] at ht
        rw [Option.some.inj ht]
        cases t
        simp only [List.nil_append] at hq
        rw [hq]
      rw [e1, List.set_getElem_self]
    show Except.ok (s, ts) = Except.ok (s, _)
    rw [this]
  | cons f p ih =>
    intro s ts t q ht hq
    have hi : i < ts.length := (List.getElem?_eq_some_iff.1 ht).1
    rw [List.length_cons, List.replicate_succ, run, step, ht]
    simp only [hq, List.cons_append, seq]
    cases f e s t.k t.seed t.h with
    | error err => rfl
    | ok x =>
      obtain ⟨s', h'⟩ := x
      have := ih s' (ts.set i { t with left := p ++ q, h := h' }) { t with left := p ++ q, h := h' } q (List.getElem?_set_self hi) rfl
      simp only [List.set_set] at this
      exact this

/-- The list of statements does what the case does. -/
def Bridge (e : Ext) (ss : List Stmt) (f : Case) : Prop := ∀ s k seed, (seq e k seed ss s 0#64).map (fun x => (x.1.g, x.2)) = f e s.g k seed

theorem bridge_whole (e : Ext) (f : Case) : Bridge e [whole f] f := by
  intro s k seed
  simp only [seq, whole]
  cases h : f e s.g k seed with
  | error err => rfl
  | ok x => rfl

section
variable (e : Ext)

theorem bridge_nullhash : Bridge e Model.HashfConc.nullhash Model.Hashf.nullhash := fun _ _ _ => rfl
theorem bridge_nullhashF64ns : Bridge e Model.HashfConc.nullhashF64ns Model.Hashf.nullhashF64ns := fun _ _ _ => rfl
theorem bridge_adler32 : Bridge e Model.HashfConc.adler32 Model.Hashf.adler32 := fun _ _ _ => rfl

theorem bridge_j364 : Bridge e Model.HashfConc.j364 Model.Hashf.j364 := by
  intro s k seed
  simp only [seq, Model.HashfConc.j364, Model.Hashf.j364, upd, ret]
  cases Model.Jenkins.Jenkins364 k k.length (u32 seed) (u32 seed) <;> rfl

theorem bridge_j332c : Bridge e Model.HashfConc.j332c Model.Hashf.j332c := by
  intro s k seed
  simp only [seq, Model.HashfConc.j332c, Model.Hashf.j332c, upd, ret]
  cases Model.Jenkins.Jenkins364 k k.length (u32 seed) (u32 seed) <;> rfl

theorem bridge_j332b : Bridge e Model.HashfConc.j332b Model.Hashf.j332b := by
  intro s k seed
  simp only [seq, Model.HashfConc.j332b, Model.Hashf.j332b, upd, ret]
  cases Model.Jenkins.Jenkins364 k k.length (u32 seed) (u32 seed) <;> rfl

theorem bridge_xor128 (f : List U8 → U64 → Go (U64 × U64)) : Bridge e (xor128 f) fun _ s k seed => do
    let (t, l) ← f k seed
    return ({ s with t := t, l := l }, t ^^^ l) := by
  intro s k seed
  simp only [seq, xor128, upd, ret]
  cases f k seed <;> rfl

theorem bridge_murmur332 : Bridge e Model.HashfConc.murmur332 Model.Hashf.murmur332 := by
  intro s k seed
  simp only [seq, Model.HashfConc.murmur332, Model.Hashf.murmur332, upd, ret, Go.bind_ok, Go.pure_ok]
  cases Model.Murmur3.Digest.write Model.Murmur3.mixer32 (s.g.m332.reset Model.Murmur3.mixer32) k with
  | error err => rfl
  | ok x =>
    simp only [Go.bind_ok, Go.pure_ok]
    cases x.1.sum32 <;> rfl

theorem bridge_murmur364 : Bridge e Model.HashfConc.murmur364 Model.Hashf.murmur364 := by
  intro s k seed
  simp only [seq, Model.HashfConc.murmur364, Model.Hashf.murmur364, upd, ret, Go.bind_ok, Go.pure_ok]
  cases Model.Murmur3.Digest.write Model.Murmur3.mixer128 (s.g.m364.reset Model.Murmur3.mixer128) k with
  | error err => rfl
  | ok x =>
    simp only [Go.bind_ok, Go.pure_ok]
    cases x.1.sum64 <;> rfl

theorem bridge_siphash64pg : Bridge e Model.HashfConc.siphash64pg Model.Hashf.siphash64pg := by
  intro s k seed
  simp only [seq, Model.HashfConc.siphash64pg, Model.Hashf.siphash64pg, upd]
  cases sipSeedSet s.g seed with
  | error err => rfl
  | ok g =>
    simp only [Go.bind_ok, Go.pure_ok]
    cases Model.SipHash.Siphash k g.seeds 2 4 false <;> rfl

theorem bridge_keccakpg (fp : State → List U8) (setFp : State → List U8 → State) (obj : State → Model.Keccak.Keccak) (setObj : State → Model.Keccak.Keccak → State)
    (h1 : ∀ s x, fp (setFp s x) = x) (h2 : ∀ s x, obj (setFp s x) = obj s) (h3 : ∀ s o, fp (setObj s o) = fp s) (h4 : ∀ s o, obj (setObj s o) = o)
    (h5 : ∀ s x y o p q, setObj (setFp (setObj (setObj (setFp s x) o) p) y) q = setObj (setFp s y) q) :
    Bridge e (keccakpg fp setFp obj setObj) fun _ s k _ => do
      let d ← Go.slice (fp s) 0 0
      let (o, d) ← keccakSum (obj s) k d
      return (setObj (setFp s d) o, ← be8 d) := by
  intro s k seed
  simp only [seq, keccakpg, upd, ret, keccakSum, Lemmas.Hashf.slice00, Go.bind_ok, Go.pure_ok, h2, h4]
  cases (obj s.g).Reset.Write k with
  | error err => rfl
  | ok x =>
    simp only [Go.bind_ok, Go.pure_ok, h1, h3, h4]
    cases x.1.Sum [] with
    | error err => rfl
    | ok y =>
      simp only [Go.bind_ok, Go.pure_ok, h1, h3, h4, h5]
      cases be8 y.2 <;> rfl

theorem bridge_keccak224 : Bridge e Model.HashfConc.keccak224 Model.Hashf.keccak224 := by
  intro s k seed
  simp only [seq, Model.HashfConc.keccak224, Model.Hashf.keccak224, upd, ret, Lemmas.Hashf.slice00, Go.bind_ok, Go.pure_ok, List.nil_append]
  cases be8 (e.keccak224 k) <;> rfl

theorem bridge_whirlpool : Bridge e Model.HashfConc.whirlpool Model.Hashf.whirlpool := by
  intro s k seed
  simp only [seq, Model.HashfConc.whirlpool, Model.Hashf.whirlpool, upd, ret, Lemmas.Hashf.slice00, Go.bind_ok, Go.pure_ok, List.nil_append]
  cases be8 (e.whirlpool k) <;> rfl

theorem bridge_blake2b : Bridge e Model.HashfConc.blake2b Model.Hashf.blake2b := by
  intro s k seed
  simp only [seq, Model.HashfConc.blake2b, Model.Hashf.blake2b, upd, ret, Lemmas.Hashf.slice00, Go.bind_ok, Go.pure_ok, List.nil_append]
  cases be8 (e.blake2b k) <;> rfl

theorem bridge_sha1 : Bridge e Model.HashfConc.sha1 Model.Hashf.sha1 := by
  intro s k seed
  simp only [seq, Model.HashfConc.sha1, Model.Hashf.sha1, upd, ret, Lemmas.Hashf.slice00, Go.bind_ok, Go.pure_ok, List.nil_append]
  cases be8 (e.sha1 k) <;> rfl

/-- Two tables with the same names in the same order. -/
inductive Rel2 : List (String × List Stmt) → List (String × Case) → Prop
  | nil : Rel2 [] []
  | cons {n ss f l l'} : Bridge e ss f → Rel2 l l' → Rel2 ((n, ss) :: l) ((n, f) :: l')

theorem Rel2.lookup {e : Ext} {l l'} (h : Rel2 e l l') (name : String) :
    (l'.lookup name = none ∧ l.lookup name = none) ∨ ∃ ss f, l.lookup name = some ss ∧ l'.lookup name = some f ∧ Bridge e ss f := by
  induction h with
  | nil => exact Or.inl ⟨rfl, rfl⟩
  | @cons n ss f l l' hb _ ih =>
    rw [List.lookup_cons, List.lookup_cons]
    cases name == n with
    | true => exact Or.inr ⟨ss, f, rfl, rfl, hb⟩
    | false => exact ih

theorem rel2 : Rel2 e stmts cases := by
  have w := bridge_whole e
  refine .cons (w _) <| .cons (bridge_nullhash e) <| .cons (bridge_nullhashF64ns e) <| .cons (w _) <| .cons (w _) <| .cons (w _) <| .cons (w _) <| .cons (w _) <|
    .cons (bridge_adler32 e) <| .cons (w _) <| .cons (w _) <| .cons (w _) <| .cons (bridge_j364 e) <| .cons (bridge_j332c e) <| .cons (bridge_j332b e) <| .cons (w _) <|
    .cons (w _) <| .cons (w _) <| .cons (w _) <| .cons (w _) <| .cons (w _) <| .cons (w _) <| .cons (w _) <| .cons (w _) <| .cons (bridge_xor128 e _) <|
    .cons (bridge_murmur332 e) <| .cons (bridge_murmur364 e) <| .cons (w _) <| .cons (bridge_siphash64pg e) <| .cons (w _) <| .cons (w _) <| .cons (w _) <| .cons (w _) <|
    .cons (bridge_xor128 e _) <| .cons (w _) <| .cons (w _) <| .cons (w _) <| .cons (w _) <| .cons (bridge_xor128 e _) <| .cons (w _) <| .cons (w _) <| .cons (bridge_xor128 e _) <|
    .cons (bridge_keccak224 e) <|
    .cons (bridge_keccakpg e _ _ _ _ (fun _ _ => rfl) (fun _ _ => rfl) (fun _ _ => rfl) (fun _ _ => rfl) (fun _ _ _ _ _ _ => rfl)) <|
    .cons (bridge_keccakpg e _ _ _ _ (fun _ _ => rfl) (fun _ _ => rfl) (fun _ _ => rfl) (fun _ _ => rfl) (fun _ _ _ _ _ _ => rfl)) <|
    .cons (bridge_keccakpg e _ _ _ _ (fun _ _ => rfl) (fun _ _ => rfl) (fun _ _ => rfl) (fun _ _ => rfl) (fun _ _ _ _ _ _ => rfl)) <|
    .cons (bridge_keccakpg e _ _ _ _ (fun _ _ => rfl) (fun _ _ => rfl) (fun _ _ => rfl) (fun _ _ => rfl) (fun _ _ _ _ _ _ => rfl)) <|
    .cons (bridge_whirlpool e) <| .cons (bridge_blake2b e) <| .cons (bridge_sha1 e) .nil

/-- A call that is not interrupted is a call of `Hashf`. -/
theorem seq_body (name : String) (s : Shared) (k : List U8) (seed : U64) (hn : s.g.Hf2 = name) :
    (seq e k seed (body name) s 0#64).map (fun x => (x.1.g, x.2)) = Hashf e s.g k seed := by
  unfold body Hashf
  rw [hn]
  rcases (rel2 e).lookup name with ⟨h1, h2⟩ | ⟨ss, f, h1, h2, h3⟩
  · rw [h1, h2]; rfl
  · rw [h1, h2]; exact h3 s k seed

end

/-- The state after a history, as characterised for C81. -/
theorem after_at (e : Ext) (he : Spec.Hashf.Ok e) (calls : List (String × List U8 × U64)) : ∀ (s : State) (hist : List (String × List U8 × U64)),
    Lemmas.Hashf.At s hist → Lemmas.Hashf.At (after e s calls) (hist ++ calls) := by
  induction calls with
  | nil => intro s hist h; rw [List.append_nil]; exact h
  | cons c calls ih =>
    intro s hist h
    obtain ⟨name, k, seed⟩ := c
    obtain ⟨q1, q2⟩ := Lemmas.Hashf.step_ok e he s hist name k seed h
    rw [show hist ++ (name, k, seed) :: calls = (hist ++ [(name, k, seed)]) ++ calls by simp]
    unfold after
    cases ho : Spec.Hashf.outcome e hist name k seed with
    | ok v =>
      obtain ⟨s', e1, a1⟩ := q1 v ho
      rw [e1]; exact ih s' _ a1
    | error f =>
      obtain ⟨e1, a1⟩ := q2 f ho
      rw [e1]; exact ih s _ a1

end Verif.Lemmas.HashfConc
