import Verif.Model.JenkinsCalls
import Verif.Props.Jenkins

/-!
# C121: streaming and one-shot calls on one Jenkins object
-/

namespace Verif.Props
open Verif Verif.Model.Jenkins Verif.Spec.JenkinsCalls
open Verif.Lemmas.Jenkins

namespace JenkinsCalls

theorem run_seen {σ τ : Type} {call : σ → Call → Go (σ × HOut)} {step : τ → Call → τ × HOut} (I : σ → τ → Prop)
    (h : ∀ d s c, I d s → ∃ d', call d c = .ok (d', (step s c).2) ∧ I d' (step s c).1) :
    ∀ (cs : List Call) (d : σ) (s : τ), I d s → runCalls call d cs = .ok (seen step s cs) := by
  intro cs
  induction cs with
  | nil => intro d s _; rfl
  | cons c cs ih =>
    intro d s hi
    obtain ⟨d', h1, h2⟩ := h d s c hi
    rw [runCalls, h1, Go.bind_ok]
    dsimp only
    rw [ih d' _ h2, Go.bind_ok, Go.pure_ok, seen]

theorem seen_append {τ : Type} (step : τ → Call → τ × HOut) (a b : List Call) : ∀ s : τ, ∃ s' o, o.length = a.length ∧ seen step s (a ++ b) = o ++ seen step s' b := by
  induction a with
  | nil => intro s; exact ⟨s, [], rfl, rfl⟩
  | cons c a ih =>
    intro s
    obtain ⟨s', o, h1, h2⟩ := ih (step s c).1
    exact ⟨s', (step s c).2 :: o, by simp [h1], by rw [List.cons_append, seen, h2]; rfl⟩

theorem setWidth_lo (s : U64) : s.setWidth 32 = (halves s).1 := by
  apply BitVec.eq_of_toNat_eq
  simp [halves]

theorem setWidth_hi (s : U64) : (s >>> 32).setWidth 32 = (halves s).2 := by
  apply BitVec.eq_of_toNat_eq
  simp [halves, Nat.shiftRight_eq_div_pow]

theorem pack_value (pc pb : U32) : pack64 pc pb = value64 (pc, pb) := by
  have h1 := pc.isLt
  have h2 := pb.isLt
  apply BitVec.eq_of_toNat_eq
  unfold pack64 value64
  rw [BitVec.toNat_or, BitVec.toNat_shiftLeft, BitVec.toNat_setWidth, BitVec.toNat_setWidth, BitVec.toNat_ofNat, Nat.shiftLeft_eq,
    Nat.mod_eq_of_lt (a := pb.toNat) (by omega), Nat.mod_eq_of_lt (a := pc.toNat) (by omega), Nat.mod_eq_of_lt (a := pb.toNat * 2 ^ 32) (by omega),
    Nat.mod_eq_of_lt (by dsimp only; omega), ← Nat.shiftLeft_eq, Nat.shiftLeft_add_eq_or_of_lt (by omega)]

theorem wide (x : U32) : x.setWidth 64 = BitVec.ofNat 64 x.toNat := by
  apply BitVec.eq_of_toNat_eq
  simp

theorem lost (pc pb : U32) : be8 ((pb <<< 32).setWidth 64 ||| pc.setWidth 64) = [0#8, 0#8, 0#8, 0#8] ++ beBytes 4 pc.toNat := by
  have e : pb <<< 32 = 0#32 := by apply BitVec.eq_of_toNat_eq; simp
  have e0 : (0#32 : U32).setWidth 64 = 0#64 := by decide
  rw [e, e0, BitVec.zero_or, be8_eq]
  have h := pc.isLt
  have e1 : (pc.setWidth 64).toNat = pc.toNat := by simp; omega
  rw [e1]
  generalize pc.toNat = n at h
  have hz : n / 256 / 256 / 256 / 256 = 0 := by omega
  simp only [beBytes, leBytes, hz, List.reverse_cons, List.reverse_nil, List.nil_append, List.cons_append]

end JenkinsCalls
open JenkinsCalls

/-- C121. `New364(seed)` under every history of all its calls. -/
theorem C121_history364 (seed : U64) (cs : List Call) :
    runCalls State364.call (new364 seed) cs = .ok (seen (step364 seed) ⟨[], halves seed⟩ cs) := by
  refine run_seen (fun (d : State364) (s : Memory) => d.seed = seed ∧ d.tail = s.bytes ∧ (d.pc, d.pb) = s.words) ?_ cs _ _
    ⟨rfl, rfl, by rw [new364, State364.reset]; exact Prod.ext (setWidth_lo _) (setWidth_hi _)⟩
  rintro d ⟨m, w⟩ c ⟨rfl, h1, h2⟩
  dsimp only at h1 h2
  subst h1 h2
  cases c with
  | write64 h => exact ⟨_, rfl, rfl, by rw [State364.write64, be8_eq]; rfl, rfl⟩
  | hashS k a =>
    exact ⟨{ d with pc := (look (halves a) k).1, pb := (look (halves a) k).2, hash := value64 (look (halves a) k) },
      by simp only [State364.call, State364.hash64S, Jenkins364_full, Go.bind_ok, Go.pure_ok, pack_value, setWidth_lo a, setWidth_hi a]; rfl, rfl, rfl, rfl⟩
  | hash k seeds =>
    have go : ∀ w : U32 × U32, (step364 d.seed ⟨d.tail, (d.pc, d.pb)⟩ (.hash k seeds)) = (⟨d.tail, look w k⟩, .value [value64 (look w k)]) →
        State364.call d (.hash k seeds) = .ok ({ d with pc := (look w k).1, pb := (look w k).2, hash := value64 (look w k) }, .value [value64 (look w k)]) →
        ∃ d', State364.call d (.hash k seeds) = .ok (d', (step364 d.seed ⟨d.tail, (d.pc, d.pb)⟩ (.hash k seeds)).2) ∧
          d'.seed = d.seed ∧ d'.tail = (step364 d.seed ⟨d.tail, (d.pc, d.pb)⟩ (.hash k seeds)).1.bytes ∧
          (d'.pc, d'.pb) = (step364 d.seed ⟨d.tail, (d.pc, d.pb)⟩ (.hash k seeds)).1.words := by
      intro w e1 e2
      rw [e1, e2]
      exact ⟨_, rfl, rfl, rfl, rfl⟩
    match seeds, go with
    | [], go => exact go (d.pc, d.pb) rfl (by simp only [State364.call, State364.hash64, Jenkins364_full, Go.bind_ok, Go.pure_ok, pack_value]; rfl)
    | [a], go => exact go (halves a) rfl (by simp only [State364.call, State364.hash64, Jenkins364_full, Go.bind_ok, Go.pure_ok, pack_value, setWidth_lo a, setWidth_hi a]; rfl)
    | [a, b], go => exact go ((halves a).1, (halves b).1) rfl (by simp only [State364.call, State364.hash64, Jenkins364_full, Go.bind_ok, Go.pure_ok, pack_value, setWidth_lo a, setWidth_lo b]; rfl)
    | _ :: _ :: _ :: _, go => exact go (d.pc, d.pb) rfl (by simp only [State364.call, State364.hash64, Jenkins364_full, Go.bind_ok, Go.pure_ok, pack_value]; rfl)
  | stream op =>
    cases op with
    | write p => exact ⟨_, rfl, rfl, rfl, rfl⟩
    | reset => exact ⟨_, rfl, rfl, rfl, Prod.ext (setWidth_lo _) (setWidth_hi _)⟩
    | sum b =>
      exact ⟨{ d with pc := (look (d.pc, d.pb) d.tail).1, pb := (look (d.pc, d.pb) d.tail).2, hash := ((look (d.pc, d.pb) d.tail).2 <<< 32).setWidth 64 ||| (look (d.pc, d.pb) d.tail).1.setWidth 64 },
        by simp only [State364.call, State364.sum, Jenkins364_full, Go.bind_ok, Go.pure_ok, lost, step364, look, List.append_assoc], rfl, rfl, rfl⟩
    | value =>
      exact ⟨{ d with pc := (look (d.pc, d.pb) d.tail).1, pb := (look (d.pc, d.pb) d.tail).2, hash := value64 (look (d.pc, d.pb) d.tail) },
        by simp only [State364.call, State364.sum64, Jenkins364_full, Go.bind_ok, Go.pure_ok, pack_value, step364, look], rfl, rfl, rfl⟩

/-- C121. `New(seed)`, which is `New332c(seed)`, under every history of all its calls. -/
theorem C121_history332 (seed : U32) (cs : List Call) :
    runCalls State332c.call (new332c seed) cs = .ok (seen (step332 seed) ⟨[], (seed, seed)⟩ cs) := by
  refine run_seen (fun (d : State332c) (s : Memory) => d.seed = seed ∧ d.tail = s.bytes ∧ (d.pc, d.pb) = s.words) ?_ cs _ _ ⟨rfl, rfl, rfl⟩
  rintro d ⟨m, w⟩ c ⟨rfl, h1, h2⟩
  dsimp only at h1 h2
  subst h1 h2
  cases c with
  | write64 h => exact ⟨_, rfl, rfl, rfl, rfl⟩
  | hashS k a => exact ⟨_, rfl, rfl, rfl, rfl⟩
  | hash k seeds =>
    exact ⟨{ d with pc := (look (0, 0) k).1, pb := (look (0, 0) k).2, hash := (look (0, 0) k).1 },
      by simp only [State332c.call, State332c.hash32, Jenkins364_full, Go.bind_ok, Go.pure_ok, wide]; rfl, rfl, rfl, rfl⟩
  | stream op =>
    cases op with
    | write p => exact ⟨_, rfl, rfl, rfl, rfl⟩
    | reset => exact ⟨_, rfl, rfl, rfl, rfl⟩
    | sum b =>
      exact ⟨{ d with pc := (look (d.pc, d.pb) d.tail).1, pb := (look (d.pc, d.pb) d.tail).2, hash := (look (d.pc, d.pb) d.tail).1 },
        by simp only [State332c.call, State332c.sum, Jenkins364_full, Go.bind_ok, Go.pure_ok, be4_eq]; rfl, rfl, rfl, rfl⟩
    | value =>
      exact ⟨{ d with pc := (look (d.pc, d.pb) d.tail).1, pb := (look (d.pc, d.pb) d.tail).2, hash := (look (d.pc, d.pb) d.tail).1 },
        by simp only [State332c.call, State332c.sum32, Jenkins364_full, Go.bind_ok, Go.pure_ok, wide]; rfl, rfl, rfl, rfl⟩

/-- C121. `New232(seed)`, whatever the seed, under every history of all its calls: only the bytes written are remembered. -/
theorem C121_history232 (seed : U32) (cs : List Call) :
    runCalls State232.call (new232 seed) cs = .ok (seen step232 [] cs) := by
  refine run_seen (fun (d : State232) (m : List U8) => d.seed = 0#32 ∧ d.tail = m) ?_ cs _ _ ⟨rfl, rfl⟩
  rintro ⟨hh, seed', clen, tail⟩ m c ⟨h0, h1⟩
  dsimp only at h0 h1
  subst h0 h1
  cases c with
  | write64 h => exact ⟨_, rfl, rfl, rfl⟩
  | hashS k a => exact ⟨_, rfl, rfl, rfl⟩
  | hash k seeds =>
    refine ⟨⟨Spec.Jenkins.hash232 (k.take (k.length % 2 ^ 32)) 0#32, 0#32, clen, tail⟩, ?_, rfl, rfl⟩
    simp only [State232.call, State232.hash32, ite_self, Hash232, Hash232'_eq, Go.bind_ok, Go.pure_ok, wide, step232]
    rfl
  | stream op =>
    cases op with
    | write p => exact ⟨_, rfl, rfl, rfl⟩
    | reset => exact ⟨_, rfl, rfl, rfl⟩
    | sum b =>
      refine ⟨⟨Spec.Jenkins.hash232 (tail.take (tail.length % 2 ^ 32)) 0#32, 0#32, clen, tail⟩, ?_, rfl, rfl⟩
      simp only [State232.call, State232.sum, Hash232, Hash232'_eq, Go.bind_ok, Go.pure_ok, be4_eq, step232]
      rfl
    | value =>
      refine ⟨⟨Spec.Jenkins.hash232 (tail.take (tail.length % 2 ^ 32)) 0#32, 0#32, clen, tail⟩, ?_, rfl, rfl⟩
      simp only [State232.call, State232.sum32, Hash232, Hash232'_eq, Go.bind_ok, Go.pure_ok, wide, step232]
      rfl

/-- C121. After any history, `Reset` makes each of the three objects answer every further history as a new object does. -/
theorem C121_reset (before after : List Call) :
    (∀ seed, ∃ o new, o.length = before.length ∧ runCalls State364.call (new364 seed) after = .ok new ∧
      runCalls State364.call (new364 seed) (before ++ .stream .reset :: after) = .ok (o ++ .done :: new)) ∧
    (∀ seed, ∃ o new, o.length = before.length ∧ runCalls State332c.call (new332c seed) after = .ok new ∧
      runCalls State332c.call (new332c seed) (before ++ .stream .reset :: after) = .ok (o ++ .done :: new)) ∧
    (∀ seed, ∃ o new, o.length = before.length ∧ runCalls State232.call (new232 seed) after = .ok new ∧
      runCalls State232.call (new232 seed) (before ++ .stream .reset :: after) = .ok (o ++ .done :: new)) := by
  refine ⟨fun seed => ?_, fun seed => ?_, fun seed => ?_⟩
  · obtain ⟨s, o, h1, h2⟩ := seen_append (step364 seed) before (.stream .reset :: after) ⟨[], halves seed⟩
    exact ⟨o, _, h1, C121_history364 seed after, by rw [C121_history364, h2]; rfl⟩
  · obtain ⟨s, o, h1, h2⟩ := seen_append (step332 seed) before (.stream .reset :: after) ⟨[], (seed, seed)⟩
    exact ⟨o, _, h1, C121_history332 seed after, by rw [C121_history332, h2]; rfl⟩
  · obtain ⟨s, o, h1, h2⟩ := seen_append step232 before (.stream .reset :: after) []
    exact ⟨o, _, h1, C121_history232 seed after, by rw [C121_history232, h2]; rfl⟩

/-- C121. `Hash64S`, and `Hash64` with one or two seeds, do not depend on what was called before. -/
theorem C121_seeded (seed a b : U64) (k : List U8) (before : List Call) :
    ∃ o, o.length = before.length ∧
      runCalls State364.call (new364 seed) (before ++ [.hashS k a, .hash k [a], .hash k [a, b]]) =
        .ok (o ++ [.value [value64 (look (halves a) k)], .value [value64 (look (halves a) k)], .value [value64 (look ((halves a).1, (halves b).1) k)]]) := by
  obtain ⟨s, o, h1, h2⟩ := seen_append (step364 seed) before [.hashS k a, .hash k [a], .hash k [a, b]] ⟨[], halves seed⟩
  exact ⟨o, h1, by rw [C121_history364, h2]; rfl⟩

/-- C121 (refutation). A one-shot hash is not a function of its arguments, and it changes what the object says about the bytes written to it: the same `Hash64` without seeds
twice in a row gives two values, and a `Hash64` or `Hash32` of other bytes between the `Write` and the sum gives another sum. -/
theorem C121_oneshot_violated :
    (∃ k v w, v ≠ w ∧ runCalls State364.call (new364 0#64) [.hash k [], .hash k []] = .ok [.value [v], .value [w]]) ∧
    (∃ p k x v w, v ≠ w ∧ runCalls State364.call (new364 0#64) [.stream (.write p), .stream .value] = .ok [.wrote p.length, .value [v]] ∧
      runCalls State364.call (new364 0#64) [.stream (.write p), .hash k [0#64], .stream .value] = .ok [.wrote p.length, x, .value [w]]) ∧
    (∃ p k x v w, v ≠ w ∧ runCalls State332c.call (new332c 0#32) [.stream (.write p), .stream .value] = .ok [.wrote p.length, .value [v]] ∧
      runCalls State332c.call (new332c 0#32) [.stream (.write p), .hash k [], .stream .value] = .ok [.wrote p.length, x, .value [w]]) := by
  refine ⟨⟨[1#8], _, _, ?_, C121_history364 0#64 _⟩, ⟨[1#8], [2#8], _, _, _, ?_, C121_history364 0#64 _, C121_history364 0#64 _⟩,
    ⟨[1#8], [2#8], _, _, _, ?_, C121_history332 0#32 _, C121_history332 0#32 _⟩⟩
  all_goals decide +kernel

/-- Not vacuous: a concrete history with all kinds of calls, and what `New364(7)` says. -/
example : runCalls State364.call (new364 7#64) [.stream (.write [1#8]), .write64 258#64, .hash [5#8] [], .hashS [5#8] 9#64, .stream .reset, .stream .value] =
    .ok [.wrote 1, .done, .value [value64 (look (7#32, 0#32) [5#8])], .value [value64 (look (9#32, 0#32) [5#8])], .done, .value [value64 (look (7#32, 0#32) [])]] := by
  rw [C121_history364]
  rfl

end Verif.Props
