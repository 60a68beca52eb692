import Verif.Go

/-!
# Specification of a streaming hasher (the contract of Go's `hash.Hash`)

A streaming hasher is observed only through the results of the calls made on it. The contract says
that each result is a function of the bytes written since the last `Reset` (or since construction):
`Write(p)` reports `len(p)`, `Sum(b)` appends the digest of those bytes to `b`, and the numeric
accessors (`Sum32`, `Sum64`, `Sum128`) return their value. In particular asking for a sum is never
observable later.
-/

namespace Verif

/-- A call on a hash object. `value` is the numeric accessor (`Sum32`/`Sum64`/`Sum128`). -/
inductive HOp where
  | write (p : List U8)
  | reset
  | sum (b : List U8)
  | value

/-- What the caller sees. -/
inductive HOut where
  | wrote (n : Nat)
  | done
  | bytes (b : List U8)
  | value (v : List U64)
  deriving DecidableEq

/-- The methods of a hash object with state `σ`, as state transformers. -/
structure Hasher (σ : Type) where
  write : σ → List U8 → Go (σ × Nat)
  reset : σ → Go σ
  sum : σ → List U8 → Go (σ × List U8)
  value : σ → Go (σ × List U64)

/-- Run a sequence of calls and collect everything the caller sees. -/
def Hasher.run (h : Hasher σ) : σ → List HOp → Go (List HOut)
  | _, [] => .ok []
  | s, .write p :: ops => do
    let (s, n) ← h.write s p
    return .wrote n :: (← h.run s ops)
  | s, .reset :: ops => do
    let s ← h.reset s
    return .done :: (← h.run s ops)
  | s, .sum b :: ops => do
    let (s, r) ← h.sum s b
    return .bytes r :: (← h.run s ops)
  | s, .value :: ops => do
    let (s, v) ← h.value s
    return .value v :: (← h.run s ops)

/-- The contract: every result is determined by the bytes `m` written since the last reset. -/
def contract (digest : List U8 → List U8) (value : List U8 → List U64) :
    (m : List U8) → List HOp → List HOut
  | _, [] => []
  | m, .write p :: ops => .wrote p.length :: contract digest value (m ++ p) ops
  | _, .reset :: ops => .done :: contract digest value [] ops
  | m, .sum b :: ops => .bytes (b ++ digest m) :: contract digest value m ops
  | m, .value :: ops => .value (value m) :: contract digest value m ops

/-- A representation invariant tying the state to the bytes written proves the contract. -/
theorem Hasher.run_eq_contract {h : Hasher σ} {digest : List U8 → List U8} {value : List U8 → List U64}
    (I : σ → List U8 → Prop)
    (hw : ∀ s m p, I s m → ∃ s', h.write s p = .ok (s', p.length) ∧ I s' (m ++ p))
    (hr : ∀ s m, I s m → ∃ s', h.reset s = .ok s' ∧ I s' [])
    (hs : ∀ s m b, I s m → ∃ s', h.sum s b = .ok (s', b ++ digest m) ∧ I s' m)
    (hv : ∀ s m, I s m → ∃ s', h.value s = .ok (s', value m) ∧ I s' m)
    (ops : List HOp) (s : σ) (m : List U8) (hi : I s m) :
    h.run s ops = .ok (contract digest value m ops) := by
  induction ops generalizing s m with
  | nil => rfl
  | cons op ops ih =>
    cases op with
    | write p =>
      obtain ⟨s', e, i⟩ := hw s m p hi
      simp only [Hasher.run, e]
      show Except.bind (h.run s' ops) _ = _
      rw [ih s' _ i]; rfl
    | reset =>
      obtain ⟨s', e, i⟩ := hr s m hi
      simp only [Hasher.run, e]
      show Except.bind (h.run s' ops) _ = _
      rw [ih s' _ i]; rfl
    | sum b =>
      obtain ⟨s', e, i⟩ := hs s m b hi
      simp only [Hasher.run, e]
      show Except.bind (h.run s' ops) _ = _
      rw [ih s' _ i]; rfl
    | value =>
      obtain ⟨s', e, i⟩ := hv s m hi
      simp only [Hasher.run, e]
      show Except.bind (h.run s' ops) _ = _
      rw [ih s' _ i]; rfl

end Verif
