import Verif.Model.ThreefishConc

/-! What goroutines sharing a Threefish cipher may rely on: the results of the same calls made by a goroutine that has a cipher to itself. -/

namespace Verif.Spec.ThreefishConc
open Verif Verif.Model.Threefish Verif.Model.ThreefishConc

/-- A goroutine's memory, its calls and the private cipher it is compared with. -/
abbrev Job := ((List U8 × List U64) × List Call) × Cipher

/-- One call on a cipher nobody else uses. -/
def alone (c : Cipher) (mem : List U8 × List U64) : Call → Go (Cipher × (List U8 × List U64))
  | .bytes true dst src => do let r ← c.Encrypt mem.1 dst src; return (r.1, (r.2, mem.2))
  | .bytes false dst src => do let r ← c.Decrypt mem.1 dst src; return (r.1, (r.2, mem.2))
  | .words true dst src => do let m ← c.Encrypt64 mem.2 dst src; return (c, (mem.1, m))
  | .words false dst src => do let m ← c.Decrypt64 mem.2 dst src; return (c, (mem.1, m))

/-- Calls one after the other on a cipher nobody else uses. -/
def aloneAll (c : Cipher) (mem : List U8 × List U64) : List Call → Go (Cipher × (List U8 × List U64))
  | [] => .ok (c, mem)
  | k :: ks => do
    let r ← alone c mem k
    aloneAll r.1 r.2 ks

/-- The slices of the call lie in the goroutine's memory. -/
def Call.Fits (mem : List U8 × List U64) : Call → Prop
  | .bytes _ dst src => Win.Valid dst mem.1 ∧ Win.Valid src mem.1
  | .words _ dst src => Win.Valid dst mem.2 ∧ Win.Valid src mem.2

/-- A call of `Encrypt` or `Decrypt`. -/
def Call.isBytes : Call → Bool
  | .bytes .. => true
  | .words .. => false

/-- The goroutine is inside `Encrypt` or `Decrypt`. -/
def Busy (t : Thread) : Prop := ∃ k, t.running = some k ∧ Call.isBytes k = true

/-- At no moment of the schedule are two goroutines inside `Encrypt` or `Decrypt`, as when these calls are made under a lock. -/
def Exclusive (w : World) (sched : List Nat) : Prop :=
  ∀ pre post w', sched = pre ++ post → w.run pre = .ok w' →
    ∀ (i j : Nat) (s t : Thread), w'.threads[i]? = some s → w'.threads[j]? = some t → Busy s → Busy t → i = j

/-- Steps of a call on a cipher of `n` words of which the byte interface handles `m`: begin, the accesses, return. -/
def cost (n m : Nat) (k : Call) : Nat := if Call.isBytes k then 2 * n + 2 * m + 3 else 2 * n + 3

/-- The goroutine has returned from all its calls. -/
def Finished (t : Thread) : Prop := t.running = none ∧ t.calls = []

end Verif.Spec.ThreefishConc
