import Verif.Model.HtConc
import Verif.Spec.HashTableObs

/-! Vocabulary for concurrent calls of `Insert`. -/

namespace Verif.Spec.HtConc
open Verif Verif.HashTable Verif.Model.HtConc

variable {κ : Type}

/-- The memory of a table nobody is working on: every bucket that is not nil is a non-empty prefix of an array of its own, and all of the array that has been written. -/
def Sound (m : Mem κ) : Prop :=
  ∀ (i a l : Nat), m.slots[i]? = some (some (a, l)) →
    (∃ (c : Nat) (d : List κ), m.arrays[a]? = some (c, d) ∧ d.length = l ∧ l ≤ c ∧ 0 < l) ∧ ∀ (j l' : Nat), m.slots[j]? = some (some (a, l')) → j = i

/-- The bucket `Insert(k)` selects. -/
def home (H : κ → U64 → U64) (ht : HT κ) (k : κ) : Nat := Spec.HashTable.homeOf ht.prime ht.size.toNat (H k ht.seed)

/-- What is in bucket `i`. -/
def bucket (ht : HT κ) (i : Nat) : List κ := (ht.buckets[i]?).getD []

/-- `n` goroutines about to call `Insert` on the table in memory `m`. -/
def unlocked (n : Nat) (m : Mem κ) : Conc κ n := ⟨m, fun _ => .start⟩

/-- `n` goroutines about to take the lock. -/
def locked (n : Nat) (m : Mem κ) : Locked κ n := ⟨m, none, [], fun _ => .waiting⟩

end Verif.Spec.HtConc
