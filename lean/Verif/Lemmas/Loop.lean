import Verif.Lemmas.Basic

namespace Verif

/-- A loop that follows a known trajectory. -/
theorem Go.while_traj {σ : Type} {cond : σ → Bool} {body : σ → Go σ} (st : Nat → σ) (n k : Nat) (fuel : Nat)
    (hc : ∀ i, k ≤ i → i < n → cond (st i) = true) (hb : ∀ i, k ≤ i → i < n → body (st i) = .ok (st (i + 1))) (hk : k ≤ n)
    (hn : cond (st n) = false) (hf : n - k ≤ fuel) : Go.while_ fuel cond body (st k) = .ok (st n) := by
  induction fuel generalizing k with
  | zero =>
    have : k = n := by omega
    subst this
    rw [Go.while_, hn]; rfl
  | succ f ih =>
    by_cases h : k = n
    · subst h; rw [Go.while_, hn]; rfl
    · rw [Go.while_, hc k (Nat.le_refl _) (by omega), if_pos rfl, hb k (Nat.le_refl _) (by omega)]
      exact ih (k + 1) (fun i h1 h2 => hc i (by omega) h2) (fun i h1 h2 => hb i (by omega) h2) (by omega) (by omega)

end Verif
