import Verif.Model.HashTableF
import Verif.Lemmas.HashTable5

/-! # `Insert` with a hash that can panic, and `Insert` with a total hash -/

namespace Verif.HashTable
open Verif

variable {ω κ : Type}

/-- The total hash that agrees with `e` where it does not panic. -/
def EnvF.total (e : EnvF ω κ) : Env ω κ where
  hash w k s := match e.hash w k s with
    | .ok r => r
    | .error _ => (0#64, w)
  traceOK := e.traceOK

/-- The hash of this key with this seed never panics. -/
def EnvF.Ok (e : EnvF ω κ) (seed : U64) (k : κ) : Prop := ∀ w, ∃ r, e.hash w k seed = .ok r

theorem EnvF.total_hash {e : EnvF ω κ} {w : ω} {k : κ} {s : U64} {r : U64 × ω} (h : e.hash w k s = .ok r) : e.total.hash w k s = r := by
  unfold EnvF.total; dsimp only; rw [h]

theorem EnvF.hash_eq {e : EnvF ω κ} {k : κ} {s : U64} (h : e.Ok s k) (w : ω) : e.hash w k s = .ok (e.total.hash w k s) := by
  obtain ⟨r, h⟩ := h w
  rw [EnvF.total_hash h, h]

theorem traceF (e : EnvF ω κ) (k : κ) : traceChkF e k = traceChk e.total k := rfl

theorem scanDupsF_eq (e : EnvF ω κ) (seed h : U64) (ks : List κ) (hk : ∀ x ∈ ks, e.Ok seed x) : ∀ (w : ω) (n : Nat), scanDupsF e seed h ks w n = .ok (scanDups e.total seed h ks w n) := by
  induction ks with
  | nil => intro w n; rfl
  | cons k ks ih =>
    intro w n
    rw [scanDupsF, scanDups, EnvF.hash_eq (hk k (by simp)), Go.bind_ok]
    exact ih (fun x hx => hk x (List.mem_cons_of_mem _ hx)) _ _

theorem insertLoopF_eq (e : EnvF ω κ) (k : κ) (h : U64) (fuel : Nat) : ∀ (w : ω) (ht : HT κ) (idx : U64) (cnt pass : Nat), (∀ b ∈ ht.buckets, ∀ x ∈ b, e.Ok ht.seed x) →
    insertLoopF e k h fuel w ht idx cnt pass = insertLoop e.total k h fuel w ht idx cnt pass := by
  induction fuel with
  | zero => intros; rfl
  | succ fuel ih =>
    intro w ht idx cnt pass hk
    have hb1 : (ht.countProbe cnt).buckets = ht.buckets := by unfold HT.countProbe; split <;> rfl
    have hs1 : (ht.countProbe cnt).seed = ht.seed := by unfold HT.countProbe; split <;> rfl
    have hb2 : ∀ (bh : U64), ((ht.countProbe cnt).countDup bh h).buckets = ht.buckets := by intro bh; unfold HT.countDup; split <;> exact hb1
    have hs2 : ∀ (bh : U64), ((ht.countProbe cnt).countDup bh h).seed = ht.seed := by intro bh; unfold HT.countDup; split <;> exact hs1
    rw [insertLoopF, insertLoop]
    simp only [traceF]
    by_cases hi : idx.toNat < ht.buckets.length
    · rw [Go.idx_eq hi, Go.bind_ok, Go.bind_ok]
      have hmem := List.getElem_mem hi
      generalize ht.buckets[idx.toNat] = b at *
      split
      · rfl
      · split
        · cases traceChk e.total k with
          | error f => rfl
          | ok u =>
            rw [Go.bind_ok, Go.bind_ok]
            by_cases h0 : 0 < b.length
            · rw [Go.idx_eq h0, Go.bind_ok, Go.bind_ok, hs1, EnvF.hash_eq (hk b hmem _ (List.getElem_mem h0)), Go.bind_ok]
              have hk' : ∀ bh : U64, ∀ b ∈ ((ht.countProbe cnt).countDup bh h).buckets, ∀ x ∈ b, e.Ok ((ht.countProbe cnt).countDup bh h).seed x := by
                intro bh; rw [hb2, hs2]; exact hk
              split
              · split
                · rfl
                · exact ih _ _ _ _ _ (hk' _)
              · exact ih _ _ _ _ _ (hk' _)
            · have : Go.idx b 0 = .error .index := by unfold Go.idx; rw [List.getElem?_eq_none (by omega)]
              rw [this]; rfl
        · rw [scanDupsF_eq e _ _ _ (fun x hx => hk b hmem x hx), Go.bind_ok]
    · have : Go.idx ht.buckets idx.toNat = .error .index := by unfold Go.idx; rw [List.getElem?_eq_none (by omega)]
      rw [this]; rfl

/-- `Insert` is that with the total hash if neither the new key's hash nor those of the keys in the table panic. -/
theorem insertF_eq {e : EnvF ω κ} {w : ω} {ht : HT κ} {k : κ} (h : ∃ r, e.hash w k ht.seed = .ok r) (hk : ∀ b ∈ ht.buckets, ∀ x ∈ b, e.Ok ht.seed x) :
    insertF e w ht k = insert e.total w ht k := by
  obtain ⟨r, h⟩ := h
  have h' : e.total.hash w k ht.seed = r := EnvF.total_hash h
  unfold insertF HashTable.insert
  dsimp only
  simp only [h', h]
  rw [Go.bind_ok]
  by_cases hp : ht.prime = true
  · rw [if_pos hp, if_pos hp]
    by_cases h0 : ht.size = 0
    · rw [if_pos h0]; rfl
    · rw [if_neg h0]; exact insertLoopF_eq _ _ _ _ _ _ _ _ _ hk
  · rw [if_neg hp, if_neg hp]; exact insertLoopF_eq _ _ _ _ _ _ _ _ _ hk

theorem insertF_panic {e : EnvF ω κ} {w : ω} {ht : HT κ} {k : κ} {f : Fault} (h : e.hash w k ht.seed = .error f) : insertF e w ht k = .error f := by
  unfold insertF; dsimp only; rw [h]; rfl

end Verif.HashTable
