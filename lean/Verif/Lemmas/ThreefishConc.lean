import Verif.Lemmas.Threefish2
import Verif.Spec.ThreefishConc

/-! Goroutines sharing a Threefish cipher: a call cut into accesses is the call, and the invariant of an exclusive schedule. -/

namespace Verif.Lemmas.ThreefishConc
open Verif Verif.Model.Threefish Verif.Model.ThreefishConc Verif.Spec.ThreefishConc
open Verif.Lemmas.Threefish
open Verif.Spec.Threefish (toWords toBytes readAt writeAt)

/-- Accesses one after the other, by one goroutine. -/
def runIns (c : Cipher) (l : Loc) : List Ins → Go (Cipher × Loc)
  | [] => .ok (c, l)
  | a :: as => do
    let r ← access c l a
    runIns r.1 r.2 as

theorem runIns_append (as bs : List Ins) : ∀ (c : Cipher) (l : Loc), runIns c l (as ++ bs) = (runIns c l as >>= fun r => runIns r.1 r.2 bs) := by
  induction as with
  | nil => intro c l; rfl
  | cons a as ih =>
    intro c l
    show (access c l a >>= fun r => runIns r.1 r.2 (as ++ bs)) = ((access c l a >>= fun r => runIns r.1 r.2 as) >>= _)
    cases access c l a with
    | error e => rfl
    | ok r => exact ih r.1 r.2

theorem fills_eq (src : Win) (n : Nat) : ∀ (k : Nat) (c : Cipher) (l : Loc), runIns c l ((List.range' k n).map (Ins.fill src)) =
    (Go.forRange k n (loadBytes l.bytes src) c.int.tmpData1 >>= fun t => .ok (setTmp1 c t, l)) := by
  induction n with
  | zero => intro k c l; rfl
  | succ n ih =>
    intro k c l
    rw [List.range'_succ, List.map_cons]
    show ((loadBytes l.bytes src k c.int.tmpData1 >>= fun t => .ok (setTmp1 c t, l)) >>= fun r => runIns r.1 r.2 _) = ((loadBytes l.bytes src k c.int.tmpData1 >>= Go.forRange (k + 1) n (loadBytes l.bytes src)) >>= _)
    cases loadBytes l.bytes src k c.int.tmpData1 with
    | error e => rfl
    | ok t => exact ih (k + 1) (setTmp1 c t) l

theorem loadsTmp_eq (n : Nat) : ∀ (k : Nat) (c : Cipher) (l : Loc), runIns c l ((List.range' k n).map Ins.load) =
    (Go.forRange k n (fun i b => do let x ← Go.idx c.int.tmpData1 i; return b ++ [x]) l.regs >>= fun t => .ok (c, { l with regs := t })) := by
  induction n with
  | zero => intro k c l; rfl
  | succ n ih =>
    intro k c l
    rw [List.range'_succ, List.map_cons]
    show ((Go.idx c.int.tmpData1 k >>= fun x => .ok (c, { l with regs := l.regs ++ [x] })) >>= fun r => runIns r.1 r.2 _) =
      (((Go.idx c.int.tmpData1 k >>= fun x => .ok (l.regs ++ [x])) >>= Go.forRange (k + 1) n (fun i b => do let x ← Go.idx c.int.tmpData1 i; return b ++ [x])) >>= _)
    cases Go.idx c.int.tmpData1 k with
    | error e => rfl
    | ok x => exact ih (k + 1) c { l with regs := l.regs ++ [x] }

theorem storesTmp_eq (n : Nat) : ∀ (k : Nat) (c : Cipher) (l : Loc), runIns c l ((List.range' k n).map Ins.store) =
    (Go.forRange k n (fun i t => do let x ← Go.idx l.regs i; Go.set t i x) c.int.tmpData2 >>= fun t => .ok (setTmp2 c t, l)) := by
  induction n with
  | zero => intro k c l; rfl
  | succ n ih =>
    intro k c l
    rw [List.range'_succ, List.map_cons]
    show ((Go.idx l.regs k >>= fun x => Go.set c.int.tmpData2 k x >>= fun t => .ok (setTmp2 c t, l)) >>= fun r => runIns r.1 r.2 _) =
      (((Go.idx l.regs k >>= fun x => Go.set c.int.tmpData2 k x) >>= Go.forRange (k + 1) n (fun i t => do let x ← Go.idx l.regs i; Go.set t i x)) >>= _)
    cases Go.idx l.regs k with
    | error e => rfl
    | ok x =>
      show ((Go.set c.int.tmpData2 k x >>= fun t => .ok (setTmp2 c t, l)) >>= fun r => runIns r.1 r.2 _) =
        ((Go.set c.int.tmpData2 k x >>= Go.forRange (k + 1) n (fun i t => do let x ← Go.idx l.regs i; Go.set t i x)) >>= _)
      cases Go.set c.int.tmpData2 k x with
      | error e => rfl
      | ok t => exact ih (k + 1) (setTmp2 c t) l

theorem drains_eq (dst : Win) (n : Nat) : ∀ (k : Nat) (c : Cipher) (l : Loc), runIns c l ((List.range' k n).map (Ins.drain dst)) =
    (Go.forRange k n (storeBytes c.int.tmpData2 dst) l.bytes >>= fun m => .ok (c, { l with bytes := m })) := by
  induction n with
  | zero => intro k c l; rfl
  | succ n ih =>
    intro k c l
    rw [List.range'_succ, List.map_cons]
    show ((storeBytes c.int.tmpData2 dst k l.bytes >>= fun m => .ok (c, { l with bytes := m })) >>= fun r => runIns r.1 r.2 _) =
      ((storeBytes c.int.tmpData2 dst k l.bytes >>= Go.forRange (k + 1) n (storeBytes c.int.tmpData2 dst)) >>= _)
    cases storeBytes c.int.tmpData2 dst k l.bytes with
    | error e => rfl
    | ok m => exact ih (k + 1) c { l with bytes := m }

theorem loads64_eq (src : Win) (n : Nat) : ∀ (k : Nat) (c : Cipher) (l : Loc), runIns c l ((List.range' k n).map (Ins.load64 src)) =
    (Go.forRange k n (fun i b => do let x ← src.get l.words i; return b ++ [x]) l.regs >>= fun t => .ok (c, { l with regs := t })) := by
  induction n with
  | zero => intro k c l; rfl
  | succ n ih =>
    intro k c l
    rw [List.range'_succ, List.map_cons]
    show ((src.get l.words k >>= fun x => .ok (c, { l with regs := l.regs ++ [x] })) >>= fun r => runIns r.1 r.2 _) =
      (((src.get l.words k >>= fun x => .ok (l.regs ++ [x])) >>= Go.forRange (k + 1) n (fun i b => do let x ← src.get l.words i; return b ++ [x])) >>= _)
    cases src.get l.words k with
    | error e => rfl
    | ok x => exact ih (k + 1) c { l with regs := l.regs ++ [x] }

theorem stores64_eq (dst : Win) (n : Nat) : ∀ (k : Nat) (c : Cipher) (l : Loc), runIns c l ((List.range' k n).map (Ins.store64 dst)) =
    (Go.forRange k n (fun i m => do let x ← Go.idx l.regs i; dst.put x i m) l.words >>= fun m => .ok (c, { l with words := m })) := by
  induction n with
  | zero => intro k c l; rfl
  | succ n ih =>
    intro k c l
    rw [List.range'_succ, List.map_cons]
    show ((Go.idx l.regs k >>= fun x => dst.put x k l.words >>= fun m => .ok (c, { l with words := m })) >>= fun r => runIns r.1 r.2 _) =
      (((Go.idx l.regs k >>= fun x => dst.put x k l.words) >>= Go.forRange (k + 1) n (fun i m => do let x ← Go.idx l.regs i; dst.put x i m)) >>= _)
    cases Go.idx l.regs k with
    | error e => rfl
    | ok x =>
      show ((dst.put x k l.words >>= fun m => .ok (c, { l with words := m })) >>= fun r => runIns r.1 r.2 _) =
        ((dst.put x k l.words >>= Go.forRange (k + 1) n (fun i m => do let x ← Go.idx l.regs i; dst.put x i m)) >>= _)
      cases dst.put x k l.words with
      | error e => rfl
      | ok m => exact ih (k + 1) c { l with words := m }

/-- Loading a whole array. -/
theorem loadsAll (t : List U64) (n : Nat) (h : t.length = n) : Go.forRange 0 n (fun i b => do let x ← Go.idx t i; return b ++ [x]) [] = .ok t := by
  rw [collect_eq _ (fun i => t.getD i 0#64) n 0 [], List.nil_append]
  · congr 1
    apply List.ext_getElem
    · rw [List.length_map, List.length_range', h]
    · intro i h1 h2
      rw [List.getElem_map, List.getElem_range', List.getD_eq_getElem?_getD, List.getElem?_eq_getElem (by omega)]
      simp
  · intro i _ hi
    rw [Go.idx_eq (by omega), List.getD_eq_getElem?_getD, List.getElem?_eq_getElem (by omega), Option.getD_some]

/-- Overwriting a whole array. -/
theorem storesAll (r t : List U64) (n : Nat) (h : t.length = n) (hr : r.length = n) : Go.forRange 0 n (fun i t => do let x ← Go.idx r i; Go.set t i x) t = .ok r := by
  have key : ∀ m k, k + m = n → Go.forRange k m (fun i t => do let x ← Go.idx r i; Go.set t i x) (r.take k ++ t.drop k) = .ok r := by
    intro m
    induction m with
    | zero =>
      intro k hk
      simp only [Go.forRange]
      rw [List.take_of_length_le (by omega), List.drop_of_length_le (by omega), List.append_nil]
    | succ m ih =>
      intro k hk
      have hl : (r.take k).length = k := by rw [List.length_take]; omega
      have e : (r.take k ++ t.drop k).set k r[k] = r.take (k + 1) ++ t.drop (k + 1) := by
        rw [List.drop_eq_getElem_cons (by omega : k < t.length), set_append_len _ _ _ _ _ hl, List.take_add_one, List.getElem?_eq_getElem (by omega), List.append_assoc]
        rfl
      rw [forRange_step (s' := r.take (k + 1) ++ t.drop (k + 1))
        (by rw [Go.idx_eq (by omega), Go.bind_ok]; unfold Go.set; rw [if_pos (by rw [List.length_append, hl, List.length_drop]; omega), e])]
      exact ih (k + 1) (by omega)
  exact key n 0 (by omega)

theorem set_length {t t' : List U64} {i : Nat} {x : U64} (h : Go.set t i x = .ok t') : t'.length = t.length := by
  unfold Go.set at h
  split at h
  · cases h; rw [List.length_set]
  · cases h

theorem fill_length (mem : List U8) (src : Win) (n : Nat) : ∀ (k : Nat) (t t' : List U64), Go.forRange k n (loadBytes mem src) t = .ok t' → t'.length = t.length := by
  induction n with
  | zero => intro k t t' h; cases h; rfl
  | succ n ih =>
    intro k t t' h
    cases e : loadBytes mem src k t with
    | error f => rw [forRange_fault e] at h; cases h
    | ok u =>
      rw [forRange_step e] at h
      rw [ih _ _ _ h]
      unfold loadBytes at e
      cases e1 : src.sub8 (k * 8) with
      | error f => rw [e1] at e; cases e
      | ok w =>
        rw [e1, Go.bind_ok] at e
        cases e2 : readLE mem w with
        | error f => rw [e2] at e; cases e
        | ok x => rw [e2, Go.bind_ok] at e; exact set_length e

/-- The body of a call. -/
def body (c : Cipher) (enc : Bool) (b : List U64) : List U64 := if enc then c.int.encBody b else c.int.decBody b

theorem body_length (c : Cipher) (enc : Bool) (b : List U64) : (body c enc b).length = c.int.size.words := by
  cases enc
  · exact decBody_length _ _
  · exact encBody_length _ _

/-- `Encrypt` and `Decrypt` alike. -/
def bytesCall (c : Cipher) (enc : Bool) (mem : List U8) (dst src : Win) : Go (Cipher × List U8) := do
  let tmpin ← Go.forRange 0 (c.stateSize / 64) (loadBytes mem src) c.int.tmpData1
  let tmpout := body c enc tmpin
  let mem' ← Go.forRange 0 (c.stateSize / 64) (storeBytes tmpout dst) mem
  return ({ c with int := { c.int with tmpData1 := tmpin, tmpData2 := tmpout } }, mem')

/-- `Encrypt64` and `Decrypt64` alike. -/
def wordsCall (c : Cipher) (enc : Bool) (mem : List U64) (dst src : Win) : Go (List U64) := do
  let b ← loads mem src c.int.size.words
  stores (body c enc b) dst mem c.int.size.words

theorem alone_bytes (c : Cipher) (mem : List U8 × List U64) (enc : Bool) (dst src : Win) :
    alone c mem (.bytes enc dst src) = (bytesCall c enc mem.1 dst src >>= fun r => .ok (r.1, (r.2, mem.2))) := by cases enc <;> rfl

theorem alone_words (c : Cipher) (mem : List U8 × List U64) (enc : Bool) (dst src : Win) :
    alone c mem (.words enc dst src) = (wordsCall c enc mem.2 dst src >>= fun m => .ok (c, (mem.1, m))) := by cases enc <;> rfl

/-- A call, alone, is the sequence of its accesses. -/
theorem call_accesses (c : Cipher) (h1 : c.int.tmpData1.length = c.int.size.words) (h2 : c.int.tmpData2.length = c.int.size.words) (mem : List U8 × List U64) (k : Call)
    {r : Cipher × (List U8 × List U64)} (h : alone c mem k = .ok r) :
    ∃ regs, runIns c ⟨mem.1, mem.2, []⟩ (accesses c k) = .ok (r.1, ⟨r.2.1, r.2.2, regs⟩) := by
  cases k with
  | bytes enc dst src =>
    rw [alone_bytes] at h
    unfold bytesCall at h
    unfold accesses
    rw [runIns_append, fills_eq]
    dsimp only
    cases e1 : Go.forRange 0 (c.stateSize / 64) (loadBytes mem.1 src) c.int.tmpData1 with
    | error f => rw [e1] at h; cases h
    | ok tmpin =>
      rw [e1, Go.bind_ok] at h
      dsimp only at h
      have hl := fill_length _ _ _ _ _ _ e1
      rw [Go.bind_ok, Go.bind_ok, runIns_append, loadsTmp_eq]
      dsimp only [setTmp1]
      rw [loadsAll tmpin _ (by omega), Go.bind_ok, Go.bind_ok]
      show ∃ regs, runIns _ ⟨mem.1, mem.2, body c enc tmpin⟩ _ = _
      rw [runIns_append, storesTmp_eq]
      dsimp only
      rw [storesAll (body c enc tmpin) _ _ h2 (body_length c enc tmpin), Go.bind_ok, Go.bind_ok, drains_eq]
      dsimp only [setTmp2]
      cases e2 : Go.forRange 0 (c.stateSize / 64) (storeBytes (body c enc tmpin) dst) mem.1 with
      | error f => rw [e2] at h; cases h
      | ok m =>
        rw [e2] at h
        cases h
        exact ⟨_, rfl⟩
  | words enc dst src =>
    rw [alone_words] at h
    unfold wordsCall loads stores at h
    unfold accesses
    rw [runIns_append, loads64_eq]
    dsimp only
    cases e1 : Go.forRange 0 c.int.size.words (fun i b => do let x ← src.get mem.2 i; return b ++ [x]) [] with
    | error f => rw [e1] at h; cases h
    | ok b =>
      rw [e1, Go.bind_ok] at h
      rw [Go.bind_ok, Go.bind_ok]
      show ∃ regs, runIns _ ⟨mem.1, mem.2, body c enc b⟩ _ = _
      rw [stores64_eq]
      dsimp only
      cases e2 : Go.forRange 0 c.int.size.words (fun i m => do let x ← Go.idx (body c enc b) i; dst.put x i m) mem.2 with
      | error f => rw [e2] at h; cases h
      | ok m =>
        rw [e2] at h
        cases h
        exact ⟨_, rfl⟩

end Verif.Lemmas.ThreefishConc
