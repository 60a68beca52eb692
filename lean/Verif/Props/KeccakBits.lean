import Verif.Lemmas.KeccakCApi

/-! C119: the C interface of package keccak on bit strings. -/

namespace Verif.Props
open Verif Verif.Model.KeccakC
open Verif.Spec.KeccakBits
open Verif.Spec.Keccak (sponge absorb pad)
open Verif.Lemmas.KeccakC (CInv step_ok step_init step_initSponge)

theorem crun_ok (ops : List COp) : ∀ (s : Sponge) (c : CState), CInv s c → AllReady c ops → crun s ops = .ok (promised c ops) := by
  induction ops with
  | nil => intro s c _ _; rfl
  | cons op ops ih =>
    intro s c h hr
    obtain ⟨s', e1, e2⟩ := step_ok h op hr.1
    unfold crun
    rw [e1, Go.bind_ok]
    dsimp only
    rw [ih s' _ e2 hr.2, Go.bind_ok]
    rfl

/-- C119. An initialisation with other parameters reports it and does nothing, whatever the object holds (even nothing initialised). -/
theorem C119_bad_init (s : Sponge) (ops : List COp) :
    (∀ r c : U32, ¬ (r.toNat + c.toNat = 1600 ∧ 0 < r.toNat ∧ r.toNat < 1600 ∧ r.toNat % 64 = 0) →
      crun s (.initSponge r c :: ops) = (crun s ops).map (⟨1, []⟩ :: ·)) ∧
    (∀ h : U32, h.toNat ∉ [0, 224, 256, 384, 512] → crun s (.init h :: ops) = (crun s ops).map (⟨2, []⟩ :: ·)) := by
  have any : ∀ op : COp, ∀ n : Nat, cstep s op = .ok (s, ⟨n, []⟩) → crun s (op :: ops) = (crun s ops).map (⟨n, []⟩ :: ·) := by
    intro op n h
    show (cstep s op).bind _ = _
    rw [h]
    show (crun s ops).bind _ = _
    cases crun s ops <;> rfl
  refine ⟨fun r c h => any _ _ ?_, fun x h => any _ _ ?_⟩
  · unfold cstep InitSponge
    have hr := r.isLt
    have hc := c.isLt
    dsimp only
    by_cases a1 : r + c ≠ 1600#32
    · rw [if_pos a1]
    · have a1' := congrArg BitVec.toNat (Decidable.not_not.1 a1)
      rw [BitVec.toNat_add] at a1'
      have a1' : (r.toNat + c.toNat) % 2 ^ 32 = 1600 := a1'
      rw [if_neg a1, if_pos]
      by_cases z : r.toNat = 0
      · exact Or.inl (by rw [BitVec.le_def]; exact Nat.le_of_eq z)
      · by_cases b : 1600 ≤ r.toNat
        · exact Or.inr (Or.inl (by show 1600#32 ≤ r; rw [BitVec.le_def]; exact b))
        · refine Or.inr (Or.inr fun e => h ⟨by omega, by omega, by omega, ?_⟩)
          exact congrArg BitVec.toNat e
  · unfold cstep Init
    simp only [List.mem_cons, List.not_mem_nil, or_false, not_or] at h
    have ne : ∀ m : Nat, m < 2 ^ 32 → ¬ x.toNat = m → ¬ x = BitVec.ofNat 32 m := by
      rintro m hm hx rfl
      exact hx (by rw [BitVec.toNat_ofNat, Nat.mod_eq_of_lt hm])
    dsimp only
    rw [if_neg (ne 0 (by decide) h.1), if_neg (ne 224 (by decide) h.2.1), if_neg (ne 256 (by decide) h.2.2.1), if_neg (ne 384 (by decide) h.2.2.2.1), if_neg (ne 512 (by decide) h.2.2.2.2)]

theorem fresh_inv (s : Sponge) (op : COp) (c : CState) (h : fresh op = some c) : ∃ s', cstep s op = .ok (s', ⟨0, []⟩) ∧ CInv s' c := by
  cases op with
  | initSponge r k =>
    have h0 := h
    unfold fresh at h
    dsimp only at h
    split at h
    · rename_i a
      refine ⟨(InitSponge s r k).1, ?_, ?_⟩
      all_goals
        have a1 : ¬ (r + k ≠ 1600#32) := not_not.2 (BitVec.eq_of_toNat_eq (by rw [BitVec.toNat_add, a.1]; rfl))
        have a2 : ¬ (r ≤ 0#32 ∨ r ≥ 1600#32 ∨ r % 64#32 ≠ 0#32) := by
          rintro (b | b | b)
          · rw [BitVec.le_def] at b
            have b : r.toNat ≤ 0 := b
            omega
          · have b : 1600#32 ≤ r := b
            rw [BitVec.le_def] at b
            have b : 1600 ≤ r.toNat := b
            omega
          · exact b (BitVec.eq_of_toNat_eq a.2.2.2)
      · unfold cstep InitSponge
        dsimp only
        rw [if_neg a1, if_neg a2]
      · unfold InitSponge
        rw [if_neg a1, if_neg a2, ← Option.some.inj h]
        have := Lemmas.KeccakC.init_repB (n := r.toNat / 64) (r := r) (c := k) (by omega) (by omega) (by omega) 0#32 rfl
        rw [show 8 * (r.toNat / 64) = r.toNat / 8 by omega] at this
        exact this
    · exact nomatch h
  | init x =>
    -- an object to start from, so that the step of the contract applies
    unfold fresh at h
    dsimp only at h
    have eq : ∀ m : Nat, m < 2 ^ 32 → x.toNat = m → x = BitVec.ofNat 32 m := fun m hm e => BitVec.eq_of_toNat_eq (by rw [e, BitVec.toNat_ofNat, Nat.mod_eq_of_lt hm])
    split at h
    · rename_i a
      obtain rfl := eq 0 (by decide) a
      rw [← Option.some.inj h]
      exact ⟨_, rfl, Lemmas.KeccakC.init_repB (n := 16) (r := 1024#32) (c := 576#32) rfl (by decide) (by decide) 0#32 rfl⟩
    · split at h
      · rename_i a
        rw [← Option.some.inj h]
        simp only [List.mem_cons, List.not_mem_nil, or_false] at a
        rcases a with a | a | a | a
        · obtain rfl := eq _ (by decide) a
          exact ⟨_, rfl, Lemmas.KeccakC.init_repB (n := 18) (r := 1152#32) (c := 448#32) rfl (by decide) (by decide) 224#32 rfl⟩
        · obtain rfl := eq _ (by decide) a
          exact ⟨_, rfl, Lemmas.KeccakC.init_repB (n := 17) (r := 1088#32) (c := 512#32) rfl (by decide) (by decide) 256#32 rfl⟩
        · obtain rfl := eq _ (by decide) a
          exact ⟨_, rfl, Lemmas.KeccakC.init_repB (n := 13) (r := 832#32) (c := 768#32) rfl (by decide) (by decide) 384#32 rfl⟩
        · obtain rfl := eq _ (by decide) a
          exact ⟨_, rfl, Lemmas.KeccakC.init_repB (n := 9) (r := 576#32) (c := 1024#32) rfl (by decide) (by decide) 512#32 rfl⟩
      · exact nomatch h
  | absorb _ _ => exact nomatch h
  | update _ _ => exact nomatch h
  | squeeze _ _ => exact nomatch h
  | final _ => exact nomatch h

/-- C119. The contract of the C interface: after an initialisation that succeeds, on an object of any contents, every sequence of calls shows what the sponge on bit
strings says. -/
theorem C119_history (s : Sponge) (op : COp) (c : CState) (hc : fresh op = some c) (ops : List COp) (hr : AllReady c ops) : crun s (op :: ops) = .ok (⟨0, []⟩ :: promised c ops) := by
  obtain ⟨s', e1, e2⟩ := fresh_inv s op c hc
  unfold crun
  rw [e1, Go.bind_ok]
  dsimp only
  rw [crun_ok ops s' c e2 hr, Go.bind_ok]
  rfl

/-- C119. A message of any number of bits given in one `Update`: `Final` writes the first bytes of the sponge's output for it, and again the next ones if called again. -/
theorem C119_one_shot (s : Sponge) (h : U32) (hh : h.toNat ∈ [224, 256, 384, 512]) (data : List U8) (n : U64) (hn : n.toNat ≤ 8 * data.length) (buf buf2 : List U8) (hb : h.toNat / 8 ≤ buf.length)
    (hb2 : h.toNat / 8 ≤ buf2.length) :
    crun s [.init h, .update data n, .final buf, .final buf2] =
      .ok [⟨0, []⟩, ⟨0, []⟩, ⟨0, output (200 - h.toNat / 4) (highBits data n.toNat) 0 (h.toNat / 8) ++ buf.drop (h.toNat / 8)⟩,
        ⟨0, output (200 - h.toNat / 4) (highBits data n.toNat) (h.toNat / 8) (h.toNat / 8) ++ buf2.drop (h.toNat / 8)⟩] := by
  have h0 : ¬ h.toNat = 0 := by rintro e; rw [e] at hh; exact absurd hh (by decide)
  have h8 : h.toNat % 8 = 0 ∧ (1600 - 2 * h.toNat) / 8 = 200 - h.toNat / 4 := by
    simp only [List.mem_cons, List.not_mem_nil, or_false] at hh
    omega
  have hf : fresh (.init h) = some ⟨200 - h.toNat / 4, h.toNat, [], none⟩ := by
    unfold fresh
    dsimp only
    rw [if_neg h0, if_pos hh, h8.2]
  have hopen : CState.Open ⟨200 - h.toNat / 4, h.toNat, [], none⟩ := ⟨rfl, rfl⟩
  rw [C119_history s _ _ hf]
  · simp only [promised, CState.step, CState.feed, if_pos hopen, CState.take, if_pos h8.1, List.nil_append, Option.getD_none, Option.getD_some, Nat.zero_add]
  · refine ⟨fun _ => ⟨hn, Or.inl ?_⟩, ?_, ?_, trivial⟩
    · show 0 / 8 % _ = 0
      rw [Nat.zero_div, Nat.zero_mod]
    · simp only [CState.step, CState.feed, if_pos hopen]
      exact hb
    · simp only [CState.step, CState.feed, if_pos hopen, CState.take, if_pos h8.1]
      exact hb2

/-- C119. On whole bytes the sponge on bit strings is the sponge on bytes (that of C94). -/
theorem C119_bytes (r size : Nat) (h0 : 0 < r) (m : List U8) : output r (bits m) 0 size = sponge 24 r size m := by
  unfold output sponge
  rw [List.drop_zero, Nat.zero_add]
  congr 2
  have h := Lemmas.KeccakC.absorbed_eq h0 m (k := 0) (by decide) (v := 0#8) (by decide)
  rw [show Lemmas.KeccakC.loBits 0#8 0 = [] from rfl, List.append_nil] at h
  rw [h]
  unfold absorb
  rw [Lemmas.Keccak.pad_blocks h0, List.foldl_append]
  unfold Lemmas.KeccakC.lastBlocks Lemmas.Keccak.padTail
  by_cases hl : (tailOf r m).length = r - 1
  · rw [if_pos hl, if_neg (by decide), if_pos hl]
    rfl
  · rw [if_neg hl, if_neg hl]
    rfl

/-- C119_history at work: 11 bits (the low bits of the last byte), then too much, then output in two parts, and input refused. -/
example (s : Sponge) : crun s [.initSponge 1088#32 512#32, .absorb [0xAB#8, 0xFF#8] 11#64, .update [1#8] 8#64, .squeeze [] 5#64, .squeeze [9#8, 9#8, 9#8] 16#64, .squeeze [9#8] 8#64, .absorb [] 0#64] =
    .ok [⟨0, []⟩, ⟨0, []⟩, ⟨1, []⟩, ⟨1, []⟩, ⟨0, output 136 [true, true, false, true, false, true, false, true, true, true, true] 0 2 ++ [9#8]⟩,
      ⟨0, output 136 [true, true, false, true, false, true, false, true, true, true, true] 2 1 ++ []⟩, ⟨1, []⟩] := by
  rw [C119_history s _ ⟨136, 0, [], none⟩ (by rfl)]
  · rfl
  · refine ⟨fun _ => ⟨by decide, Or.inl rfl⟩, fun h => absurd h (by decide), fun h => absurd h (by decide), fun _ => by decide, fun _ => by decide, fun h => absurd h (by decide), trivial⟩

/-- C119_one_shot at work: the five high bits of a byte. -/
example (s : Sponge) (b : List U8) (hb : b.length = 32) : crun s [.init 256#32, .update [0xA8#8] 5#64, .final b, .final b] =
    .ok [⟨0, []⟩, ⟨0, []⟩, ⟨0, output 136 [true, false, true, false, true] 0 32 ++ b.drop 32⟩, ⟨0, output 136 [true, false, true, false, true] 32 32 ++ b.drop 32⟩] :=
  C119_one_shot s 256#32 (by decide) [0xA8#8] 5#64 (by decide) b b (by rw [hb]; decide) (by rw [hb]; decide)

/-- C119_bad_init at work. -/
example (s : Sponge) : crun s [.init 128#32, .initSponge 1600#32 0#32, .initSponge 1000#32 600#32] = .ok [⟨2, []⟩, ⟨1, []⟩, ⟨1, []⟩] := by
  rw [(C119_bad_init s _).2 128#32 (by decide), (C119_bad_init s _).1 1600#32 0#32 (by decide), (C119_bad_init s _).1 1000#32 600#32 (by decide)]
  rfl

end Verif.Props
