import Verif.Lemmas.SipAsm64
import Verif.Lemmas.SipAsm128

/-! # The amd64 assembly of package siphash (C19, C20)

`Gen.SipAsm.hash64` and `hash128` are the instruction lists transcribed from the `.s` files,
`Model.X86.steps` runs them. A load that is not entirely inside the message, a jump on undefined
flags and running off the code are faults, so reaching `pc = none` (after `RET`) says that the code
terminates and reads only inside the slice. -/

namespace Verif.Props
open Verif Verif.Model.X86

/-- C19. For every key, message (a Go slice is shorter than `2^63`), address and initial register
contents, the assembly `Hash` terminates without reading outside the message and returns what the pure
Go `Hash` returns, which is SipHash-2-4. -/
theorem C19_asm_hash (k0 k1 base : U64) (p : List U8) (hl : p.length < 2 ^ 63) (st : St) :
    ∃ n c, steps Gen.SipAsm.hash64 ⟨k0, k1, base, p⟩ n ⟨some 0, st⟩ = .ok c ∧ c.pc = none ∧
      Model.SipHash.Hash k0 k1 p = .ok c.st.r0 ∧ c.st.r0 = Spec.SipHash.hash64 2 4 k0 k1 p := by
  obtain ⟨st', ⟨n, hn⟩, h⟩ := Lemmas.SipAsm.H64.run ⟨k0, k1, base, p⟩ hl st
  refine ⟨n, _, hn, rfl, h, ?_⟩
  rw [Lemmas.SipHash.Hash_eq] at h
  exact (Except.ok.inj h).symm

/-- C20. The same for `Hash128`. -/
theorem C20_asm_hash128 (k0 k1 base : U64) (p : List U8) (hl : p.length < 2 ^ 63) (st : St) :
    ∃ n c, steps Gen.SipAsm.hash128 ⟨k0, k1, base, p⟩ n ⟨some 0, st⟩ = .ok c ∧ c.pc = none ∧
      Model.SipHash.Hash128 k0 k1 p = .ok (c.st.r0, c.st.r1) ∧
      (c.st.r0, c.st.r1) = Spec.SipHash.hash128 2 4 k0 k1 p := by
  obtain ⟨st', ⟨n, hn⟩, h⟩ := Lemmas.SipAsm.H128.run ⟨k0, k1, base, p⟩ hl st
  refine ⟨n, _, hn, rfl, h, ?_⟩
  rw [Lemmas.SipHash.Hash128_eq] at h
  exact (Except.ok.inj h).symm

/-- A concrete run (17 bytes: two words and one tail byte). -/
example :
    let st : St := ⟨1, 2, 3, 4, 5, 6, 7, 8, 9, 10, none, 11, 12⟩
    let p : List U8 := (List.range 17).map (BitVec.ofNat 8)
    (steps Gen.SipAsm.hash64 ⟨0x0706050403020100#64, 0x0f0e0d0c0b0a0908#64, 0x1000#64, p⟩ 500 ⟨some 0, st⟩).toOption.map
      (fun c => (c.pc, c.st.r0)) = some (none, Spec.SipHash.hash64 2 4 0x0706050403020100#64 0x0f0e0d0c0b0a0908#64 p) := by
  decide +kernel

end Verif.Props
