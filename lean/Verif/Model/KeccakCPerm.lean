import Verif.Go

/-!
# Keccak-f[1600] as compiled from the C macros of /repo/keccak

Written by tools/gen_keccakc.py, one `let` per C assignment, from KeccakF-1600-64.macros.h and KeccakF-1600-unrolling.macros.h in the
configuration KeccakF-1600-opt64-settings.h selects (`Unrolling 24`, `UseBebigokimisa`, no SSE, no MMX). A C variable that is assigned
twice is shadowed. A round macro is called with (A, E) and (E, A) in turn; it writes all of its third argument before reading any of it and
the caller never reads its second argument again, so it is a function from lanes to lanes.
-/

namespace Verif.Model.KeccakC
open Verif

/-- The 25 lanes of KeccakF-1600-64.macros.h:16-33 (`Aba` ... `Asu` or `Eba` ... `Esu`). -/
structure Lanes where
  ba : U64
  be : U64
  bi : U64
  bo : U64
  bu : U64
  ga : U64
  ge : U64
  gi : U64
  go : U64
  gu : U64
  ka : U64
  ke : U64
  ki : U64
  ko : U64
  ku : U64
  ma : U64
  me : U64
  mi : U64
  mo : U64
  mu : U64
  sa : U64
  se : U64
  si : U64
  so : U64
  su : U64
  deriving DecidableEq

/-- `Ca`, `Ce`, `Ci`, `Co`, `Cu`, KeccakF-1600-64.macros.h:27. -/
structure Cols where
  a : U64
  e : U64
  i : U64
  o : U64
  u : U64
  deriving DecidableEq

/-- `ROL64`, KeccakF-1600-opt64.c:89. -/
def ROL64 (a : U64) (offset : Nat) : U64 := (a <<< offset) ^^^ (a >>> (64 - offset))

/-- `KeccakF1600RoundConstants`, KeccakF-1600-64.macros.h:460-484. -/
def roundConstants : List U64 := [
  0x0000000000000001#64, 0x0000000000008082#64, 0x800000000000808a#64, 0x8000000080008000#64,
  0x000000000000808b#64, 0x0000000080000001#64, 0x8000000080008081#64, 0x8000000000008009#64,
  0x000000000000008a#64, 0x0000000000000088#64, 0x0000000080008009#64, 0x000000008000000a#64,
  0x000000008000808b#64, 0x800000000000008b#64, 0x8000000000008089#64, 0x8000000000008003#64,
  0x8000000000008002#64, 0x8000000000000080#64, 0x000000000000800a#64, 0x800000008000000a#64,
  0x8000000080008081#64, 0x8000000000008080#64, 0x0000000080000001#64, 0x8000000080008008#64]

/-- `prepareTheta`, KeccakF-1600-64.macros.h:35-40. -/
def prepareTheta (A : Lanes) : Cols :=
  let Aba := A.ba
  let Abe := A.be
  let Abi := A.bi
  let Abo := A.bo
  let Abu := A.bu
  let Aga := A.ga
  let Age := A.ge
  let Agi := A.gi
  let Ago := A.go
  let Agu := A.gu
  let Aka := A.ka
  let Ake := A.ke
  let Aki := A.ki
  let Ako := A.ko
  let Aku := A.ku
  let Ama := A.ma
  let Ame := A.me
  let Ami := A.mi
  let Amo := A.mo
  let Amu := A.mu
  let Asa := A.sa
  let Ase := A.se
  let Asi := A.si
  let Aso := A.so
  let Asu := A.su
  let Ca := Aba ^^^ Aga ^^^ Aka ^^^ Ama ^^^ Asa
  let Ce := Abe ^^^ Age ^^^ Ake ^^^ Ame ^^^ Ase
  let Ci := Abi ^^^ Agi ^^^ Aki ^^^ Ami ^^^ Asi
  let Co := Abo ^^^ Ago ^^^ Ako ^^^ Amo ^^^ Aso
  let Cu := Abu ^^^ Agu ^^^ Aku ^^^ Amu ^^^ Asu
  ⟨Ca, Ce, Ci, Co, Cu⟩

/-- `thetaRhoPiChiIotaPrepareTheta(i, A, E)` with `rc = KeccakF1600RoundConstants[i]`, KeccakF-1600-64.macros.h:45-156. -/
def thetaRhoPiChiIotaPrepareTheta (rc : U64) (A : Lanes) (C : Cols) : Lanes × Cols :=
  let Aba := A.ba
  let Abe := A.be
  let Abi := A.bi
  let Abo := A.bo
  let Abu := A.bu
  let Aga := A.ga
  let Age := A.ge
  let Agi := A.gi
  let Ago := A.go
  let Agu := A.gu
  let Aka := A.ka
  let Ake := A.ke
  let Aki := A.ki
  let Ako := A.ko
  let Aku := A.ku
  let Ama := A.ma
  let Ame := A.me
  let Ami := A.mi
  let Amo := A.mo
  let Amu := A.mu
  let Asa := A.sa
  let Ase := A.se
  let Asi := A.si
  let Aso := A.so
  let Asu := A.su
  let Ca := C.a
  let Ce := C.e
  let Ci := C.i
  let Co := C.o
  let Cu := C.u
  let Da := Cu ^^^ (ROL64 Ce 1)
  let De := Ca ^^^ (ROL64 Ci 1)
  let Di := Ce ^^^ (ROL64 Co 1)
  let Do := Ci ^^^ (ROL64 Cu 1)
  let Du := Co ^^^ (ROL64 Ca 1)
  let Aba := Aba ^^^ Da
  let Bba := Aba
  let Age := Age ^^^ De
  let Bbe := (ROL64 Age 44)
  let Aki := Aki ^^^ Di
  let Bbi := (ROL64 Aki 43)
  let Amo := Amo ^^^ Do
  let Bbo := (ROL64 Amo 21)
  let Asu := Asu ^^^ Du
  let Bbu := (ROL64 Asu 14)
  let Eba := Bba ^^^ (Bbe ||| Bbi)
  let Eba := Eba ^^^ rc
  let Ca := Eba
  let Ebe := Bbe ^^^ ((~~~ Bbi) ||| Bbo)
  let Ce := Ebe
  let Ebi := Bbi ^^^ (Bbo &&& Bbu)
  let Ci := Ebi
  let Ebo := Bbo ^^^ (Bbu ||| Bba)
  let Co := Ebo
  let Ebu := Bbu ^^^ (Bba &&& Bbe)
  let Cu := Ebu
  let Abo := Abo ^^^ Do
  let Bga := (ROL64 Abo 28)
  let Agu := Agu ^^^ Du
  let Bge := (ROL64 Agu 20)
  let Aka := Aka ^^^ Da
  let Bgi := (ROL64 Aka 3)
  let Ame := Ame ^^^ De
  let Bgo := (ROL64 Ame 45)
  let Asi := Asi ^^^ Di
  let Bgu := (ROL64 Asi 61)
  let Ega := Bga ^^^ (Bge ||| Bgi)
  let Ca := Ca ^^^ Ega
  let Ege := Bge ^^^ (Bgi &&& Bgo)
  let Ce := Ce ^^^ Ege
  let Egi := Bgi ^^^ (Bgo ||| (~~~ Bgu))
  let Ci := Ci ^^^ Egi
  let Ego := Bgo ^^^ (Bgu ||| Bga)
  let Co := Co ^^^ Ego
  let Egu := Bgu ^^^ (Bga &&& Bge)
  let Cu := Cu ^^^ Egu
  let Abe := Abe ^^^ De
  let Bka := (ROL64 Abe 1)
  let Agi := Agi ^^^ Di
  let Bke := (ROL64 Agi 6)
  let Ako := Ako ^^^ Do
  let Bki := (ROL64 Ako 25)
  let Amu := Amu ^^^ Du
  let Bko := (ROL64 Amu 8)
  let Asa := Asa ^^^ Da
  let Bku := (ROL64 Asa 18)
  let Eka := Bka ^^^ (Bke ||| Bki)
  let Ca := Ca ^^^ Eka
  let Eke := Bke ^^^ (Bki &&& Bko)
  let Ce := Ce ^^^ Eke
  let Eki := Bki ^^^ ((~~~ Bko) &&& Bku)
  let Ci := Ci ^^^ Eki
  let Eko := (~~~ Bko) ^^^ (Bku ||| Bka)
  let Co := Co ^^^ Eko
  let Eku := Bku ^^^ (Bka &&& Bke)
  let Cu := Cu ^^^ Eku
  let Abu := Abu ^^^ Du
  let Bma := (ROL64 Abu 27)
  let Aga := Aga ^^^ Da
  let Bme := (ROL64 Aga 36)
  let Ake := Ake ^^^ De
  let Bmi := (ROL64 Ake 10)
  let Ami := Ami ^^^ Di
  let Bmo := (ROL64 Ami 15)
  let Aso := Aso ^^^ Do
  let Bmu := (ROL64 Aso 56)
  let Ema := Bma ^^^ (Bme &&& Bmi)
  let Ca := Ca ^^^ Ema
  let Eme := Bme ^^^ (Bmi ||| Bmo)
  let Ce := Ce ^^^ Eme
  let Emi := Bmi ^^^ ((~~~ Bmo) ||| Bmu)
  let Ci := Ci ^^^ Emi
  let Emo := (~~~ Bmo) ^^^ (Bmu &&& Bma)
  let Co := Co ^^^ Emo
  let Emu := Bmu ^^^ (Bma ||| Bme)
  let Cu := Cu ^^^ Emu
  let Abi := Abi ^^^ Di
  let Bsa := (ROL64 Abi 62)
  let Ago := Ago ^^^ Do
  let Bse := (ROL64 Ago 55)
  let Aku := Aku ^^^ Du
  let Bsi := (ROL64 Aku 39)
  let Ama := Ama ^^^ Da
  let Bso := (ROL64 Ama 41)
  let Ase := Ase ^^^ De
  let Bsu := (ROL64 Ase 2)
  let Esa := Bsa ^^^ ((~~~ Bse) &&& Bsi)
  let Ca := Ca ^^^ Esa
  let Ese := (~~~ Bse) ^^^ (Bsi ||| Bso)
  let Ce := Ce ^^^ Ese
  let Esi := Bsi ^^^ (Bso &&& Bsu)
  let Ci := Ci ^^^ Esi
  let Eso := Bso ^^^ (Bsu ||| Bsa)
  let Co := Co ^^^ Eso
  let Esu := Bsu ^^^ (Bsa &&& Bse)
  let Cu := Cu ^^^ Esu
  (⟨Eba, Ebe, Ebi, Ebo, Ebu, Ega, Ege, Egi, Ego, Egu, Eka, Eke, Eki, Eko, Eku, Ema, Eme, Emi, Emo, Emu, Esa, Ese, Esi, Eso, Esu⟩, ⟨Ca, Ce, Ci, Co, Cu⟩)

/-- `thetaRhoPiChiIota(i, A, E)` with `rc = KeccakF1600RoundConstants[i]`, KeccakF-1600-64.macros.h:161-247. -/
def thetaRhoPiChiIota (rc : U64) (A : Lanes) (C : Cols) : Lanes :=
  let Aba := A.ba
  let Abe := A.be
  let Abi := A.bi
  let Abo := A.bo
  let Abu := A.bu
  let Aga := A.ga
  let Age := A.ge
  let Agi := A.gi
  let Ago := A.go
  let Agu := A.gu
  let Aka := A.ka
  let Ake := A.ke
  let Aki := A.ki
  let Ako := A.ko
  let Aku := A.ku
  let Ama := A.ma
  let Ame := A.me
  let Ami := A.mi
  let Amo := A.mo
  let Amu := A.mu
  let Asa := A.sa
  let Ase := A.se
  let Asi := A.si
  let Aso := A.so
  let Asu := A.su
  let Ca := C.a
  let Ce := C.e
  let Ci := C.i
  let Co := C.o
  let Cu := C.u
  let Da := Cu ^^^ (ROL64 Ce 1)
  let De := Ca ^^^ (ROL64 Ci 1)
  let Di := Ce ^^^ (ROL64 Co 1)
  let Do := Ci ^^^ (ROL64 Cu 1)
  let Du := Co ^^^ (ROL64 Ca 1)
  let Aba := Aba ^^^ Da
  let Bba := Aba
  let Age := Age ^^^ De
  let Bbe := (ROL64 Age 44)
  let Aki := Aki ^^^ Di
  let Bbi := (ROL64 Aki 43)
  let Amo := Amo ^^^ Do
  let Bbo := (ROL64 Amo 21)
  let Asu := Asu ^^^ Du
  let Bbu := (ROL64 Asu 14)
  let Eba := Bba ^^^ (Bbe ||| Bbi)
  let Eba := Eba ^^^ rc
  let Ebe := Bbe ^^^ ((~~~ Bbi) ||| Bbo)
  let Ebi := Bbi ^^^ (Bbo &&& Bbu)
  let Ebo := Bbo ^^^ (Bbu ||| Bba)
  let Ebu := Bbu ^^^ (Bba &&& Bbe)
  let Abo := Abo ^^^ Do
  let Bga := (ROL64 Abo 28)
  let Agu := Agu ^^^ Du
  let Bge := (ROL64 Agu 20)
  let Aka := Aka ^^^ Da
  let Bgi := (ROL64 Aka 3)
  let Ame := Ame ^^^ De
  let Bgo := (ROL64 Ame 45)
  let Asi := Asi ^^^ Di
  let Bgu := (ROL64 Asi 61)
  let Ega := Bga ^^^ (Bge ||| Bgi)
  let Ege := Bge ^^^ (Bgi &&& Bgo)
  let Egi := Bgi ^^^ (Bgo ||| (~~~ Bgu))
  let Ego := Bgo ^^^ (Bgu ||| Bga)
  let Egu := Bgu ^^^ (Bga &&& Bge)
  let Abe := Abe ^^^ De
  let Bka := (ROL64 Abe 1)
  let Agi := Agi ^^^ Di
  let Bke := (ROL64 Agi 6)
  let Ako := Ako ^^^ Do
  let Bki := (ROL64 Ako 25)
  let Amu := Amu ^^^ Du
  let Bko := (ROL64 Amu 8)
  let Asa := Asa ^^^ Da
  let Bku := (ROL64 Asa 18)
  let Eka := Bka ^^^ (Bke ||| Bki)
  let Eke := Bke ^^^ (Bki &&& Bko)
  let Eki := Bki ^^^ ((~~~ Bko) &&& Bku)
  let Eko := (~~~ Bko) ^^^ (Bku ||| Bka)
  let Eku := Bku ^^^ (Bka &&& Bke)
  let Abu := Abu ^^^ Du
  let Bma := (ROL64 Abu 27)
  let Aga := Aga ^^^ Da
  let Bme := (ROL64 Aga 36)
  let Ake := Ake ^^^ De
  let Bmi := (ROL64 Ake 10)
  let Ami := Ami ^^^ Di
  let Bmo := (ROL64 Ami 15)
  let Aso := Aso ^^^ Do
  let Bmu := (ROL64 Aso 56)
  let Ema := Bma ^^^ (Bme &&& Bmi)
  let Eme := Bme ^^^ (Bmi ||| Bmo)
  let Emi := Bmi ^^^ ((~~~ Bmo) ||| Bmu)
  let Emo := (~~~ Bmo) ^^^ (Bmu &&& Bma)
  let Emu := Bmu ^^^ (Bma ||| Bme)
  let Abi := Abi ^^^ Di
  let Bsa := (ROL64 Abi 62)
  let Ago := Ago ^^^ Do
  let Bse := (ROL64 Ago 55)
  let Aku := Aku ^^^ Du
  let Bsi := (ROL64 Aku 39)
  let Ama := Ama ^^^ Da
  let Bso := (ROL64 Ama 41)
  let Ase := Ase ^^^ De
  let Bsu := (ROL64 Ase 2)
  let Esa := Bsa ^^^ ((~~~ Bse) &&& Bsi)
  let Ese := (~~~ Bse) ^^^ (Bsi ||| Bso)
  let Esi := Bsi ^^^ (Bso &&& Bsu)
  let Eso := Bso ^^^ (Bsu ||| Bsa)
  let Esu := Bsu ^^^ (Bsa &&& Bse)
  ⟨Eba, Ebe, Ebi, Ebo, Ebu, Ega, Ege, Egi, Ego, Egu, Eka, Eke, Eki, Eko, Eku, Ema, Eme, Emi, Emo, Emu, Esa, Ese, Esi, Eso, Esu⟩

/-- `rounds` up to the copy to the state, KeccakF-1600-unrolling.macros.h:15-40: `prepareTheta`, 23 rounds that also prepare the next
theta, alternating between `A` and `E` (the generator checks that the macro lists rounds 0 to 22 in this order), and a last round without. -/
def rounds (A : Lanes) : Lanes :=
  let (E, C) := (List.range 23).foldl (fun (q : Lanes × Cols) i => thetaRhoPiChiIotaPrepareTheta (roundConstants.getD i 0#64) q.1 q.2) (A, prepareTheta A)
  thetaRhoPiChiIota (roundConstants.getD 23 0#64) E C

/-- `state[i]`: the state is an array of 25 words, so constant indices below 25 are in range. KeccakF-1600-opt64.c:97-126. -/
def word (S : List U64) (i : Nat) : U64 := S.getD i 0#64

/-- `copyFromState`, KeccakF-1600-64.macros.h:648-673. -/
def copyFromState (state : List U64) : Lanes :=
  ⟨word state 0, word state 1, word state 2, word state 3, word state 4, word state 5, word state 6, word state 7, word state 8, word state 9, word state 10, word state 11, word state 12, word state 13, word state 14, word state 15, word state 16, word state 17, word state 18, word state 19, word state 20, word state 21, word state 22, word state 23, word state 24⟩

/-- `copyToState`, KeccakF-1600-64.macros.h:675-700: all 25 words are assigned. -/
def copyToState (X : Lanes) : List U64 :=
  [X.ba, X.be, X.bi, X.bo, X.bu, X.ga, X.ge, X.gi, X.go, X.gu, X.ka, X.ke, X.ki, X.ko, X.ku, X.ma, X.me, X.mi, X.mo, X.mu, X.sa, X.se, X.si, X.so, X.su]

/-- `copyFromStateAndXor576bits`, KeccakF-1600-64.macros.h:486-511. -/
def copyFromStateAndXor576bits (state input : List U64) : Lanes :=
  ⟨word state 0 ^^^ word input 0, word state 1 ^^^ word input 1, word state 2 ^^^ word input 2, word state 3 ^^^ word input 3, word state 4 ^^^ word input 4,
    word state 5 ^^^ word input 5, word state 6 ^^^ word input 6, word state 7 ^^^ word input 7, word state 8 ^^^ word input 8, word state 9,
    word state 10, word state 11, word state 12, word state 13, word state 14,
    word state 15, word state 16, word state 17, word state 18, word state 19,
    word state 20, word state 21, word state 22, word state 23, word state 24⟩

/-- `copyFromStateAndXor832bits`, KeccakF-1600-64.macros.h:513-538. -/
def copyFromStateAndXor832bits (state input : List U64) : Lanes :=
  ⟨word state 0 ^^^ word input 0, word state 1 ^^^ word input 1, word state 2 ^^^ word input 2, word state 3 ^^^ word input 3, word state 4 ^^^ word input 4,
    word state 5 ^^^ word input 5, word state 6 ^^^ word input 6, word state 7 ^^^ word input 7, word state 8 ^^^ word input 8, word state 9 ^^^ word input 9,
    word state 10 ^^^ word input 10, word state 11 ^^^ word input 11, word state 12 ^^^ word input 12, word state 13, word state 14,
    word state 15, word state 16, word state 17, word state 18, word state 19,
    word state 20, word state 21, word state 22, word state 23, word state 24⟩

/-- `copyFromStateAndXor1024bits`, KeccakF-1600-64.macros.h:540-565. -/
def copyFromStateAndXor1024bits (state input : List U64) : Lanes :=
  ⟨word state 0 ^^^ word input 0, word state 1 ^^^ word input 1, word state 2 ^^^ word input 2, word state 3 ^^^ word input 3, word state 4 ^^^ word input 4,
    word state 5 ^^^ word input 5, word state 6 ^^^ word input 6, word state 7 ^^^ word input 7, word state 8 ^^^ word input 8, word state 9 ^^^ word input 9,
    word state 10 ^^^ word input 10, word state 11 ^^^ word input 11, word state 12 ^^^ word input 12, word state 13 ^^^ word input 13, word state 14 ^^^ word input 14,
    word state 15 ^^^ word input 15, word state 16, word state 17, word state 18, word state 19,
    word state 20, word state 21, word state 22, word state 23, word state 24⟩

/-- `copyFromStateAndXor1088bits`, KeccakF-1600-64.macros.h:567-592. -/
def copyFromStateAndXor1088bits (state input : List U64) : Lanes :=
  ⟨word state 0 ^^^ word input 0, word state 1 ^^^ word input 1, word state 2 ^^^ word input 2, word state 3 ^^^ word input 3, word state 4 ^^^ word input 4,
    word state 5 ^^^ word input 5, word state 6 ^^^ word input 6, word state 7 ^^^ word input 7, word state 8 ^^^ word input 8, word state 9 ^^^ word input 9,
    word state 10 ^^^ word input 10, word state 11 ^^^ word input 11, word state 12 ^^^ word input 12, word state 13 ^^^ word input 13, word state 14 ^^^ word input 14,
    word state 15 ^^^ word input 15, word state 16 ^^^ word input 16, word state 17, word state 18, word state 19,
    word state 20, word state 21, word state 22, word state 23, word state 24⟩

/-- `copyFromStateAndXor1152bits`, KeccakF-1600-64.macros.h:594-619. -/
def copyFromStateAndXor1152bits (state input : List U64) : Lanes :=
  ⟨word state 0 ^^^ word input 0, word state 1 ^^^ word input 1, word state 2 ^^^ word input 2, word state 3 ^^^ word input 3, word state 4 ^^^ word input 4,
    word state 5 ^^^ word input 5, word state 6 ^^^ word input 6, word state 7 ^^^ word input 7, word state 8 ^^^ word input 8, word state 9 ^^^ word input 9,
    word state 10 ^^^ word input 10, word state 11 ^^^ word input 11, word state 12 ^^^ word input 12, word state 13 ^^^ word input 13, word state 14 ^^^ word input 14,
    word state 15 ^^^ word input 15, word state 16 ^^^ word input 16, word state 17 ^^^ word input 17, word state 18, word state 19,
    word state 20, word state 21, word state 22, word state 23, word state 24⟩

/-- `copyFromStateAndXor1344bits`, KeccakF-1600-64.macros.h:621-646. -/
def copyFromStateAndXor1344bits (state input : List U64) : Lanes :=
  ⟨word state 0 ^^^ word input 0, word state 1 ^^^ word input 1, word state 2 ^^^ word input 2, word state 3 ^^^ word input 3, word state 4 ^^^ word input 4,
    word state 5 ^^^ word input 5, word state 6 ^^^ word input 6, word state 7 ^^^ word input 7, word state 8 ^^^ word input 8, word state 9 ^^^ word input 9,
    word state 10 ^^^ word input 10, word state 11 ^^^ word input 11, word state 12 ^^^ word input 12, word state 13 ^^^ word input 13, word state 14 ^^^ word input 14,
    word state 15 ^^^ word input 15, word state 16 ^^^ word input 16, word state 17 ^^^ word input 17, word state 18 ^^^ word input 18, word state 19 ^^^ word input 19,
    word state 20 ^^^ word input 20, word state 21, word state 22, word state 23, word state 24⟩

end Verif.Model.KeccakC
