import Verif.Model.KeccakCPerm

/-!
# The Keccak-f[1600] macros of /repo/keccak in every build setting

Written by tools/gen_keccakbuild.py, one `let` per C assignment; a C variable that is assigned twice is shadowed. A round macro is called with (A, E) or (E, A); it
returns its second argument as it leaves it, its third argument and the column sums. The generator checks that nothing else is read before it is written.
-/

namespace Verif.Model.KeccakC
open Verif

/-- `ROL64` of the MMX build, KeccakF-1600-opt64.c:77 (lane by lane also that of the SSE build, line 34). -/
def rol64 (a : U64) (o : Nat) : U64 := (a <<< o) ||| (a >>> (64 - o))

/-- `__m128i` and `V6464`, KeccakF-1600-opt64.c:24-29: `lo` is `v64[0]`. -/
structure V128 where
  lo : U64
  hi : U64
  deriving DecidableEq

/-- `_mm_xor_si128`: `XOR64`, `XOR128`, KeccakF-1600-opt64.c:36, 45. -/
def xor128 (a b : V128) : V128 := ⟨a.lo ^^^ b.lo, a.hi ^^^ b.hi⟩
/-- `_mm_andnot_si128`: `ANDnu64`, `ANDnu128`, KeccakF-1600-opt64.c:31, 39. -/
def andnot128 (a b : V128) : V128 := ⟨~~~ a.lo &&& b.lo, ~~~ a.hi &&& b.hi⟩
/-- `ROL64`, `ROL64in128`, KeccakF-1600-opt64.c:34, 43: `_mm_slli_epi64` and `_mm_srli_epi64` shift each half by itself. -/
def rol128 (a : V128) (o : Nat) : V128 := ⟨rol64 a.lo o, rol64 a.hi o⟩
/-- `_mm_loadl_epi64`: `LOAD64`, `CONST64`, KeccakF-1600-opt64.c:32-33. -/
def load64 (a : U64) : V128 := ⟨a, 0#64⟩
/-- `_mm_load_si128`, `_mm_loadu_si128` of `s[k]`, KeccakF-1600-opt64.c:41-42. Alignment is not modelled. -/
def load128 (s : List U64) (k : Nat) : V128 := ⟨word s k, word s (k + 1)⟩
/-- `_mm_unpacklo_epi64`: `GET64LO`, KeccakF-1600-opt64.c:47. -/
def getLo (a b : V128) : V128 := ⟨a.lo, b.lo⟩
/-- `_mm_unpackhi_epi64`: `GET64HI`, KeccakF-1600-opt64.c:48. -/
def getHi (a b : V128) : V128 := ⟨a.hi, b.hi⟩
/-- `_mm_shuffle_epi32(a, 0xEE)`: `COPY64HI2LO`, KeccakF-1600-opt64.c:49. -/
def hiToLo (a : V128) : V128 := ⟨a.hi, a.hi⟩
/-- `_mm_setzero_si128`: `ZERO128`, KeccakF-1600-opt64.c:51. -/
def zero128 : V128 := ⟨0#64, 0#64⟩

/-- The variables of KeccakF-1600-simd128.macros.h:14-40 that live from one round to the next (`Abage` ... `Asu` or `Ebage` ... `Esu`). -/
structure Lanes128 where
  bage : V128
  begi : V128
  bi : V128
  bo : V128
  bu : V128
  ga : V128
  go : V128
  gu : V128
  kame : V128
  kemi : V128
  ki : V128
  ko : V128
  ku : V128
  ma : V128
  mo : V128
  mu : V128
  sa : V128
  se : V128
  si : V128
  so : V128
  su : V128

/-- `Cae`, `Cio`, `Cu`, KeccakF-1600-simd128.macros.h:31-32. -/
structure Cols128 where
  ae : V128
  io : V128
  u : V128

/-- `thetaRhoPiChiIotaPrepareTheta(i, A, E)` with `rc = KeccakF1600RoundConstants[i]`, KeccakF-1600-64.macros.h:45-156. -/
def roundBebi (rc : U64) (A : Lanes) (C : Cols) : Lanes × Lanes × Cols :=
  let Aba := A.ba
  let Abe := A.be
  let Abi := A.bi
  let Abo := A.bo
  let Abu := A.bu
  let Aga := A.ga
  let Age := A.ge
  let Agi := A.gi
  let Ago := A.go
  let Agu := A.gu
  let Aka := A.ka
  let Ake := A.ke
  let Aki := A.ki
  let Ako := A.ko
  let Aku := A.ku
  let Ama := A.ma
  let Ame := A.me
  let Ami := A.mi
  let Amo := A.mo
  let Amu := A.mu
  let Asa := A.sa
  let Ase := A.se
  let Asi := A.si
  let Aso := A.so
  let Asu := A.su
  let Ca := C.a
  let Ce := C.e
  let Ci := C.i
  let Co := C.o
  let Cu := C.u
  let Da := Cu ^^^ (ROL64 Ce 1)
  let De := Ca ^^^ (ROL64 Ci 1)
  let Di := Ce ^^^ (ROL64 Co 1)
  let Do := Ci ^^^ (ROL64 Cu 1)
  let Du := Co ^^^ (ROL64 Ca 1)
  let Aba := Aba ^^^ Da
  let Bba := Aba
  let Age := Age ^^^ De
  let Bbe := ROL64 Age 44
  let Aki := Aki ^^^ Di
  let Bbi := ROL64 Aki 43
  let Amo := Amo ^^^ Do
  let Bbo := ROL64 Amo 21
  let Asu := Asu ^^^ Du
  let Bbu := ROL64 Asu 14
  let Eba := Bba ^^^ (Bbe ||| Bbi)
  let Eba := Eba ^^^ rc
  let Ca := Eba
  let Ebe := Bbe ^^^ ((~~~ Bbi) ||| Bbo)
  let Ce := Ebe
  let Ebi := Bbi ^^^ (Bbo &&& Bbu)
  let Ci := Ebi
  let Ebo := Bbo ^^^ (Bbu ||| Bba)
  let Co := Ebo
  let Ebu := Bbu ^^^ (Bba &&& Bbe)
  let Cu := Ebu
  let Abo := Abo ^^^ Do
  let Bga := ROL64 Abo 28
  let Agu := Agu ^^^ Du
  let Bge := ROL64 Agu 20
  let Aka := Aka ^^^ Da
  let Bgi := ROL64 Aka 3
  let Ame := Ame ^^^ De
  let Bgo := ROL64 Ame 45
  let Asi := Asi ^^^ Di
  let Bgu := ROL64 Asi 61
  let Ega := Bga ^^^ (Bge ||| Bgi)
  let Ca := Ca ^^^ Ega
  let Ege := Bge ^^^ (Bgi &&& Bgo)
  let Ce := Ce ^^^ Ege
  let Egi := Bgi ^^^ (Bgo ||| (~~~ Bgu))
  let Ci := Ci ^^^ Egi
  let Ego := Bgo ^^^ (Bgu ||| Bga)
  let Co := Co ^^^ Ego
  let Egu := Bgu ^^^ (Bga &&& Bge)
  let Cu := Cu ^^^ Egu
  let Abe := Abe ^^^ De
  let Bka := ROL64 Abe 1
  let Agi := Agi ^^^ Di
  let Bke := ROL64 Agi 6
  let Ako := Ako ^^^ Do
  let Bki := ROL64 Ako 25
  let Amu := Amu ^^^ Du
  let Bko := ROL64 Amu 8
  let Asa := Asa ^^^ Da
  let Bku := ROL64 Asa 18
  let Eka := Bka ^^^ (Bke ||| Bki)
  let Ca := Ca ^^^ Eka
  let Eke := Bke ^^^ (Bki &&& Bko)
  let Ce := Ce ^^^ Eke
  let Eki := Bki ^^^ ((~~~ Bko) &&& Bku)
  let Ci := Ci ^^^ Eki
  let Eko := (~~~ Bko) ^^^ (Bku ||| Bka)
  let Co := Co ^^^ Eko
  let Eku := Bku ^^^ (Bka &&& Bke)
  let Cu := Cu ^^^ Eku
  let Abu := Abu ^^^ Du
  let Bma := ROL64 Abu 27
  let Aga := Aga ^^^ Da
  let Bme := ROL64 Aga 36
  let Ake := Ake ^^^ De
  let Bmi := ROL64 Ake 10
  let Ami := Ami ^^^ Di
  let Bmo := ROL64 Ami 15
  let Aso := Aso ^^^ Do
  let Bmu := ROL64 Aso 56
  let Ema := Bma ^^^ (Bme &&& Bmi)
  let Ca := Ca ^^^ Ema
  let Eme := Bme ^^^ (Bmi ||| Bmo)
  let Ce := Ce ^^^ Eme
  let Emi := Bmi ^^^ ((~~~ Bmo) ||| Bmu)
  let Ci := Ci ^^^ Emi
  let Emo := (~~~ Bmo) ^^^ (Bmu &&& Bma)
  let Co := Co ^^^ Emo
  let Emu := Bmu ^^^ (Bma ||| Bme)
  let Cu := Cu ^^^ Emu
  let Abi := Abi ^^^ Di
  let Bsa := ROL64 Abi 62
  let Ago := Ago ^^^ Do
  let Bse := ROL64 Ago 55
  let Aku := Aku ^^^ Du
  let Bsi := ROL64 Aku 39
  let Ama := Ama ^^^ Da
  let Bso := ROL64 Ama 41
  let Ase := Ase ^^^ De
  let Bsu := ROL64 Ase 2
  let Esa := Bsa ^^^ ((~~~ Bse) &&& Bsi)
  let Ca := Ca ^^^ Esa
  let Ese := (~~~ Bse) ^^^ (Bsi ||| Bso)
  let Ce := Ce ^^^ Ese
  let Esi := Bsi ^^^ (Bso &&& Bsu)
  let Ci := Ci ^^^ Esi
  let Eso := Bso ^^^ (Bsu ||| Bsa)
  let Co := Co ^^^ Eso
  let Esu := Bsu ^^^ (Bsa &&& Bse)
  let Cu := Cu ^^^ Esu
  (⟨Aba, Abe, Abi, Abo, Abu, Aga, Age, Agi, Ago, Agu, Aka, Ake, Aki, Ako, Aku, Ama, Ame, Ami, Amo, Amu, Asa, Ase, Asi, Aso, Asu⟩,
   ⟨Eba, Ebe, Ebi, Ebo, Ebu, Ega, Ege, Egi, Ego, Egu, Eka, Eke, Eki, Eko, Eku, Ema, Eme, Emi, Emo, Emu, Esa, Ese, Esi, Eso, Esu⟩,
   ⟨Ca, Ce, Ci, Co, Cu⟩)

/-- `thetaRhoPiChiIota(i, A, E)` with `rc = KeccakF1600RoundConstants[i]`, KeccakF-1600-64.macros.h:161-247. -/
def lastBebi (rc : U64) (A : Lanes) (C : Cols) : Lanes × Lanes × Cols :=
  let Aba := A.ba
  let Abe := A.be
  let Abi := A.bi
  let Abo := A.bo
  let Abu := A.bu
  let Aga := A.ga
  let Age := A.ge
  let Agi := A.gi
  let Ago := A.go
  let Agu := A.gu
  let Aka := A.ka
  let Ake := A.ke
  let Aki := A.ki
  let Ako := A.ko
  let Aku := A.ku
  let Ama := A.ma
  let Ame := A.me
  let Ami := A.mi
  let Amo := A.mo
  let Amu := A.mu
  let Asa := A.sa
  let Ase := A.se
  let Asi := A.si
  let Aso := A.so
  let Asu := A.su
  let Ca := C.a
  let Ce := C.e
  let Ci := C.i
  let Co := C.o
  let Cu := C.u
  let Da := Cu ^^^ (ROL64 Ce 1)
  let De := Ca ^^^ (ROL64 Ci 1)
  let Di := Ce ^^^ (ROL64 Co 1)
  let Do := Ci ^^^ (ROL64 Cu 1)
  let Du := Co ^^^ (ROL64 Ca 1)
  let Aba := Aba ^^^ Da
  let Bba := Aba
  let Age := Age ^^^ De
  let Bbe := ROL64 Age 44
  let Aki := Aki ^^^ Di
  let Bbi := ROL64 Aki 43
  let Amo := Amo ^^^ Do
  let Bbo := ROL64 Amo 21
  let Asu := Asu ^^^ Du
  let Bbu := ROL64 Asu 14
  let Eba := Bba ^^^ (Bbe ||| Bbi)
  let Eba := Eba ^^^ rc
  let Ebe := Bbe ^^^ ((~~~ Bbi) ||| Bbo)
  let Ebi := Bbi ^^^ (Bbo &&& Bbu)
  let Ebo := Bbo ^^^ (Bbu ||| Bba)
  let Ebu := Bbu ^^^ (Bba &&& Bbe)
  let Abo := Abo ^^^ Do
  let Bga := ROL64 Abo 28
  let Agu := Agu ^^^ Du
  let Bge := ROL64 Agu 20
  let Aka := Aka ^^^ Da
  let Bgi := ROL64 Aka 3
  let Ame := Ame ^^^ De
  let Bgo := ROL64 Ame 45
  let Asi := Asi ^^^ Di
  let Bgu := ROL64 Asi 61
  let Ega := Bga ^^^ (Bge ||| Bgi)
  let Ege := Bge ^^^ (Bgi &&& Bgo)
  let Egi := Bgi ^^^ (Bgo ||| (~~~ Bgu))
  let Ego := Bgo ^^^ (Bgu ||| Bga)
  let Egu := Bgu ^^^ (Bga &&& Bge)
  let Abe := Abe ^^^ De
  let Bka := ROL64 Abe 1
  let Agi := Agi ^^^ Di
  let Bke := ROL64 Agi 6
  let Ako := Ako ^^^ Do
  let Bki := ROL64 Ako 25
  let Amu := Amu ^^^ Du
  let Bko := ROL64 Amu 8
  let Asa := Asa ^^^ Da
  let Bku := ROL64 Asa 18
  let Eka := Bka ^^^ (Bke ||| Bki)
  let Eke := Bke ^^^ (Bki &&& Bko)
  let Eki := Bki ^^^ ((~~~ Bko) &&& Bku)
  let Eko := (~~~ Bko) ^^^ (Bku ||| Bka)
  let Eku := Bku ^^^ (Bka &&& Bke)
  let Abu := Abu ^^^ Du
  let Bma := ROL64 Abu 27
  let Aga := Aga ^^^ Da
  let Bme := ROL64 Aga 36
  let Ake := Ake ^^^ De
  let Bmi := ROL64 Ake 10
  let Ami := Ami ^^^ Di
  let Bmo := ROL64 Ami 15
  let Aso := Aso ^^^ Do
  let Bmu := ROL64 Aso 56
  let Ema := Bma ^^^ (Bme &&& Bmi)
  let Eme := Bme ^^^ (Bmi ||| Bmo)
  let Emi := Bmi ^^^ ((~~~ Bmo) ||| Bmu)
  let Emo := (~~~ Bmo) ^^^ (Bmu &&& Bma)
  let Emu := Bmu ^^^ (Bma ||| Bme)
  let Abi := Abi ^^^ Di
  let Bsa := ROL64 Abi 62
  let Ago := Ago ^^^ Do
  let Bse := ROL64 Ago 55
  let Aku := Aku ^^^ Du
  let Bsi := ROL64 Aku 39
  let Ama := Ama ^^^ Da
  let Bso := ROL64 Ama 41
  let Ase := Ase ^^^ De
  let Bsu := ROL64 Ase 2
  let Esa := Bsa ^^^ ((~~~ Bse) &&& Bsi)
  let Ese := (~~~ Bse) ^^^ (Bsi ||| Bso)
  let Esi := Bsi ^^^ (Bso &&& Bsu)
  let Eso := Bso ^^^ (Bsu ||| Bsa)
  let Esu := Bsu ^^^ (Bsa &&& Bse)
  (⟨Aba, Abe, Abi, Abo, Abu, Aga, Age, Agi, Ago, Agu, Aka, Ake, Aki, Ako, Aku, Ama, Ame, Ami, Amo, Amu, Asa, Ase, Asi, Aso, Asu⟩,
   ⟨Eba, Ebe, Ebi, Ebo, Ebu, Ega, Ege, Egi, Ego, Egu, Eka, Eke, Eki, Eko, Eku, Ema, Eme, Emi, Emo, Emu, Esa, Ese, Esi, Eso, Esu⟩,
   ⟨Ca, Ce, Ci, Co, Cu⟩)

/-- `thetaRhoPiChiIotaPrepareTheta(i, A, E)` with `rc = KeccakF1600RoundConstants[i]`, KeccakF-1600-64.macros.h:253-364. -/
def roundPlain (rc : U64) (A : Lanes) (C : Cols) : Lanes × Lanes × Cols :=
  let Aba := A.ba
  let Abe := A.be
  let Abi := A.bi
  let Abo := A.bo
  let Abu := A.bu
  let Aga := A.ga
  let Age := A.ge
  let Agi := A.gi
  let Ago := A.go
  let Agu := A.gu
  let Aka := A.ka
  let Ake := A.ke
  let Aki := A.ki
  let Ako := A.ko
  let Aku := A.ku
  let Ama := A.ma
  let Ame := A.me
  let Ami := A.mi
  let Amo := A.mo
  let Amu := A.mu
  let Asa := A.sa
  let Ase := A.se
  let Asi := A.si
  let Aso := A.so
  let Asu := A.su
  let Ca := C.a
  let Ce := C.e
  let Ci := C.i
  let Co := C.o
  let Cu := C.u
  let Da := Cu ^^^ (ROL64 Ce 1)
  let De := Ca ^^^ (ROL64 Ci 1)
  let Di := Ce ^^^ (ROL64 Co 1)
  let Do := Ci ^^^ (ROL64 Cu 1)
  let Du := Co ^^^ (ROL64 Ca 1)
  let Aba := Aba ^^^ Da
  let Bba := Aba
  let Age := Age ^^^ De
  let Bbe := ROL64 Age 44
  let Aki := Aki ^^^ Di
  let Bbi := ROL64 Aki 43
  let Amo := Amo ^^^ Do
  let Bbo := ROL64 Amo 21
  let Asu := Asu ^^^ Du
  let Bbu := ROL64 Asu 14
  let Eba := Bba ^^^ ((~~~ Bbe) &&& Bbi)
  let Eba := Eba ^^^ rc
  let Ca := Eba
  let Ebe := Bbe ^^^ ((~~~ Bbi) &&& Bbo)
  let Ce := Ebe
  let Ebi := Bbi ^^^ ((~~~ Bbo) &&& Bbu)
  let Ci := Ebi
  let Ebo := Bbo ^^^ ((~~~ Bbu) &&& Bba)
  let Co := Ebo
  let Ebu := Bbu ^^^ ((~~~ Bba) &&& Bbe)
  let Cu := Ebu
  let Abo := Abo ^^^ Do
  let Bga := ROL64 Abo 28
  let Agu := Agu ^^^ Du
  let Bge := ROL64 Agu 20
  let Aka := Aka ^^^ Da
  let Bgi := ROL64 Aka 3
  let Ame := Ame ^^^ De
  let Bgo := ROL64 Ame 45
  let Asi := Asi ^^^ Di
  let Bgu := ROL64 Asi 61
  let Ega := Bga ^^^ ((~~~ Bge) &&& Bgi)
  let Ca := Ca ^^^ Ega
  let Ege := Bge ^^^ ((~~~ Bgi) &&& Bgo)
  let Ce := Ce ^^^ Ege
  let Egi := Bgi ^^^ ((~~~ Bgo) &&& Bgu)
  let Ci := Ci ^^^ Egi
  let Ego := Bgo ^^^ ((~~~ Bgu) &&& Bga)
  let Co := Co ^^^ Ego
  let Egu := Bgu ^^^ ((~~~ Bga) &&& Bge)
  let Cu := Cu ^^^ Egu
  let Abe := Abe ^^^ De
  let Bka := ROL64 Abe 1
  let Agi := Agi ^^^ Di
  let Bke := ROL64 Agi 6
  let Ako := Ako ^^^ Do
  let Bki := ROL64 Ako 25
  let Amu := Amu ^^^ Du
  let Bko := ROL64 Amu 8
  let Asa := Asa ^^^ Da
  let Bku := ROL64 Asa 18
  let Eka := Bka ^^^ ((~~~ Bke) &&& Bki)
  let Ca := Ca ^^^ Eka
  let Eke := Bke ^^^ ((~~~ Bki) &&& Bko)
  let Ce := Ce ^^^ Eke
  let Eki := Bki ^^^ ((~~~ Bko) &&& Bku)
  let Ci := Ci ^^^ Eki
  let Eko := Bko ^^^ ((~~~ Bku) &&& Bka)
  let Co := Co ^^^ Eko
  let Eku := Bku ^^^ ((~~~ Bka) &&& Bke)
  let Cu := Cu ^^^ Eku
  let Abu := Abu ^^^ Du
  let Bma := ROL64 Abu 27
  let Aga := Aga ^^^ Da
  let Bme := ROL64 Aga 36
  let Ake := Ake ^^^ De
  let Bmi := ROL64 Ake 10
  let Ami := Ami ^^^ Di
  let Bmo := ROL64 Ami 15
  let Aso := Aso ^^^ Do
  let Bmu := ROL64 Aso 56
  let Ema := Bma ^^^ ((~~~ Bme) &&& Bmi)
  let Ca := Ca ^^^ Ema
  let Eme := Bme ^^^ ((~~~ Bmi) &&& Bmo)
  let Ce := Ce ^^^ Eme
  let Emi := Bmi ^^^ ((~~~ Bmo) &&& Bmu)
  let Ci := Ci ^^^ Emi
  let Emo := Bmo ^^^ ((~~~ Bmu) &&& Bma)
  let Co := Co ^^^ Emo
  let Emu := Bmu ^^^ ((~~~ Bma) &&& Bme)
  let Cu := Cu ^^^ Emu
  let Abi := Abi ^^^ Di
  let Bsa := ROL64 Abi 62
  let Ago := Ago ^^^ Do
  let Bse := ROL64 Ago 55
  let Aku := Aku ^^^ Du
  let Bsi := ROL64 Aku 39
  let Ama := Ama ^^^ Da
  let Bso := ROL64 Ama 41
  let Ase := Ase ^^^ De
  let Bsu := ROL64 Ase 2
  let Esa := Bsa ^^^ ((~~~ Bse) &&& Bsi)
  let Ca := Ca ^^^ Esa
  let Ese := Bse ^^^ ((~~~ Bsi) &&& Bso)
  let Ce := Ce ^^^ Ese
  let Esi := Bsi ^^^ ((~~~ Bso) &&& Bsu)
  let Ci := Ci ^^^ Esi
  let Eso := Bso ^^^ ((~~~ Bsu) &&& Bsa)
  let Co := Co ^^^ Eso
  let Esu := Bsu ^^^ ((~~~ Bsa) &&& Bse)
  let Cu := Cu ^^^ Esu
  (⟨Aba, Abe, Abi, Abo, Abu, Aga, Age, Agi, Ago, Agu, Aka, Ake, Aki, Ako, Aku, Ama, Ame, Ami, Amo, Amu, Asa, Ase, Asi, Aso, Asu⟩,
   ⟨Eba, Ebe, Ebi, Ebo, Ebu, Ega, Ege, Egi, Ego, Egu, Eka, Eke, Eki, Eko, Eku, Ema, Eme, Emi, Emo, Emu, Esa, Ese, Esi, Eso, Esu⟩,
   ⟨Ca, Ce, Ci, Co, Cu⟩)

/-- `thetaRhoPiChiIota(i, A, E)` with `rc = KeccakF1600RoundConstants[i]`, KeccakF-1600-64.macros.h:369-455. -/
def lastPlain (rc : U64) (A : Lanes) (C : Cols) : Lanes × Lanes × Cols :=
  let Aba := A.ba
  let Abe := A.be
  let Abi := A.bi
  let Abo := A.bo
  let Abu := A.bu
  let Aga := A.ga
  let Age := A.ge
  let Agi := A.gi
  let Ago := A.go
  let Agu := A.gu
  let Aka := A.ka
  let Ake := A.ke
  let Aki := A.ki
  let Ako := A.ko
  let Aku := A.ku
  let Ama := A.ma
  let Ame := A.me
  let Ami := A.mi
  let Amo := A.mo
  let Amu := A.mu
  let Asa := A.sa
  let Ase := A.se
  let Asi := A.si
  let Aso := A.so
  let Asu := A.su
  let Ca := C.a
  let Ce := C.e
  let Ci := C.i
  let Co := C.o
  let Cu := C.u
  let Da := Cu ^^^ (ROL64 Ce 1)
  let De := Ca ^^^ (ROL64 Ci 1)
  let Di := Ce ^^^ (ROL64 Co 1)
  let Do := Ci ^^^ (ROL64 Cu 1)
  let Du := Co ^^^ (ROL64 Ca 1)
  let Aba := Aba ^^^ Da
  let Bba := Aba
  let Age := Age ^^^ De
  let Bbe := ROL64 Age 44
  let Aki := Aki ^^^ Di
  let Bbi := ROL64 Aki 43
  let Amo := Amo ^^^ Do
  let Bbo := ROL64 Amo 21
  let Asu := Asu ^^^ Du
  let Bbu := ROL64 Asu 14
  let Eba := Bba ^^^ ((~~~ Bbe) &&& Bbi)
  let Eba := Eba ^^^ rc
  let Ebe := Bbe ^^^ ((~~~ Bbi) &&& Bbo)
  let Ebi := Bbi ^^^ ((~~~ Bbo) &&& Bbu)
  let Ebo := Bbo ^^^ ((~~~ Bbu) &&& Bba)
  let Ebu := Bbu ^^^ ((~~~ Bba) &&& Bbe)
  let Abo := Abo ^^^ Do
  let Bga := ROL64 Abo 28
  let Agu := Agu ^^^ Du
  let Bge := ROL64 Agu 20
  let Aka := Aka ^^^ Da
  let Bgi := ROL64 Aka 3
  let Ame := Ame ^^^ De
  let Bgo := ROL64 Ame 45
  let Asi := Asi ^^^ Di
  let Bgu := ROL64 Asi 61
  let Ega := Bga ^^^ ((~~~ Bge) &&& Bgi)
  let Ege := Bge ^^^ ((~~~ Bgi) &&& Bgo)
  let Egi := Bgi ^^^ ((~~~ Bgo) &&& Bgu)
  let Ego := Bgo ^^^ ((~~~ Bgu) &&& Bga)
  let Egu := Bgu ^^^ ((~~~ Bga) &&& Bge)
  let Abe := Abe ^^^ De
  let Bka := ROL64 Abe 1
  let Agi := Agi ^^^ Di
  let Bke := ROL64 Agi 6
  let Ako := Ako ^^^ Do
  let Bki := ROL64 Ako 25
  let Amu := Amu ^^^ Du
  let Bko := ROL64 Amu 8
  let Asa := Asa ^^^ Da
  let Bku := ROL64 Asa 18
  let Eka := Bka ^^^ ((~~~ Bke) &&& Bki)
  let Eke := Bke ^^^ ((~~~ Bki) &&& Bko)
  let Eki := Bki ^^^ ((~~~ Bko) &&& Bku)
  let Eko := Bko ^^^ ((~~~ Bku) &&& Bka)
  let Eku := Bku ^^^ ((~~~ Bka) &&& Bke)
  let Abu := Abu ^^^ Du
  let Bma := ROL64 Abu 27
  let Aga := Aga ^^^ Da
  let Bme := ROL64 Aga 36
  let Ake := Ake ^^^ De
  let Bmi := ROL64 Ake 10
  let Ami := Ami ^^^ Di
  let Bmo := ROL64 Ami 15
  let Aso := Aso ^^^ Do
  let Bmu := ROL64 Aso 56
  let Ema := Bma ^^^ ((~~~ Bme) &&& Bmi)
  let Eme := Bme ^^^ ((~~~ Bmi) &&& Bmo)
  let Emi := Bmi ^^^ ((~~~ Bmo) &&& Bmu)
  let Emo := Bmo ^^^ ((~~~ Bmu) &&& Bma)
  let Emu := Bmu ^^^ ((~~~ Bma) &&& Bme)
  let Abi := Abi ^^^ Di
  let Bsa := ROL64 Abi 62
  let Ago := Ago ^^^ Do
  let Bse := ROL64 Ago 55
  let Aku := Aku ^^^ Du
  let Bsi := ROL64 Aku 39
  let Ama := Ama ^^^ Da
  let Bso := ROL64 Ama 41
  let Ase := Ase ^^^ De
  let Bsu := ROL64 Ase 2
  let Esa := Bsa ^^^ ((~~~ Bse) &&& Bsi)
  let Ese := Bse ^^^ ((~~~ Bsi) &&& Bso)
  let Esi := Bsi ^^^ ((~~~ Bso) &&& Bsu)
  let Eso := Bso ^^^ ((~~~ Bsu) &&& Bsa)
  let Esu := Bsu ^^^ ((~~~ Bsa) &&& Bse)
  (⟨Aba, Abe, Abi, Abo, Abu, Aga, Age, Agi, Ago, Agu, Aka, Ake, Aki, Ako, Aku, Ama, Ame, Ami, Amo, Amu, Asa, Ase, Asi, Aso, Asu⟩,
   ⟨Eba, Ebe, Ebi, Ebo, Ebu, Ega, Ege, Egi, Ego, Egu, Eka, Eke, Eki, Eko, Eku, Ema, Eme, Emi, Emo, Emu, Esa, Ese, Esi, Eso, Esu⟩,
   ⟨Ca, Ce, Ci, Co, Cu⟩)

/-- `KeccakF1600RoundConstants`, KeccakF-1600-simd64.macros.h:249-273. -/
def constants64 : List U64 := [
  0x0000000000000001#64, 0x0000000000008082#64, 0x800000000000808a#64, 0x8000000080008000#64,
  0x000000000000808b#64, 0x0000000080000001#64, 0x8000000080008081#64, 0x8000000000008009#64,
  0x000000000000008a#64, 0x0000000000000088#64, 0x0000000080008009#64, 0x000000008000000a#64,
  0x000000008000808b#64, 0x800000000000008b#64, 0x8000000000008089#64, 0x8000000000008003#64,
  0x8000000000008002#64, 0x8000000000000080#64, 0x000000000000800a#64, 0x800000008000000a#64,
  0x8000000080008081#64, 0x8000000000008080#64, 0x0000000080000001#64, 0x8000000080008008#64]

/-- `KeccakF1600RoundConstants`, KeccakF-1600-simd128.macros.h:187-211. -/
def constants128 : List U64 := [
  0x0000000000000001#64, 0x0000000000008082#64, 0x800000000000808a#64, 0x8000000080008000#64,
  0x000000000000808b#64, 0x0000000080000001#64, 0x8000000080008081#64, 0x8000000000008009#64,
  0x000000000000008a#64, 0x0000000000000088#64, 0x0000000080008009#64, 0x000000008000000a#64,
  0x000000008000808b#64, 0x800000000000008b#64, 0x8000000000008089#64, 0x8000000000008003#64,
  0x8000000000008002#64, 0x8000000000000080#64, 0x000000000000800a#64, 0x800000008000000a#64,
  0x8000000080008081#64, 0x8000000000008080#64, 0x0000000080000001#64, 0x8000000080008008#64]

/-- `prepareTheta`, KeccakF-1600-simd64.macros.h:35-40. -/
def prepareTheta64 (A : Lanes) : Cols :=
  let Aba := A.ba
  let Abe := A.be
  let Abi := A.bi
  let Abo := A.bo
  let Abu := A.bu
  let Aga := A.ga
  let Age := A.ge
  let Agi := A.gi
  let Ago := A.go
  let Agu := A.gu
  let Aka := A.ka
  let Ake := A.ke
  let Aki := A.ki
  let Ako := A.ko
  let Aku := A.ku
  let Ama := A.ma
  let Ame := A.me
  let Ami := A.mi
  let Amo := A.mo
  let Amu := A.mu
  let Asa := A.sa
  let Ase := A.se
  let Asi := A.si
  let Aso := A.so
  let Asu := A.su
  let Ca := Aba ^^^ (Aga ^^^ (Aka ^^^ (Ama ^^^ Asa)))
  let Ce := Abe ^^^ (Age ^^^ (Ake ^^^ (Ame ^^^ Ase)))
  let Ci := Abi ^^^ (Agi ^^^ (Aki ^^^ (Ami ^^^ Asi)))
  let Co := Abo ^^^ (Ago ^^^ (Ako ^^^ (Amo ^^^ Aso)))
  let Cu := Abu ^^^ (Agu ^^^ (Aku ^^^ (Amu ^^^ Asu)))
  ⟨Ca, Ce, Ci, Co, Cu⟩

/-- `thetaRhoPiChiIotaPrepareTheta(i, A, E)` with `rc = KeccakF1600RoundConstants[i]`, KeccakF-1600-simd64.macros.h:44-155. -/
def round64 (rc : U64) (A : Lanes) (C : Cols) : Lanes × Lanes × Cols :=
  let Aba := A.ba
  let Abe := A.be
  let Abi := A.bi
  let Abo := A.bo
  let Abu := A.bu
  let Aga := A.ga
  let Age := A.ge
  let Agi := A.gi
  let Ago := A.go
  let Agu := A.gu
  let Aka := A.ka
  let Ake := A.ke
  let Aki := A.ki
  let Ako := A.ko
  let Aku := A.ku
  let Ama := A.ma
  let Ame := A.me
  let Ami := A.mi
  let Amo := A.mo
  let Amu := A.mu
  let Asa := A.sa
  let Ase := A.se
  let Asi := A.si
  let Aso := A.so
  let Asu := A.su
  let Ca := C.a
  let Ce := C.e
  let Ci := C.i
  let Co := C.o
  let Cu := C.u
  let Da := Cu ^^^ (rol64 Ce 1)
  let De := Ca ^^^ (rol64 Ci 1)
  let Di := Ce ^^^ (rol64 Co 1)
  let Do := Ci ^^^ (rol64 Cu 1)
  let Du := Co ^^^ (rol64 Ca 1)
  let Aba := Aba ^^^ Da
  let Bba := Aba
  let Age := Age ^^^ De
  let Bbe := rol64 Age 44
  let Aki := Aki ^^^ Di
  let Bbi := rol64 Aki 43
  let Eba := Bba ^^^ ((~~~ Bbe) &&& Bbi)
  let Eba := Eba ^^^ rc
  let Ca := Eba
  let Amo := Amo ^^^ Do
  let Bbo := rol64 Amo 21
  let Ebe := Bbe ^^^ ((~~~ Bbi) &&& Bbo)
  let Ce := Ebe
  let Asu := Asu ^^^ Du
  let Bbu := rol64 Asu 14
  let Ebi := Bbi ^^^ ((~~~ Bbo) &&& Bbu)
  let Ci := Ebi
  let Ebo := Bbo ^^^ ((~~~ Bbu) &&& Bba)
  let Co := Ebo
  let Ebu := Bbu ^^^ ((~~~ Bba) &&& Bbe)
  let Cu := Ebu
  let Abo := Abo ^^^ Do
  let Bga := rol64 Abo 28
  let Agu := Agu ^^^ Du
  let Bge := rol64 Agu 20
  let Aka := Aka ^^^ Da
  let Bgi := rol64 Aka 3
  let Ega := Bga ^^^ ((~~~ Bge) &&& Bgi)
  let Ca := Ca ^^^ Ega
  let Ame := Ame ^^^ De
  let Bgo := rol64 Ame 45
  let Ege := Bge ^^^ ((~~~ Bgi) &&& Bgo)
  let Ce := Ce ^^^ Ege
  let Asi := Asi ^^^ Di
  let Bgu := rol64 Asi 61
  let Egi := Bgi ^^^ ((~~~ Bgo) &&& Bgu)
  let Ci := Ci ^^^ Egi
  let Ego := Bgo ^^^ ((~~~ Bgu) &&& Bga)
  let Co := Co ^^^ Ego
  let Egu := Bgu ^^^ ((~~~ Bga) &&& Bge)
  let Cu := Cu ^^^ Egu
  let Abe := Abe ^^^ De
  let Bka := rol64 Abe 1
  let Agi := Agi ^^^ Di
  let Bke := rol64 Agi 6
  let Ako := Ako ^^^ Do
  let Bki := rol64 Ako 25
  let Eka := Bka ^^^ ((~~~ Bke) &&& Bki)
  let Ca := Ca ^^^ Eka
  let Amu := Amu ^^^ Du
  let Bko := rol64 Amu 8
  let Eke := Bke ^^^ ((~~~ Bki) &&& Bko)
  let Ce := Ce ^^^ Eke
  let Asa := Asa ^^^ Da
  let Bku := rol64 Asa 18
  let Eki := Bki ^^^ ((~~~ Bko) &&& Bku)
  let Ci := Ci ^^^ Eki
  let Eko := Bko ^^^ ((~~~ Bku) &&& Bka)
  let Co := Co ^^^ Eko
  let Eku := Bku ^^^ ((~~~ Bka) &&& Bke)
  let Cu := Cu ^^^ Eku
  let Abu := Abu ^^^ Du
  let Bma := rol64 Abu 27
  let Aga := Aga ^^^ Da
  let Bme := rol64 Aga 36
  let Ake := Ake ^^^ De
  let Bmi := rol64 Ake 10
  let Ema := Bma ^^^ ((~~~ Bme) &&& Bmi)
  let Ca := Ca ^^^ Ema
  let Ami := Ami ^^^ Di
  let Bmo := rol64 Ami 15
  let Eme := Bme ^^^ ((~~~ Bmi) &&& Bmo)
  let Ce := Ce ^^^ Eme
  let Aso := Aso ^^^ Do
  let Bmu := rol64 Aso 56
  let Emi := Bmi ^^^ ((~~~ Bmo) &&& Bmu)
  let Ci := Ci ^^^ Emi
  let Emo := Bmo ^^^ ((~~~ Bmu) &&& Bma)
  let Co := Co ^^^ Emo
  let Emu := Bmu ^^^ ((~~~ Bma) &&& Bme)
  let Cu := Cu ^^^ Emu
  let Abi := Abi ^^^ Di
  let Bsa := rol64 Abi 62
  let Ago := Ago ^^^ Do
  let Bse := rol64 Ago 55
  let Aku := Aku ^^^ Du
  let Bsi := rol64 Aku 39
  let Esa := Bsa ^^^ ((~~~ Bse) &&& Bsi)
  let Ca := Ca ^^^ Esa
  let Ama := Ama ^^^ Da
  let Bso := rol64 Ama 41
  let Ese := Bse ^^^ ((~~~ Bsi) &&& Bso)
  let Ce := Ce ^^^ Ese
  let Ase := Ase ^^^ De
  let Bsu := rol64 Ase 2
  let Esi := Bsi ^^^ ((~~~ Bso) &&& Bsu)
  let Ci := Ci ^^^ Esi
  let Eso := Bso ^^^ ((~~~ Bsu) &&& Bsa)
  let Co := Co ^^^ Eso
  let Esu := Bsu ^^^ ((~~~ Bsa) &&& Bse)
  let Cu := Cu ^^^ Esu
  (⟨Aba, Abe, Abi, Abo, Abu, Aga, Age, Agi, Ago, Agu, Aka, Ake, Aki, Ako, Aku, Ama, Ame, Ami, Amo, Amu, Asa, Ase, Asi, Aso, Asu⟩,
   ⟨Eba, Ebe, Ebi, Ebo, Ebu, Ega, Ege, Egi, Ego, Egu, Eka, Eke, Eki, Eko, Eku, Ema, Eme, Emi, Emo, Emu, Esa, Ese, Esi, Eso, Esu⟩,
   ⟨Ca, Ce, Ci, Co, Cu⟩)

/-- `thetaRhoPiChiIota(i, A, E)` with `rc = KeccakF1600RoundConstants[i]`, KeccakF-1600-simd64.macros.h:160-246. -/
def last64 (rc : U64) (A : Lanes) (C : Cols) : Lanes × Lanes × Cols :=
  let Aba := A.ba
  let Abe := A.be
  let Abi := A.bi
  let Abo := A.bo
  let Abu := A.bu
  let Aga := A.ga
  let Age := A.ge
  let Agi := A.gi
  let Ago := A.go
  let Agu := A.gu
  let Aka := A.ka
  let Ake := A.ke
  let Aki := A.ki
  let Ako := A.ko
  let Aku := A.ku
  let Ama := A.ma
  let Ame := A.me
  let Ami := A.mi
  let Amo := A.mo
  let Amu := A.mu
  let Asa := A.sa
  let Ase := A.se
  let Asi := A.si
  let Aso := A.so
  let Asu := A.su
  let Ca := C.a
  let Ce := C.e
  let Ci := C.i
  let Co := C.o
  let Cu := C.u
  let Da := Cu ^^^ (rol64 Ce 1)
  let De := Ca ^^^ (rol64 Ci 1)
  let Di := Ce ^^^ (rol64 Co 1)
  let Do := Ci ^^^ (rol64 Cu 1)
  let Du := Co ^^^ (rol64 Ca 1)
  let Aba := Aba ^^^ Da
  let Bba := Aba
  let Age := Age ^^^ De
  let Bbe := rol64 Age 44
  let Aki := Aki ^^^ Di
  let Bbi := rol64 Aki 43
  let Eba := Bba ^^^ ((~~~ Bbe) &&& Bbi)
  let Eba := Eba ^^^ rc
  let Amo := Amo ^^^ Do
  let Bbo := rol64 Amo 21
  let Ebe := Bbe ^^^ ((~~~ Bbi) &&& Bbo)
  let Asu := Asu ^^^ Du
  let Bbu := rol64 Asu 14
  let Ebi := Bbi ^^^ ((~~~ Bbo) &&& Bbu)
  let Ebo := Bbo ^^^ ((~~~ Bbu) &&& Bba)
  let Ebu := Bbu ^^^ ((~~~ Bba) &&& Bbe)
  let Abo := Abo ^^^ Do
  let Bga := rol64 Abo 28
  let Agu := Agu ^^^ Du
  let Bge := rol64 Agu 20
  let Aka := Aka ^^^ Da
  let Bgi := rol64 Aka 3
  let Ega := Bga ^^^ ((~~~ Bge) &&& Bgi)
  let Ame := Ame ^^^ De
  let Bgo := rol64 Ame 45
  let Ege := Bge ^^^ ((~~~ Bgi) &&& Bgo)
  let Asi := Asi ^^^ Di
  let Bgu := rol64 Asi 61
  let Egi := Bgi ^^^ ((~~~ Bgo) &&& Bgu)
  let Ego := Bgo ^^^ ((~~~ Bgu) &&& Bga)
  let Egu := Bgu ^^^ ((~~~ Bga) &&& Bge)
  let Abe := Abe ^^^ De
  let Bka := rol64 Abe 1
  let Agi := Agi ^^^ Di
  let Bke := rol64 Agi 6
  let Ako := Ako ^^^ Do
  let Bki := rol64 Ako 25
  let Eka := Bka ^^^ ((~~~ Bke) &&& Bki)
  let Amu := Amu ^^^ Du
  let Bko := rol64 Amu 8
  let Eke := Bke ^^^ ((~~~ Bki) &&& Bko)
  let Asa := Asa ^^^ Da
  let Bku := rol64 Asa 18
  let Eki := Bki ^^^ ((~~~ Bko) &&& Bku)
  let Eko := Bko ^^^ ((~~~ Bku) &&& Bka)
  let Eku := Bku ^^^ ((~~~ Bka) &&& Bke)
  let Abu := Abu ^^^ Du
  let Bma := rol64 Abu 27
  let Aga := Aga ^^^ Da
  let Bme := rol64 Aga 36
  let Ake := Ake ^^^ De
  let Bmi := rol64 Ake 10
  let Ema := Bma ^^^ ((~~~ Bme) &&& Bmi)
  let Ami := Ami ^^^ Di
  let Bmo := rol64 Ami 15
  let Eme := Bme ^^^ ((~~~ Bmi) &&& Bmo)
  let Aso := Aso ^^^ Do
  let Bmu := rol64 Aso 56
  let Emi := Bmi ^^^ ((~~~ Bmo) &&& Bmu)
  let Emo := Bmo ^^^ ((~~~ Bmu) &&& Bma)
  let Emu := Bmu ^^^ ((~~~ Bma) &&& Bme)
  let Abi := Abi ^^^ Di
  let Bsa := rol64 Abi 62
  let Ago := Ago ^^^ Do
  let Bse := rol64 Ago 55
  let Aku := Aku ^^^ Du
  let Bsi := rol64 Aku 39
  let Esa := Bsa ^^^ ((~~~ Bse) &&& Bsi)
  let Ama := Ama ^^^ Da
  let Bso := rol64 Ama 41
  let Ese := Bse ^^^ ((~~~ Bsi) &&& Bso)
  let Ase := Ase ^^^ De
  let Bsu := rol64 Ase 2
  let Esi := Bsi ^^^ ((~~~ Bso) &&& Bsu)
  let Eso := Bso ^^^ ((~~~ Bsu) &&& Bsa)
  let Esu := Bsu ^^^ ((~~~ Bsa) &&& Bse)
  (⟨Aba, Abe, Abi, Abo, Abu, Aga, Age, Agi, Ago, Agu, Aka, Ake, Aki, Ako, Aku, Ama, Ame, Ami, Amo, Amu, Asa, Ase, Asi, Aso, Asu⟩,
   ⟨Eba, Ebe, Ebi, Ebo, Ebu, Ega, Ege, Egi, Ego, Egu, Eka, Eke, Eki, Eko, Eku, Ema, Eme, Emi, Emo, Emu, Esa, Ese, Esi, Eso, Esu⟩,
   ⟨Ca, Ce, Ci, Co, Cu⟩)

/-- `thetaRhoPiChiIotaPrepareTheta(i, A, E)` with `rc = KeccakF1600RoundConstants[i]`, KeccakF-1600-simd128.macros.h:56-181. -/
def round128 (rc : U64) (A : Lanes128) (C : Cols128) : Lanes128 × Lanes128 × Cols128 :=
  let Abage := A.bage
  let Abegi := A.begi
  let Abi := A.bi
  let Abo := A.bo
  let Abu := A.bu
  let Aga := A.ga
  let Ago := A.go
  let Agu := A.gu
  let Akame := A.kame
  let Akemi := A.kemi
  let Aki := A.ki
  let Ako := A.ko
  let Aku := A.ku
  let Ama := A.ma
  let Amo := A.mo
  let Amu := A.mu
  let Asa := A.sa
  let Ase := A.se
  let Asi := A.si
  let Aso := A.so
  let Asu := A.su
  let Cae := C.ae
  let Cio := C.io
  let Cu := C.u
  let Cua := getLo Cu Cae
  let Dei := xor128 Cae (rol128 Cio 1)
  let Dou := xor128 Cio (rol128 Cua 1)
  let Da := xor128 Cu (rol128 (hiToLo Cae) 1)
  let De := Dei
  let Di := hiToLo Dei
  let Do := Dou
  let Du := hiToLo Dou
  let Aba := load64 Abage.lo
  let Aba := xor128 Aba Da
  let Bba := Aba
  let Agu := xor128 Agu Du
  let Bge := rol128 Agu 20
  let Bbage := getLo Bba Bge
  let Age := load64 Abage.hi
  let Age := xor128 Age De
  let Bbe := rol128 Age 44
  let Aka := load64 Akame.lo
  let Aka := xor128 Aka Da
  let Bgi := rol128 Aka 3
  let Bbegi := getLo Bbe Bgi
  let Aki := xor128 Aki Di
  let Bbi := rol128 Aki 43
  let Ame := load64 Akame.hi
  let Ame := xor128 Ame De
  let Bgo := rol128 Ame 45
  let Bbigo := getLo Bbi Bgo
  let Ebage := xor128 Bbage (andnot128 Bbegi Bbigo)
  let Ebage := xor128 Ebage (load64 rc)
  let Cae := Ebage
  let Amo := xor128 Amo Do
  let Bbo := rol128 Amo 21
  let Asi := xor128 Asi Di
  let Bgu := rol128 Asi 61
  let Bbogu := getLo Bbo Bgu
  let Ebegi := xor128 Bbegi (andnot128 Bbigo Bbogu)
  let Cei := Ebegi
  let Asu := xor128 Asu Du
  let Bbu := rol128 Asu 14
  let Abo := xor128 Abo Do
  let Bga := rol128 Abo 28
  let Bbuga := getLo Bbu Bga
  let Ebigo := xor128 Bbigo (andnot128 Bbogu Bbuga)
  let Ebi := Ebigo
  let Ego := getHi Ebigo Ebigo
  let Cio := Ebigo
  let Ebogu := xor128 Bbogu (andnot128 Bbuga Bbage)
  let Ebo := Ebogu
  let Egu := getHi Ebogu Ebogu
  let Cou := Ebogu
  let Ebuga := xor128 Bbuga (andnot128 Bbage Bbegi)
  let Ebu := Ebuga
  let Ega := getHi Ebuga Ebuga
  let Cua := Ebuga
  let Abe := load64 Abegi.lo
  let Abe := xor128 Abe De
  let Bka := rol128 Abe 1
  let Aga := xor128 Aga Da
  let Bme := rol128 Aga 36
  let Bkame := getLo Bka Bme
  let Agi := load64 Abegi.hi
  let Agi := xor128 Agi Di
  let Bke := rol128 Agi 6
  let Ake := load64 Akemi.lo
  let Ake := xor128 Ake De
  let Bmi := rol128 Ake 10
  let Bkemi := getLo Bke Bmi
  let Ako := xor128 Ako Do
  let Bki := rol128 Ako 25
  let Ami := load64 Akemi.hi
  let Ami := xor128 Ami Di
  let Bmo := rol128 Ami 15
  let Bkimo := getLo Bki Bmo
  let Ekame := xor128 Bkame (andnot128 Bkemi Bkimo)
  let Cae := xor128 Cae Ekame
  let Amu := xor128 Amu Du
  let Bko := rol128 Amu 8
  let Aso := xor128 Aso Do
  let Bmu := rol128 Aso 56
  let Bkomu := getLo Bko Bmu
  let Ekemi := xor128 Bkemi (andnot128 Bkimo Bkomu)
  let Cei := xor128 Cei Ekemi
  let Asa := xor128 Asa Da
  let Bku := rol128 Asa 18
  let Abu := xor128 Abu Du
  let Bma := rol128 Abu 27
  let Bkuma := getLo Bku Bma
  let Ekimo := xor128 Bkimo (andnot128 Bkomu Bkuma)
  let Eki := Ekimo
  let Emo := getHi Ekimo Ekimo
  let Cio := xor128 Cio Ekimo
  let Ekomu := xor128 Bkomu (andnot128 Bkuma Bkame)
  let Eko := Ekomu
  let Emu := getHi Ekomu Ekomu
  let Cou := xor128 Cou Ekomu
  let Ekuma := xor128 Bkuma (andnot128 Bkame Bkemi)
  let Eku := Ekuma
  let Ema := getHi Ekuma Ekuma
  let Cua := xor128 Cua Ekuma
  let Abi := xor128 Abi Di
  let Bsa := rol128 Abi 62
  let Ago := xor128 Ago Do
  let Bse := rol128 Ago 55
  let Aku := xor128 Aku Du
  let Bsi := rol128 Aku 39
  let Esa := xor128 Bsa (andnot128 Bse Bsi)
  let Ca := Esa
  let Ama := xor128 Ama Da
  let Bso := rol128 Ama 41
  let Ese := xor128 Bse (andnot128 Bsi Bso)
  let Ce := Ese
  let Cae := xor128 Cae (getLo Ca Ce)
  let Ase := xor128 Ase De
  let Bsu := rol128 Ase 2
  let Esi := xor128 Bsi (andnot128 Bso Bsu)
  let Ci := Esi
  let Eso := xor128 Bso (andnot128 Bsu Bsa)
  let Co := Eso
  let Cio := xor128 Cio (getLo Ci Co)
  let Esu := xor128 Bsu (andnot128 Bsa Bse)
  let Cu := Esu
  let Zero := zero128
  let Cae := xor128 Cae (getHi Cua Zero)
  let Cae := xor128 Cae (getLo Zero Cei)
  let Cio := xor128 Cio (getHi Cei Zero)
  let Cio := xor128 Cio (getLo Zero Cou)
  let Cua := xor128 Cua (getHi Cou Zero)
  let Cu := xor128 Cu Cua
  (⟨Abage, Abegi, Abi, Abo, Abu, Aga, Ago, Agu, Akame, Akemi, Aki, Ako, Aku, Ama, Amo, Amu, Asa, Ase, Asi, Aso, Asu⟩,
   ⟨Ebage, Ebegi, Ebi, Ebo, Ebu, Ega, Ego, Egu, Ekame, Ekemi, Eki, Eko, Eku, Ema, Emo, Emu, Esa, Ese, Esi, Eso, Esu⟩,
   ⟨Cae, Cio, Cu⟩)

/-- `copyFromState`, KeccakF-1600-simd64.macros.h:437-462. -/
def copyFromState_64 (state : List U64) : Lanes :=
  let Xba := word state 0
  let Xbe := word state 1
  let Xbi := word state 2
  let Xbo := word state 3
  let Xbu := word state 4
  let Xga := word state 5
  let Xge := word state 6
  let Xgi := word state 7
  let Xgo := word state 8
  let Xgu := word state 9
  let Xka := word state 10
  let Xke := word state 11
  let Xki := word state 12
  let Xko := word state 13
  let Xku := word state 14
  let Xma := word state 15
  let Xme := word state 16
  let Xmi := word state 17
  let Xmo := word state 18
  let Xmu := word state 19
  let Xsa := word state 20
  let Xse := word state 21
  let Xsi := word state 22
  let Xso := word state 23
  let Xsu := word state 24
  ⟨Xba, Xbe, Xbi, Xbo, Xbu, Xga, Xge, Xgi, Xgo, Xgu, Xka, Xke, Xki, Xko, Xku, Xma, Xme, Xmi, Xmo, Xmu, Xsa, Xse, Xsi, Xso, Xsu⟩

/-- `copyFromStateAndXor576bits`, KeccakF-1600-simd64.macros.h:275-300. -/
def copyFromStateAndXor576bits_64 (state input : List U64) : Lanes :=
  let Xba := (word state 0) ^^^ (word input 0)
  let Xbe := (word state 1) ^^^ (word input 1)
  let Xbi := (word state 2) ^^^ (word input 2)
  let Xbo := (word state 3) ^^^ (word input 3)
  let Xbu := (word state 4) ^^^ (word input 4)
  let Xga := (word state 5) ^^^ (word input 5)
  let Xge := (word state 6) ^^^ (word input 6)
  let Xgi := (word state 7) ^^^ (word input 7)
  let Xgo := (word state 8) ^^^ (word input 8)
  let Xgu := word state 9
  let Xka := word state 10
  let Xke := word state 11
  let Xki := word state 12
  let Xko := word state 13
  let Xku := word state 14
  let Xma := word state 15
  let Xme := word state 16
  let Xmi := word state 17
  let Xmo := word state 18
  let Xmu := word state 19
  let Xsa := word state 20
  let Xse := word state 21
  let Xsi := word state 22
  let Xso := word state 23
  let Xsu := word state 24
  ⟨Xba, Xbe, Xbi, Xbo, Xbu, Xga, Xge, Xgi, Xgo, Xgu, Xka, Xke, Xki, Xko, Xku, Xma, Xme, Xmi, Xmo, Xmu, Xsa, Xse, Xsi, Xso, Xsu⟩

/-- `copyFromStateAndXor832bits`, KeccakF-1600-simd64.macros.h:302-327. -/
def copyFromStateAndXor832bits_64 (state input : List U64) : Lanes :=
  let Xba := (word state 0) ^^^ (word input 0)
  let Xbe := (word state 1) ^^^ (word input 1)
  let Xbi := (word state 2) ^^^ (word input 2)
  let Xbo := (word state 3) ^^^ (word input 3)
  let Xbu := (word state 4) ^^^ (word input 4)
  let Xga := (word state 5) ^^^ (word input 5)
  let Xge := (word state 6) ^^^ (word input 6)
  let Xgi := (word state 7) ^^^ (word input 7)
  let Xgo := (word state 8) ^^^ (word input 8)
  let Xgu := (word state 9) ^^^ (word input 9)
  let Xka := (word state 10) ^^^ (word input 10)
  let Xke := (word state 11) ^^^ (word input 11)
  let Xki := (word state 12) ^^^ (word input 12)
  let Xko := word state 13
  let Xku := word state 14
  let Xma := word state 15
  let Xme := word state 16
  let Xmi := word state 17
  let Xmo := word state 18
  let Xmu := word state 19
  let Xsa := word state 20
  let Xse := word state 21
  let Xsi := word state 22
  let Xso := word state 23
  let Xsu := word state 24
  ⟨Xba, Xbe, Xbi, Xbo, Xbu, Xga, Xge, Xgi, Xgo, Xgu, Xka, Xke, Xki, Xko, Xku, Xma, Xme, Xmi, Xmo, Xmu, Xsa, Xse, Xsi, Xso, Xsu⟩

/-- `copyFromStateAndXor1024bits`, KeccakF-1600-simd64.macros.h:329-354. -/
def copyFromStateAndXor1024bits_64 (state input : List U64) : Lanes :=
  let Xba := (word state 0) ^^^ (word input 0)
  let Xbe := (word state 1) ^^^ (word input 1)
  let Xbi := (word state 2) ^^^ (word input 2)
  let Xbo := (word state 3) ^^^ (word input 3)
  let Xbu := (word state 4) ^^^ (word input 4)
  let Xga := (word state 5) ^^^ (word input 5)
  let Xge := (word state 6) ^^^ (word input 6)
  let Xgi := (word state 7) ^^^ (word input 7)
  let Xgo := (word state 8) ^^^ (word input 8)
  let Xgu := (word state 9) ^^^ (word input 9)
  let Xka := (word state 10) ^^^ (word input 10)
  let Xke := (word state 11) ^^^ (word input 11)
  let Xki := (word state 12) ^^^ (word input 12)
  let Xko := (word state 13) ^^^ (word input 13)
  let Xku := (word state 14) ^^^ (word input 14)
  let Xma := (word state 15) ^^^ (word input 15)
  let Xme := word state 16
  let Xmi := word state 17
  let Xmo := word state 18
  let Xmu := word state 19
  let Xsa := word state 20
  let Xse := word state 21
  let Xsi := word state 22
  let Xso := word state 23
  let Xsu := word state 24
  ⟨Xba, Xbe, Xbi, Xbo, Xbu, Xga, Xge, Xgi, Xgo, Xgu, Xka, Xke, Xki, Xko, Xku, Xma, Xme, Xmi, Xmo, Xmu, Xsa, Xse, Xsi, Xso, Xsu⟩

/-- `copyFromStateAndXor1088bits`, KeccakF-1600-simd64.macros.h:356-381. -/
def copyFromStateAndXor1088bits_64 (state input : List U64) : Lanes :=
  let Xba := (word state 0) ^^^ (word input 0)
  let Xbe := (word state 1) ^^^ (word input 1)
  let Xbi := (word state 2) ^^^ (word input 2)
  let Xbo := (word state 3) ^^^ (word input 3)
  let Xbu := (word state 4) ^^^ (word input 4)
  let Xga := (word state 5) ^^^ (word input 5)
  let Xge := (word state 6) ^^^ (word input 6)
  let Xgi := (word state 7) ^^^ (word input 7)
  let Xgo := (word state 8) ^^^ (word input 8)
  let Xgu := (word state 9) ^^^ (word input 9)
  let Xka := (word state 10) ^^^ (word input 10)
  let Xke := (word state 11) ^^^ (word input 11)
  let Xki := (word state 12) ^^^ (word input 12)
  let Xko := (word state 13) ^^^ (word input 13)
  let Xku := (word state 14) ^^^ (word input 14)
  let Xma := (word state 15) ^^^ (word input 15)
  let Xme := (word state 16) ^^^ (word input 16)
  let Xmi := word state 17
  let Xmo := word state 18
  let Xmu := word state 19
  let Xsa := word state 20
  let Xse := word state 21
  let Xsi := word state 22
  let Xso := word state 23
  let Xsu := word state 24
  ⟨Xba, Xbe, Xbi, Xbo, Xbu, Xga, Xge, Xgi, Xgo, Xgu, Xka, Xke, Xki, Xko, Xku, Xma, Xme, Xmi, Xmo, Xmu, Xsa, Xse, Xsi, Xso, Xsu⟩

/-- `copyFromStateAndXor1152bits`, KeccakF-1600-simd64.macros.h:383-408. -/
def copyFromStateAndXor1152bits_64 (state input : List U64) : Lanes :=
  let Xba := (word state 0) ^^^ (word input 0)
  let Xbe := (word state 1) ^^^ (word input 1)
  let Xbi := (word state 2) ^^^ (word input 2)
  let Xbo := (word state 3) ^^^ (word input 3)
  let Xbu := (word state 4) ^^^ (word input 4)
  let Xga := (word state 5) ^^^ (word input 5)
  let Xge := (word state 6) ^^^ (word input 6)
  let Xgi := (word state 7) ^^^ (word input 7)
  let Xgo := (word state 8) ^^^ (word input 8)
  let Xgu := (word state 9) ^^^ (word input 9)
  let Xka := (word state 10) ^^^ (word input 10)
  let Xke := (word state 11) ^^^ (word input 11)
  let Xki := (word state 12) ^^^ (word input 12)
  let Xko := (word state 13) ^^^ (word input 13)
  let Xku := (word state 14) ^^^ (word input 14)
  let Xma := (word state 15) ^^^ (word input 15)
  let Xme := (word state 16) ^^^ (word input 16)
  let Xmi := (word state 17) ^^^ (word input 17)
  let Xmo := word state 18
  let Xmu := word state 19
  let Xsa := word state 20
  let Xse := word state 21
  let Xsi := word state 22
  let Xso := word state 23
  let Xsu := word state 24
  ⟨Xba, Xbe, Xbi, Xbo, Xbu, Xga, Xge, Xgi, Xgo, Xgu, Xka, Xke, Xki, Xko, Xku, Xma, Xme, Xmi, Xmo, Xmu, Xsa, Xse, Xsi, Xso, Xsu⟩

/-- `copyFromStateAndXor1344bits`, KeccakF-1600-simd64.macros.h:410-435. -/
def copyFromStateAndXor1344bits_64 (state input : List U64) : Lanes :=
  let Xba := (word state 0) ^^^ (word input 0)
  let Xbe := (word state 1) ^^^ (word input 1)
  let Xbi := (word state 2) ^^^ (word input 2)
  let Xbo := (word state 3) ^^^ (word input 3)
  let Xbu := (word state 4) ^^^ (word input 4)
  let Xga := (word state 5) ^^^ (word input 5)
  let Xge := (word state 6) ^^^ (word input 6)
  let Xgi := (word state 7) ^^^ (word input 7)
  let Xgo := (word state 8) ^^^ (word input 8)
  let Xgu := (word state 9) ^^^ (word input 9)
  let Xka := (word state 10) ^^^ (word input 10)
  let Xke := (word state 11) ^^^ (word input 11)
  let Xki := (word state 12) ^^^ (word input 12)
  let Xko := (word state 13) ^^^ (word input 13)
  let Xku := (word state 14) ^^^ (word input 14)
  let Xma := (word state 15) ^^^ (word input 15)
  let Xme := (word state 16) ^^^ (word input 16)
  let Xmi := (word state 17) ^^^ (word input 17)
  let Xmo := (word state 18) ^^^ (word input 18)
  let Xmu := (word state 19) ^^^ (word input 19)
  let Xsa := (word state 20) ^^^ (word input 20)
  let Xse := word state 21
  let Xsi := word state 22
  let Xso := word state 23
  let Xsu := word state 24
  ⟨Xba, Xbe, Xbi, Xbo, Xbu, Xga, Xge, Xgi, Xgo, Xgu, Xka, Xke, Xki, Xko, Xku, Xma, Xme, Xmi, Xmo, Xmu, Xsa, Xse, Xsi, Xso, Xsu⟩

/-- `copyFromState`, KeccakF-1600-simd128.macros.h:549-603. -/
def copyFromState_128 (state : List U64) : Lanes128 × Cols128 :=
  let Xbae := load128 state 0
  let Xba := Xbae
  let Xbe := getHi Xbae Xbae
  let Cae := Xbae
  let Xbio := load128 state 2
  let Xbi := Xbio
  let Xbo := getHi Xbio Xbio
  let Cio := Xbio
  let Xbu := load64 (word state 4)
  let Cu := Xbu
  let Xgae := load128 state 5
  let Xga := Xgae
  let Xge := getHi Xgae Xgae
  let Xbage := getLo Xba Xge
  let Cae := xor128 Cae Xgae
  let Xgio := load128 state 7
  let Xgi := Xgio
  let Xbegi := getLo Xbe Xgi
  let Xgo := getHi Xgio Xgio
  let Cio := xor128 Cio Xgio
  let Xgu := load64 (word state 9)
  let Cu := xor128 Cu Xgu
  let Xkae := load128 state 10
  let Xka := Xkae
  let Xke := getHi Xkae Xkae
  let Cae := xor128 Cae Xkae
  let Xkio := load128 state 12
  let Xki := Xkio
  let Xko := getHi Xkio Xkio
  let Cio := xor128 Cio Xkio
  let Xku := load64 (word state 14)
  let Cu := xor128 Cu Xku
  let Xmae := load128 state 15
  let Xma := Xmae
  let Xme := getHi Xmae Xmae
  let Xkame := getLo Xka Xme
  let Cae := xor128 Cae Xmae
  let Xmio := load128 state 17
  let Xmi := Xmio
  let Xkemi := getLo Xke Xmi
  let Xmo := getHi Xmio Xmio
  let Cio := xor128 Cio Xmio
  let Xmu := load64 (word state 19)
  let Cu := xor128 Cu Xmu
  let Xsae := load128 state 20
  let Xsa := Xsae
  let Xse := getHi Xsae Xsae
  let Cae := xor128 Cae Xsae
  let Xsio := load128 state 22
  let Xsi := Xsio
  let Xso := getHi Xsio Xsio
  let Cio := xor128 Cio Xsio
  let Xsu := load64 (word state 24)
  let Cu := xor128 Cu Xsu
  (⟨Xbage, Xbegi, Xbi, Xbo, Xbu, Xga, Xgo, Xgu, Xkame, Xkemi, Xki, Xko, Xku, Xma, Xmo, Xmu, Xsa, Xse, Xsi, Xso, Xsu⟩, ⟨Cae, Cio, Cu⟩)

/-- `copyFromStateAndXor576bits`, KeccakF-1600-simd128.macros.h:213-267. -/
def copyFromStateAndXor576bits_128 (state input : List U64) : Lanes128 × Cols128 :=
  let Xbae := xor128 (load128 state 0) (load128 input 0)
  let Xba := Xbae
  let Xbe := getHi Xbae Xbae
  let Cae := Xbae
  let Xbio := xor128 (load128 state 2) (load128 input 2)
  let Xbi := Xbio
  let Xbo := getHi Xbio Xbio
  let Cio := Xbio
  let Xbu := xor128 (load64 (word state 4)) (load64 (word input 4))
  let Cu := Xbu
  let Xgae := xor128 (load128 state 5) (load128 input 5)
  let Xga := Xgae
  let Xge := getHi Xgae Xgae
  let Xbage := getLo Xba Xge
  let Cae := xor128 Cae Xgae
  let Xgio := xor128 (load128 state 7) (load128 input 7)
  let Xgi := Xgio
  let Xbegi := getLo Xbe Xgi
  let Xgo := getHi Xgio Xgio
  let Cio := xor128 Cio Xgio
  let Xgu := load64 (word state 9)
  let Cu := xor128 Cu Xgu
  let Xkae := load128 state 10
  let Xka := Xkae
  let Xke := getHi Xkae Xkae
  let Cae := xor128 Cae Xkae
  let Xkio := load128 state 12
  let Xki := Xkio
  let Xko := getHi Xkio Xkio
  let Cio := xor128 Cio Xkio
  let Xku := load64 (word state 14)
  let Cu := xor128 Cu Xku
  let Xmae := load128 state 15
  let Xma := Xmae
  let Xme := getHi Xmae Xmae
  let Xkame := getLo Xka Xme
  let Cae := xor128 Cae Xmae
  let Xmio := load128 state 17
  let Xmi := Xmio
  let Xkemi := getLo Xke Xmi
  let Xmo := getHi Xmio Xmio
  let Cio := xor128 Cio Xmio
  let Xmu := load64 (word state 19)
  let Cu := xor128 Cu Xmu
  let Xsae := load128 state 20
  let Xsa := Xsae
  let Xse := getHi Xsae Xsae
  let Cae := xor128 Cae Xsae
  let Xsio := load128 state 22
  let Xsi := Xsio
  let Xso := getHi Xsio Xsio
  let Cio := xor128 Cio Xsio
  let Xsu := load64 (word state 24)
  let Cu := xor128 Cu Xsu
  (⟨Xbage, Xbegi, Xbi, Xbo, Xbu, Xga, Xgo, Xgu, Xkame, Xkemi, Xki, Xko, Xku, Xma, Xmo, Xmu, Xsa, Xse, Xsi, Xso, Xsu⟩, ⟨Cae, Cio, Cu⟩)

/-- `copyFromStateAndXor832bits`, KeccakF-1600-simd128.macros.h:269-323. -/
def copyFromStateAndXor832bits_128 (state input : List U64) : Lanes128 × Cols128 :=
  let Xbae := xor128 (load128 state 0) (load128 input 0)
  let Xba := Xbae
  let Xbe := getHi Xbae Xbae
  let Cae := Xbae
  let Xbio := xor128 (load128 state 2) (load128 input 2)
  let Xbi := Xbio
  let Xbo := getHi Xbio Xbio
  let Cio := Xbio
  let Xbu := xor128 (load64 (word state 4)) (load64 (word input 4))
  let Cu := Xbu
  let Xgae := xor128 (load128 state 5) (load128 input 5)
  let Xga := Xgae
  let Xge := getHi Xgae Xgae
  let Xbage := getLo Xba Xge
  let Cae := xor128 Cae Xgae
  let Xgio := xor128 (load128 state 7) (load128 input 7)
  let Xgi := Xgio
  let Xbegi := getLo Xbe Xgi
  let Xgo := getHi Xgio Xgio
  let Cio := xor128 Cio Xgio
  let Xgu := xor128 (load64 (word state 9)) (load64 (word input 9))
  let Cu := xor128 Cu Xgu
  let Xkae := xor128 (load128 state 10) (load128 input 10)
  let Xka := Xkae
  let Xke := getHi Xkae Xkae
  let Cae := xor128 Cae Xkae
  let Xkio := xor128 (load128 state 12) (load64 (word input 12))
  let Xki := Xkio
  let Xko := getHi Xkio Xkio
  let Cio := xor128 Cio Xkio
  let Xku := load64 (word state 14)
  let Cu := xor128 Cu Xku
  let Xmae := load128 state 15
  let Xma := Xmae
  let Xme := getHi Xmae Xmae
  let Xkame := getLo Xka Xme
  let Cae := xor128 Cae Xmae
  let Xmio := load128 state 17
  let Xmi := Xmio
  let Xkemi := getLo Xke Xmi
  let Xmo := getHi Xmio Xmio
  let Cio := xor128 Cio Xmio
  let Xmu := load64 (word state 19)
  let Cu := xor128 Cu Xmu
  let Xsae := load128 state 20
  let Xsa := Xsae
  let Xse := getHi Xsae Xsae
  let Cae := xor128 Cae Xsae
  let Xsio := load128 state 22
  let Xsi := Xsio
  let Xso := getHi Xsio Xsio
  let Cio := xor128 Cio Xsio
  let Xsu := load64 (word state 24)
  let Cu := xor128 Cu Xsu
  (⟨Xbage, Xbegi, Xbi, Xbo, Xbu, Xga, Xgo, Xgu, Xkame, Xkemi, Xki, Xko, Xku, Xma, Xmo, Xmu, Xsa, Xse, Xsi, Xso, Xsu⟩, ⟨Cae, Cio, Cu⟩)

/-- `copyFromStateAndXor1024bits`, KeccakF-1600-simd128.macros.h:325-379. -/
def copyFromStateAndXor1024bits_128 (state input : List U64) : Lanes128 × Cols128 :=
  let Xbae := xor128 (load128 state 0) (load128 input 0)
  let Xba := Xbae
  let Xbe := getHi Xbae Xbae
  let Cae := Xbae
  let Xbio := xor128 (load128 state 2) (load128 input 2)
  let Xbi := Xbio
  let Xbo := getHi Xbio Xbio
  let Cio := Xbio
  let Xbu := xor128 (load64 (word state 4)) (load64 (word input 4))
  let Cu := Xbu
  let Xgae := xor128 (load128 state 5) (load128 input 5)
  let Xga := Xgae
  let Xge := getHi Xgae Xgae
  let Xbage := getLo Xba Xge
  let Cae := xor128 Cae Xgae
  let Xgio := xor128 (load128 state 7) (load128 input 7)
  let Xgi := Xgio
  let Xbegi := getLo Xbe Xgi
  let Xgo := getHi Xgio Xgio
  let Cio := xor128 Cio Xgio
  let Xgu := xor128 (load64 (word state 9)) (load64 (word input 9))
  let Cu := xor128 Cu Xgu
  let Xkae := xor128 (load128 state 10) (load128 input 10)
  let Xka := Xkae
  let Xke := getHi Xkae Xkae
  let Cae := xor128 Cae Xkae
  let Xkio := xor128 (load128 state 12) (load128 input 12)
  let Xki := Xkio
  let Xko := getHi Xkio Xkio
  let Cio := xor128 Cio Xkio
  let Xku := xor128 (load64 (word state 14)) (load64 (word input 14))
  let Cu := xor128 Cu Xku
  let Xmae := xor128 (load128 state 15) (load64 (word input 15))
  let Xma := Xmae
  let Xme := getHi Xmae Xmae
  let Xkame := getLo Xka Xme
  let Cae := xor128 Cae Xmae
  let Xmio := load128 state 17
  let Xmi := Xmio
  let Xkemi := getLo Xke Xmi
  let Xmo := getHi Xmio Xmio
  let Cio := xor128 Cio Xmio
  let Xmu := load64 (word state 19)
  let Cu := xor128 Cu Xmu
  let Xsae := load128 state 20
  let Xsa := Xsae
  let Xse := getHi Xsae Xsae
  let Cae := xor128 Cae Xsae
  let Xsio := load128 state 22
  let Xsi := Xsio
  let Xso := getHi Xsio Xsio
  let Cio := xor128 Cio Xsio
  let Xsu := load64 (word state 24)
  let Cu := xor128 Cu Xsu
  (⟨Xbage, Xbegi, Xbi, Xbo, Xbu, Xga, Xgo, Xgu, Xkame, Xkemi, Xki, Xko, Xku, Xma, Xmo, Xmu, Xsa, Xse, Xsi, Xso, Xsu⟩, ⟨Cae, Cio, Cu⟩)

/-- `copyFromStateAndXor1088bits`, KeccakF-1600-simd128.macros.h:381-435. -/
def copyFromStateAndXor1088bits_128 (state input : List U64) : Lanes128 × Cols128 :=
  let Xbae := xor128 (load128 state 0) (load128 input 0)
  let Xba := Xbae
  let Xbe := getHi Xbae Xbae
  let Cae := Xbae
  let Xbio := xor128 (load128 state 2) (load128 input 2)
  let Xbi := Xbio
  let Xbo := getHi Xbio Xbio
  let Cio := Xbio
  let Xbu := xor128 (load64 (word state 4)) (load64 (word input 4))
  let Cu := Xbu
  let Xgae := xor128 (load128 state 5) (load128 input 5)
  let Xga := Xgae
  let Xge := getHi Xgae Xgae
  let Xbage := getLo Xba Xge
  let Cae := xor128 Cae Xgae
  let Xgio := xor128 (load128 state 7) (load128 input 7)
  let Xgi := Xgio
  let Xbegi := getLo Xbe Xgi
  let Xgo := getHi Xgio Xgio
  let Cio := xor128 Cio Xgio
  let Xgu := xor128 (load64 (word state 9)) (load64 (word input 9))
  let Cu := xor128 Cu Xgu
  let Xkae := xor128 (load128 state 10) (load128 input 10)
  let Xka := Xkae
  let Xke := getHi Xkae Xkae
  let Cae := xor128 Cae Xkae
  let Xkio := xor128 (load128 state 12) (load128 input 12)
  let Xki := Xkio
  let Xko := getHi Xkio Xkio
  let Cio := xor128 Cio Xkio
  let Xku := xor128 (load64 (word state 14)) (load64 (word input 14))
  let Cu := xor128 Cu Xku
  let Xmae := xor128 (load128 state 15) (load128 input 15)
  let Xma := Xmae
  let Xme := getHi Xmae Xmae
  let Xkame := getLo Xka Xme
  let Cae := xor128 Cae Xmae
  let Xmio := load128 state 17
  let Xmi := Xmio
  let Xkemi := getLo Xke Xmi
  let Xmo := getHi Xmio Xmio
  let Cio := xor128 Cio Xmio
  let Xmu := load64 (word state 19)
  let Cu := xor128 Cu Xmu
  let Xsae := load128 state 20
  let Xsa := Xsae
  let Xse := getHi Xsae Xsae
  let Cae := xor128 Cae Xsae
  let Xsio := load128 state 22
  let Xsi := Xsio
  let Xso := getHi Xsio Xsio
  let Cio := xor128 Cio Xsio
  let Xsu := load64 (word state 24)
  let Cu := xor128 Cu Xsu
  (⟨Xbage, Xbegi, Xbi, Xbo, Xbu, Xga, Xgo, Xgu, Xkame, Xkemi, Xki, Xko, Xku, Xma, Xmo, Xmu, Xsa, Xse, Xsi, Xso, Xsu⟩, ⟨Cae, Cio, Cu⟩)

/-- `copyFromStateAndXor1152bits`, KeccakF-1600-simd128.macros.h:437-491. -/
def copyFromStateAndXor1152bits_128 (state input : List U64) : Lanes128 × Cols128 :=
  let Xbae := xor128 (load128 state 0) (load128 input 0)
  let Xba := Xbae
  let Xbe := getHi Xbae Xbae
  let Cae := Xbae
  let Xbio := xor128 (load128 state 2) (load128 input 2)
  let Xbi := Xbio
  let Xbo := getHi Xbio Xbio
  let Cio := Xbio
  let Xbu := xor128 (load64 (word state 4)) (load64 (word input 4))
  let Cu := Xbu
  let Xgae := xor128 (load128 state 5) (load128 input 5)
  let Xga := Xgae
  let Xge := getHi Xgae Xgae
  let Xbage := getLo Xba Xge
  let Cae := xor128 Cae Xgae
  let Xgio := xor128 (load128 state 7) (load128 input 7)
  let Xgi := Xgio
  let Xbegi := getLo Xbe Xgi
  let Xgo := getHi Xgio Xgio
  let Cio := xor128 Cio Xgio
  let Xgu := xor128 (load64 (word state 9)) (load64 (word input 9))
  let Cu := xor128 Cu Xgu
  let Xkae := xor128 (load128 state 10) (load128 input 10)
  let Xka := Xkae
  let Xke := getHi Xkae Xkae
  let Cae := xor128 Cae Xkae
  let Xkio := xor128 (load128 state 12) (load128 input 12)
  let Xki := Xkio
  let Xko := getHi Xkio Xkio
  let Cio := xor128 Cio Xkio
  let Xku := xor128 (load64 (word state 14)) (load64 (word input 14))
  let Cu := xor128 Cu Xku
  let Xmae := xor128 (load128 state 15) (load128 input 15)
  let Xma := Xmae
  let Xme := getHi Xmae Xmae
  let Xkame := getLo Xka Xme
  let Cae := xor128 Cae Xmae
  let Xmio := xor128 (load128 state 17) (load64 (word input 17))
  let Xmi := Xmio
  let Xkemi := getLo Xke Xmi
  let Xmo := getHi Xmio Xmio
  let Cio := xor128 Cio Xmio
  let Xmu := load64 (word state 19)
  let Cu := xor128 Cu Xmu
  let Xsae := load128 state 20
  let Xsa := Xsae
  let Xse := getHi Xsae Xsae
  let Cae := xor128 Cae Xsae
  let Xsio := load128 state 22
  let Xsi := Xsio
  let Xso := getHi Xsio Xsio
  let Cio := xor128 Cio Xsio
  let Xsu := load64 (word state 24)
  let Cu := xor128 Cu Xsu
  (⟨Xbage, Xbegi, Xbi, Xbo, Xbu, Xga, Xgo, Xgu, Xkame, Xkemi, Xki, Xko, Xku, Xma, Xmo, Xmu, Xsa, Xse, Xsi, Xso, Xsu⟩, ⟨Cae, Cio, Cu⟩)

/-- `copyFromStateAndXor1344bits`, KeccakF-1600-simd128.macros.h:493-547. -/
def copyFromStateAndXor1344bits_128 (state input : List U64) : Lanes128 × Cols128 :=
  let Xbae := xor128 (load128 state 0) (load128 input 0)
  let Xba := Xbae
  let Xbe := getHi Xbae Xbae
  let Cae := Xbae
  let Xbio := xor128 (load128 state 2) (load128 input 2)
  let Xbi := Xbio
  let Xbo := getHi Xbio Xbio
  let Cio := Xbio
  let Xbu := xor128 (load64 (word state 4)) (load64 (word input 4))
  let Cu := Xbu
  let Xgae := xor128 (load128 state 5) (load128 input 5)
  let Xga := Xgae
  let Xge := getHi Xgae Xgae
  let Xbage := getLo Xba Xge
  let Cae := xor128 Cae Xgae
  let Xgio := xor128 (load128 state 7) (load128 input 7)
  let Xgi := Xgio
  let Xbegi := getLo Xbe Xgi
  let Xgo := getHi Xgio Xgio
  let Cio := xor128 Cio Xgio
  let Xgu := xor128 (load64 (word state 9)) (load64 (word input 9))
  let Cu := xor128 Cu Xgu
  let Xkae := xor128 (load128 state 10) (load128 input 10)
  let Xka := Xkae
  let Xke := getHi Xkae Xkae
  let Cae := xor128 Cae Xkae
  let Xkio := xor128 (load128 state 12) (load128 input 12)
  let Xki := Xkio
  let Xko := getHi Xkio Xkio
  let Cio := xor128 Cio Xkio
  let Xku := xor128 (load64 (word state 14)) (load64 (word input 14))
  let Cu := xor128 Cu Xku
  let Xmae := xor128 (load128 state 15) (load128 input 15)
  let Xma := Xmae
  let Xme := getHi Xmae Xmae
  let Xkame := getLo Xka Xme
  let Cae := xor128 Cae Xmae
  let Xmio := xor128 (load128 state 17) (load128 input 17)
  let Xmi := Xmio
  let Xkemi := getLo Xke Xmi
  let Xmo := getHi Xmio Xmio
  let Cio := xor128 Cio Xmio
  let Xmu := xor128 (load64 (word state 19)) (load64 (word input 19))
  let Cu := xor128 Cu Xmu
  let Xsae := xor128 (load128 state 20) (load64 (word input 20))
  let Xsa := Xsae
  let Xse := getHi Xsae Xsae
  let Cae := xor128 Cae Xsae
  let Xsio := load128 state 22
  let Xsi := Xsio
  let Xso := getHi Xsio Xsio
  let Cio := xor128 Cio Xsio
  let Xsu := load64 (word state 24)
  let Cu := xor128 Cu Xsu
  (⟨Xbage, Xbegi, Xbi, Xbo, Xbu, Xga, Xgo, Xgu, Xkame, Xkemi, Xki, Xko, Xku, Xma, Xmo, Xmu, Xsa, Xse, Xsi, Xso, Xsu⟩, ⟨Cae, Cio, Cu⟩)

/-- `copyToState(state, A)`, KeccakF-1600-simd64.macros.h:464-489: all 25 words are assigned. -/
def copyToState_64 (X : Lanes) : List U64 :=
  [X.ba, X.be, X.bi, X.bo, X.bu, X.ga, X.ge, X.gi, X.go, X.gu, X.ka, X.ke, X.ki, X.ko, X.ku, X.ma, X.me, X.mi, X.mo, X.mu, X.sa, X.se, X.si, X.so, X.su]

/-- `copyToState(state, A)`, KeccakF-1600-simd128.macros.h:605-630: all 25 words are assigned (`STORE64` is `_mm_storel_epi64`). -/
def copyToState_128 (X : Lanes128) : List U64 :=
  [X.bage.lo, X.begi.lo, X.bi.lo, X.bo.lo, X.bu.lo, X.ga.lo, X.bage.hi, X.begi.hi, X.go.lo, X.gu.lo, X.kame.lo, X.kemi.lo, X.ki.lo, X.ko.lo, X.ku.lo, X.ma.lo, X.kame.hi, X.kemi.hi, X.mo.lo, X.mu.lo, X.sa.lo, X.se.lo, X.si.lo, X.so.lo, X.su.lo]

/-- `copyStateVariables(X, Y)`, KeccakF-1600-64.macros.h:702-727. -/
def copyStateVariables (X Y : Lanes) : Lanes :=
  { X with ba := Y.ba, be := Y.be, bi := Y.bi, bo := Y.bo, bu := Y.bu, ga := Y.ga, ge := Y.ge, gi := Y.gi, go := Y.go, gu := Y.gu, ka := Y.ka, ke := Y.ke, ki := Y.ki, ko := Y.ko, ku := Y.ku, ma := Y.ma, me := Y.me, mi := Y.mi, mo := Y.mo, mu := Y.mu, sa := Y.sa, se := Y.se, si := Y.si, so := Y.so, su := Y.su }

/-- `copyStateVariables(X, Y)`, KeccakF-1600-simd64.macros.h:491-516. -/
def copyStateVariables_64 (X Y : Lanes) : Lanes :=
  { X with ba := Y.ba, be := Y.be, bi := Y.bi, bo := Y.bo, bu := Y.bu, ga := Y.ga, ge := Y.ge, gi := Y.gi, go := Y.go, gu := Y.gu, ka := Y.ka, ke := Y.ke, ki := Y.ki, ko := Y.ko, ku := Y.ku, ma := Y.ma, me := Y.me, mi := Y.mi, mo := Y.mo, mu := Y.mu, sa := Y.sa, se := Y.se, si := Y.si, so := Y.so, su := Y.su }

/-- `copyStateVariables(X, Y)`, KeccakF-1600-simd128.macros.h:632-653. -/
def copyStateVariables_128 (X Y : Lanes128) : Lanes128 :=
  { X with bage := Y.bage, begi := Y.begi, bi := Y.bi, bo := Y.bo, bu := Y.bu, ga := Y.ga, go := Y.go, gu := Y.gu, kame := Y.kame, kemi := Y.kemi, ki := Y.ki, ko := Y.ko, ku := Y.ku, ma := Y.ma, mo := Y.mo, mu := Y.mu, sa := Y.sa, se := Y.se, si := Y.si, so := Y.so, su := Y.su }

/-- One line of a `rounds` macro: a round from `A` to `E` (`fromA`) or from `E` to `A`, the last round (without preparing the next theta), or
`copyStateVariables(A, E)`. KeccakF-1600-unrolling.macros.h. -/
inductive Step where
  | round (i : Nat) (fromA : Bool)
  | last (i : Nat) (fromA : Bool)
  | copy

/-- `for(i=0; i<24; i+=u) { body }`, e.g. KeccakF-1600-unrolling.macros.h:45. -/
def loop (u : Nat) (body : Nat → List Step) : List Step := (List.range (24 / u)).flatMap fun t => body (t * u)

/-- `Unrolling`, KeccakF-1600-unrolling.macros.h:14-124. -/
inductive Unrolling where
  | u24
  | u12
  | u8
  | u6
  | u4
  | u3
  | u2
  | u1

/-- The rounds between `prepareTheta` and `copyToState(state, A)`, KeccakF-1600-unrolling.macros.h:14-124. -/
def program : Unrolling → List Step
  | .u24 => [.round 0 true, .round 1 false, .round 2 true, .round 3 false, .round 4 true, .round 5 false, .round 6 true, .round 7 false, .round 8 true, .round 9 false, .round 10 true, .round 11 false, .round 12 true, .round 13 false, .round 14 true, .round 15 false, .round 16 true, .round 17 false, .round 18 true, .round 19 false, .round 20 true, .round 21 false, .round 22 true, .last 23 false]
  | .u12 => loop 12 fun i => [.round i true, .round (i + 1) false, .round (i + 2) true, .round (i + 3) false, .round (i + 4) true, .round (i + 5) false, .round (i + 6) true, .round (i + 7) false, .round (i + 8) true, .round (i + 9) false, .round (i + 10) true, .round (i + 11) false]
  | .u8 => loop 8 fun i => [.round i true, .round (i + 1) false, .round (i + 2) true, .round (i + 3) false, .round (i + 4) true, .round (i + 5) false, .round (i + 6) true, .round (i + 7) false]
  | .u6 => loop 6 fun i => [.round i true, .round (i + 1) false, .round (i + 2) true, .round (i + 3) false, .round (i + 4) true, .round (i + 5) false]
  | .u4 => loop 4 fun i => [.round i true, .round (i + 1) false, .round (i + 2) true, .round (i + 3) false]
  | .u3 => loop 3 fun i => [.round i true, .round (i + 1) false, .round (i + 2) true, .copy]
  | .u2 => loop 2 fun i => [.round i true, .round (i + 1) false]
  | .u1 => loop 1 fun i => [.round i true, .copy]

end Verif.Model.KeccakC
