import Verif.C.Basic

/-! # Model of the Keccak permutation in ref/fips202.c

The statements of the two unrolled rounds are transcribed one by one (each C assignment is one `let`). -/

namespace Verif.Model

/-- ref/fips202.c:11 `ROL` macro. -/
def rol (a : UInt64) (offset : UInt64) : UInt64 := (a <<< offset) ^^^ (a >>> (64 - offset))

/-- ref/fips202.c:48-73 `KeccakF_RoundConstants`. -/
def KeccakF_RoundConstants : Mem UInt64 := #[
  some 0x0000000000000001, some 0x0000000000008082, some 0x800000000000808a,
  some 0x8000000080008000, some 0x000000000000808b, some 0x0000000080000001,
  some 0x8000000080008081, some 0x8000000000008009, some 0x000000000000008a,
  some 0x0000000000000088, some 0x0000000080008009, some 0x000000008000000a,
  some 0x000000008000808b, some 0x800000000000008b, some 0x8000000000008089,
  some 0x8000000000008003, some 0x8000000000008002, some 0x8000000000000080,
  some 0x000000000000800a, some 0x800000008000000a, some 0x8000000080008081,
  some 0x8000000000008080, some 0x0000000080000001, some 0x8000000080008008]

/-- The 25 lane variables of `KeccakF1600_StatePermute` (ref/fips202.c:86-98); the same shape is used for the
`A` and the `E` variables. -/
structure Lanes where
  (ba be bi bo bu : UInt64)
  (ga ge gi go gu : UInt64)
  (ka ke ki ko ku : UInt64)
  (ma me mi mo mu : UInt64)
  (sa se si so su : UInt64)

/-- ref/fips202.c:128-220 (inside `KeccakF1600_StatePermute`): one round, from the `A` lanes to the `E` lanes;
`rc` is the round constant read from the table. -/
def roundAE (S : Lanes) (rc : UInt64) : Lanes :=
  let Aba := S.ba
  let Abe := S.be
  let Abi := S.bi
  let Abo := S.bo
  let Abu := S.bu
  let Aga := S.ga
  let Age := S.ge
  let Agi := S.gi
  let Ago := S.go
  let Agu := S.gu
  let Aka := S.ka
  let Ake := S.ke
  let Aki := S.ki
  let Ako := S.ko
  let Aku := S.ku
  let Ama := S.ma
  let Ame := S.me
  let Ami := S.mi
  let Amo := S.mo
  let Amu := S.mu
  let Asa := S.sa
  let Ase := S.se
  let Asi := S.si
  let Aso := S.so
  let Asu := S.su
  let BCa := Aba ^^^ Aga ^^^ Aka ^^^ Ama ^^^ Asa
  let BCe := Abe ^^^ Age ^^^ Ake ^^^ Ame ^^^ Ase
  let BCi := Abi ^^^ Agi ^^^ Aki ^^^ Ami ^^^ Asi
  let BCo := Abo ^^^ Ago ^^^ Ako ^^^ Amo ^^^ Aso
  let BCu := Abu ^^^ Agu ^^^ Aku ^^^ Amu ^^^ Asu
  let Da := BCu ^^^ (rol BCe 1)
  let De := BCa ^^^ (rol BCi 1)
  let Di := BCe ^^^ (rol BCo 1)
  let Do := BCi ^^^ (rol BCu 1)
  let Du := BCo ^^^ (rol BCa 1)
  let Aba := Aba ^^^ Da
  let BCa := Aba
  let Age := Age ^^^ De
  let BCe := rol Age 44
  let Aki := Aki ^^^ Di
  let BCi := rol Aki 43
  let Amo := Amo ^^^ Do
  let BCo := rol Amo 21
  let Asu := Asu ^^^ Du
  let BCu := rol Asu 14
  let Eba := BCa ^^^ ((~~~BCe) &&& BCi )
  let Eba := Eba ^^^ rc
  let Ebe := BCe ^^^ ((~~~BCi) &&& BCo )
  let Ebi := BCi ^^^ ((~~~BCo) &&& BCu )
  let Ebo := BCo ^^^ ((~~~BCu) &&& BCa )
  let Ebu := BCu ^^^ ((~~~BCa) &&& BCe )
  let Abo := Abo ^^^ Do
  let BCa := rol Abo 28
  let Agu := Agu ^^^ Du
  let BCe := rol Agu 20
  let Aka := Aka ^^^ Da
  let BCi := rol Aka 3
  let Ame := Ame ^^^ De
  let BCo := rol Ame 45
  let Asi := Asi ^^^ Di
  let BCu := rol Asi 61
  let Ega := BCa ^^^ ((~~~BCe) &&& BCi )
  let Ege := BCe ^^^ ((~~~BCi) &&& BCo )
  let Egi := BCi ^^^ ((~~~BCo) &&& BCu )
  let Ego := BCo ^^^ ((~~~BCu) &&& BCa )
  let Egu := BCu ^^^ ((~~~BCa) &&& BCe )
  let Abe := Abe ^^^ De
  let BCa := rol Abe 1
  let Agi := Agi ^^^ Di
  let BCe := rol Agi 6
  let Ako := Ako ^^^ Do
  let BCi := rol Ako 25
  let Amu := Amu ^^^ Du
  let BCo := rol Amu 8
  let Asa := Asa ^^^ Da
  let BCu := rol Asa 18
  let Eka := BCa ^^^ ((~~~BCe) &&& BCi )
  let Eke := BCe ^^^ ((~~~BCi) &&& BCo )
  let Eki := BCi ^^^ ((~~~BCo) &&& BCu )
  let Eko := BCo ^^^ ((~~~BCu) &&& BCa )
  let Eku := BCu ^^^ ((~~~BCa) &&& BCe )
  let Abu := Abu ^^^ Du
  let BCa := rol Abu 27
  let Aga := Aga ^^^ Da
  let BCe := rol Aga 36
  let Ake := Ake ^^^ De
  let BCi := rol Ake 10
  let Ami := Ami ^^^ Di
  let BCo := rol Ami 15
  let Aso := Aso ^^^ Do
  let BCu := rol Aso 56
  let Ema := BCa ^^^ ((~~~BCe) &&& BCi )
  let Eme := BCe ^^^ ((~~~BCi) &&& BCo )
  let Emi := BCi ^^^ ((~~~BCo) &&& BCu )
  let Emo := BCo ^^^ ((~~~BCu) &&& BCa )
  let Emu := BCu ^^^ ((~~~BCa) &&& BCe )
  let Abi := Abi ^^^ Di
  let BCa := rol Abi 62
  let Ago := Ago ^^^ Do
  let BCe := rol Ago 55
  let Aku := Aku ^^^ Du
  let BCi := rol Aku 39
  let Ama := Ama ^^^ Da
  let BCo := rol Ama 41
  let Ase := Ase ^^^ De
  let BCu := rol Ase 2
  let Esa := BCa ^^^ ((~~~BCe) &&& BCi )
  let Ese := BCe ^^^ ((~~~BCi) &&& BCo )
  let Esi := BCi ^^^ ((~~~BCo) &&& BCu )
  let Eso := BCo ^^^ ((~~~BCu) &&& BCa )
  let Esu := BCu ^^^ ((~~~BCa) &&& BCe )
  { ba := Eba, be := Ebe, bi := Ebi, bo := Ebo, bu := Ebu, ga := Ega, ge := Ege, gi := Egi, go := Ego, gu := Egu, ka := Eka, ke := Eke, ki := Eki, ko := Eko, ku := Eku, ma := Ema, me := Eme, mi := Emi, mo := Emo, mu := Emu, sa := Esa, se := Ese, si := Esi, so := Eso, su := Esu }

/-- ref/fips202.c:223-315 (inside `KeccakF1600_StatePermute`): one round, from the `E` lanes to the `A` lanes;
`rc` is the round constant read from the table. -/
def roundEA (S : Lanes) (rc : UInt64) : Lanes :=
  let Eba := S.ba
  let Ebe := S.be
  let Ebi := S.bi
  let Ebo := S.bo
  let Ebu := S.bu
  let Ega := S.ga
  let Ege := S.ge
  let Egi := S.gi
  let Ego := S.go
  let Egu := S.gu
  let Eka := S.ka
  let Eke := S.ke
  let Eki := S.ki
  let Eko := S.ko
  let Eku := S.ku
  let Ema := S.ma
  let Eme := S.me
  let Emi := S.mi
  let Emo := S.mo
  let Emu := S.mu
  let Esa := S.sa
  let Ese := S.se
  let Esi := S.si
  let Eso := S.so
  let Esu := S.su
  let BCa := Eba ^^^ Ega ^^^ Eka ^^^ Ema ^^^ Esa
  let BCe := Ebe ^^^ Ege ^^^ Eke ^^^ Eme ^^^ Ese
  let BCi := Ebi ^^^ Egi ^^^ Eki ^^^ Emi ^^^ Esi
  let BCo := Ebo ^^^ Ego ^^^ Eko ^^^ Emo ^^^ Eso
  let BCu := Ebu ^^^ Egu ^^^ Eku ^^^ Emu ^^^ Esu
  let Da := BCu ^^^ (rol BCe 1)
  let De := BCa ^^^ (rol BCi 1)
  let Di := BCe ^^^ (rol BCo 1)
  let Do := BCi ^^^ (rol BCu 1)
  let Du := BCo ^^^ (rol BCa 1)
  let Eba := Eba ^^^ Da
  let BCa := Eba
  let Ege := Ege ^^^ De
  let BCe := rol Ege 44
  let Eki := Eki ^^^ Di
  let BCi := rol Eki 43
  let Emo := Emo ^^^ Do
  let BCo := rol Emo 21
  let Esu := Esu ^^^ Du
  let BCu := rol Esu 14
  let Aba := BCa ^^^ ((~~~BCe) &&& BCi )
  let Aba := Aba ^^^ rc
  let Abe := BCe ^^^ ((~~~BCi) &&& BCo )
  let Abi := BCi ^^^ ((~~~BCo) &&& BCu )
  let Abo := BCo ^^^ ((~~~BCu) &&& BCa )
  let Abu := BCu ^^^ ((~~~BCa) &&& BCe )
  let Ebo := Ebo ^^^ Do
  let BCa := rol Ebo 28
  let Egu := Egu ^^^ Du
  let BCe := rol Egu 20
  let Eka := Eka ^^^ Da
  let BCi := rol Eka 3
  let Eme := Eme ^^^ De
  let BCo := rol Eme 45
  let Esi := Esi ^^^ Di
  let BCu := rol Esi 61
  let Aga := BCa ^^^ ((~~~BCe) &&& BCi )
  let Age := BCe ^^^ ((~~~BCi) &&& BCo )
  let Agi := BCi ^^^ ((~~~BCo) &&& BCu )
  let Ago := BCo ^^^ ((~~~BCu) &&& BCa )
  let Agu := BCu ^^^ ((~~~BCa) &&& BCe )
  let Ebe := Ebe ^^^ De
  let BCa := rol Ebe 1
  let Egi := Egi ^^^ Di
  let BCe := rol Egi 6
  let Eko := Eko ^^^ Do
  let BCi := rol Eko 25
  let Emu := Emu ^^^ Du
  let BCo := rol Emu 8
  let Esa := Esa ^^^ Da
  let BCu := rol Esa 18
  let Aka := BCa ^^^ ((~~~BCe) &&& BCi )
  let Ake := BCe ^^^ ((~~~BCi) &&& BCo )
  let Aki := BCi ^^^ ((~~~BCo) &&& BCu )
  let Ako := BCo ^^^ ((~~~BCu) &&& BCa )
  let Aku := BCu ^^^ ((~~~BCa) &&& BCe )
  let Ebu := Ebu ^^^ Du
  let BCa := rol Ebu 27
  let Ega := Ega ^^^ Da
  let BCe := rol Ega 36
  let Eke := Eke ^^^ De
  let BCi := rol Eke 10
  let Emi := Emi ^^^ Di
  let BCo := rol Emi 15
  let Eso := Eso ^^^ Do
  let BCu := rol Eso 56
  let Ama := BCa ^^^ ((~~~BCe) &&& BCi )
  let Ame := BCe ^^^ ((~~~BCi) &&& BCo )
  let Ami := BCi ^^^ ((~~~BCo) &&& BCu )
  let Amo := BCo ^^^ ((~~~BCu) &&& BCa )
  let Amu := BCu ^^^ ((~~~BCa) &&& BCe )
  let Ebi := Ebi ^^^ Di
  let BCa := rol Ebi 62
  let Ego := Ego ^^^ Do
  let BCe := rol Ego 55
  let Eku := Eku ^^^ Du
  let BCi := rol Eku 39
  let Ema := Ema ^^^ Da
  let BCo := rol Ema 41
  let Ese := Ese ^^^ De
  let BCu := rol Ese 2
  let Asa := BCa ^^^ ((~~~BCe) &&& BCi )
  let Ase := BCe ^^^ ((~~~BCi) &&& BCo )
  let Asi := BCi ^^^ ((~~~BCo) &&& BCu )
  let Aso := BCo ^^^ ((~~~BCu) &&& BCa )
  let Asu := BCu ^^^ ((~~~BCa) &&& BCe )
  { ba := Aba, be := Abe, bi := Abi, bo := Abo, bu := Abu, ga := Aga, ge := Age, gi := Agi, go := Ago, gu := Agu, ka := Aka, ke := Ake, ki := Aki, ko := Ako, ku := Aku, ma := Ama, me := Ame, mi := Ami, mo := Amo, mu := Amu, sa := Asa, se := Ase, si := Asi, so := Aso, su := Asu }

/-- ref/fips202.c:99-124 copyFromState. -/
def copyFromState (state : Mem UInt64) : C Lanes := do
  let Aba ← rd state 0
  let Abe ← rd state 1
  let Abi ← rd state 2
  let Abo ← rd state 3
  let Abu ← rd state 4
  let Aga ← rd state 5
  let Age ← rd state 6
  let Agi ← rd state 7
  let Ago ← rd state 8
  let Agu ← rd state 9
  let Aka ← rd state 10
  let Ake ← rd state 11
  let Aki ← rd state 12
  let Ako ← rd state 13
  let Aku ← rd state 14
  let Ama ← rd state 15
  let Ame ← rd state 16
  let Ami ← rd state 17
  let Amo ← rd state 18
  let Amu ← rd state 19
  let Asa ← rd state 20
  let Ase ← rd state 21
  let Asi ← rd state 22
  let Aso ← rd state 23
  let Asu ← rd state 24
  pure { ba := Aba, be := Abe, bi := Abi, bo := Abo, bu := Abu, ga := Aga, ge := Age, gi := Agi, go := Ago, gu := Agu, ka := Aka, ke := Ake, ki := Aki, ko := Ako, ku := Aku, ma := Ama, me := Ame, mi := Ami, mo := Amo, mu := Amu, sa := Asa, se := Ase, si := Asi, so := Aso, su := Asu }

/-- ref/fips202.c:318-343 copyToState. -/
def copyToState (state : Mem UInt64) (A : Lanes) : C (Mem UInt64) := do
  let state ← wr state 0 A.ba
  let state ← wr state 1 A.be
  let state ← wr state 2 A.bi
  let state ← wr state 3 A.bo
  let state ← wr state 4 A.bu
  let state ← wr state 5 A.ga
  let state ← wr state 6 A.ge
  let state ← wr state 7 A.gi
  let state ← wr state 8 A.go
  let state ← wr state 9 A.gu
  let state ← wr state 10 A.ka
  let state ← wr state 11 A.ke
  let state ← wr state 12 A.ki
  let state ← wr state 13 A.ko
  let state ← wr state 14 A.ku
  let state ← wr state 15 A.ma
  let state ← wr state 16 A.me
  let state ← wr state 17 A.mi
  let state ← wr state 18 A.mo
  let state ← wr state 19 A.mu
  let state ← wr state 20 A.sa
  let state ← wr state 21 A.se
  let state ← wr state 22 A.si
  let state ← wr state 23 A.so
  let state ← wr state 24 A.su
  pure state

/-- ref/fips202.c:82-344 `KeccakF1600_StatePermute`. The C loop `for(round = 0; round < NROUNDS; round += 2)` is run as
12 iterations with `round = 2*i`. -/
def KeccakF1600_StatePermute (state : Mem UInt64) : C (Mem UInt64) := do
  let A ← copyFromState state
  let A ← cfor 0 12 A fun i A => do
    let round := 2 * i
    let rc0 ← rd KeccakF_RoundConstants round
    let E := roundAE A rc0
    let rc1 ← rd KeccakF_RoundConstants (round + 1)
    pure (roundEA E rc1)
  copyToState state A

end Verif.Model
