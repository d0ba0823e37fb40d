import Verif.Model.Fips202

/-! # avx2/keccak4x: four Keccak permutations in parallel

A `__m256i` of this code is used as four 64-bit lanes, `V4`. The macros of KeccakP-1600-times4-SIMD256.c are transcribed statement by statement. They
assign to variables `A##xy` and `E##xy`; the assignments `A##xy ^= D` change variables that the next round overwrites before reading them, so a
round is a function from the `A` to the `E` variables. The state is a `__m256i` array, hence aligned as `LOAD256` and `STORE256` require. -/

namespace Verif.Avx
open Verif.Model (byteAt byteOf)

/-- A 256-bit value as four 64-bit lanes. -/
abbrev V4 := Fin 4 → UInt64

/-- avx2/keccak4x/KeccakP-1600-times4-SIMD256.c:54 `_mm256_xor_si256` -/
def XOR256 (a b : V4) : V4 := fun j => a j ^^^ b j
/-- avx2/keccak4x/KeccakP-1600-times4-SIMD256.c:40 `_mm256_andnot_si256` -/
def ANDnu256 (a b : V4) : V4 := fun j => ~~~(a j) &&& b j
/-- avx2/keccak4x/KeccakP-1600-times4-SIMD256.c:42 `_mm256_broadcast_sd` -/
def CONST256_64 (a : UInt64) : V4 := fun _ => a
/-- avx2/keccak4x/KeccakP-1600-times4-SIMD256.c:46 `_mm256_or_si256(_mm256_slli_epi64(a, o), _mm256_srli_epi64(a, 64-(o)))`, for 0 < o < 64 -/
def ROL64in256 (a : V4) (o : UInt64) : V4 := fun j => (a j <<< o) ||| (a j >>> (64 - o))

/-- `_mm256_shuffle_epi8`: byte `t` of lane `j` is the byte of the same 128-bit half of `a` numbered by the low four bits of the byte of `b`, or zero if
the highest bit of the byte of `b` is set. -/
def shuffle_epi8 (a b : V4) : V4 := fun j =>
  (List.range 8).foldl (fun w t =>
    let m := (byteOf (b j) t).toNat
    w ||| (if 128 ≤ m then 0 else byteAt (byteOf (a ⟨j.val / 2 * 2 + m % 16 / 8, by omega⟩) (m % 8)) t)) 0

/-- avx2/keccak4x/KeccakP-1600-times4-SIMD256.c:49-50 -/
def rho8 : V4 := fun j => [0x0605040302010007, 0x0E0D0C0B0A09080F, 0x1615141312111017, 0x1E1D1C1B1A19181F].getD j.val 0
def rho56 : V4 := fun j => [0x0007060504030201, 0x080F0E0D0C0B0A09, 0x1017161514131211, 0x181F1E1D1C1B1A19].getD j.val 0
/-- avx2/keccak4x/KeccakP-1600-times4-SIMD256.c:47-48 -/
def ROL64in256_8 (a : V4) : V4 := shuffle_epi8 a rho8
def ROL64in256_56 (a : V4) : V4 := shuffle_epi8 a rho56

/-- The variables `A##xy` or `E##xy`. -/
structure Lanes4 where
  (ba be bi bo bu : V4)
  (ga ge gi go gu : V4)
  (ka ke ki ko ku : V4)
  (ma me mi mo mu : V4)
  (sa se si so su : V4)

/-- The variables `Ca`, `Ce`, `Ci`, `Co`, `Cu`. -/
structure Theta where
  (a e i o u : V4)

/-- avx2/keccak4x/KeccakP-1600-times4-SIMD256.c:464-469 `prepareTheta`. -/
def prepareTheta (S : Lanes4) : Theta :=
  let Aba := S.ba
  let Abe := S.be
  let Abi := S.bi
  let Abo := S.bo
  let Abu := S.bu
  let Aga := S.ga
  let Age := S.ge
  let Agi := S.gi
  let Ago := S.go
  let Agu := S.gu
  let Aka := S.ka
  let Ake := S.ke
  let Aki := S.ki
  let Ako := S.ko
  let Aku := S.ku
  let Ama := S.ma
  let Ame := S.me
  let Ami := S.mi
  let Amo := S.mo
  let Amu := S.mu
  let Asa := S.sa
  let Ase := S.se
  let Asi := S.si
  let Aso := S.so
  let Asu := S.su
  let Ca := XOR256 Aba (XOR256 Aga (XOR256 Aka (XOR256 Ama Asa)))
  let Ce := XOR256 Abe (XOR256 Age (XOR256 Ake (XOR256 Ame Ase)))
  let Ci := XOR256 Abi (XOR256 Agi (XOR256 Aki (XOR256 Ami Asi)))
  let Co := XOR256 Abo (XOR256 Ago (XOR256 Ako (XOR256 Amo Aso)))
  let Cu := XOR256 Abu (XOR256 Agu (XOR256 Aku (XOR256 Amu Asu)))
  ⟨Ca, Ce, Ci, Co, Cu⟩

/-- avx2/keccak4x/KeccakP-1600-times4-SIMD256.c:473-590 `thetaRhoPiChiIotaPrepareTheta(i, A, E)`, for any names `A`, `E`; `rc` is the round constant
number `i`. -/
def thetaRhoPiChiIotaPrepareTheta (rc : UInt64) (S : Lanes4) (C : Theta) : Lanes4 × Theta :=
  let Aba := S.ba
  let Abe := S.be
  let Abi := S.bi
  let Abo := S.bo
  let Abu := S.bu
  let Aga := S.ga
  let Age := S.ge
  let Agi := S.gi
  let Ago := S.go
  let Agu := S.gu
  let Aka := S.ka
  let Ake := S.ke
  let Aki := S.ki
  let Ako := S.ko
  let Aku := S.ku
  let Ama := S.ma
  let Ame := S.me
  let Ami := S.mi
  let Amo := S.mo
  let Amu := S.mu
  let Asa := S.sa
  let Ase := S.se
  let Asi := S.si
  let Aso := S.so
  let Asu := S.su
  let Ca := C.a
  let Ce := C.e
  let Ci := C.i
  let Co := C.o
  let Cu := C.u
  let Ce1 := ROL64in256 Ce 1
  let Da := XOR256 Cu Ce1
  let Ci1 := ROL64in256 Ci 1
  let De := XOR256 Ca Ci1
  let Co1 := ROL64in256 Co 1
  let Di := XOR256 Ce Co1
  let Cu1 := ROL64in256 Cu 1
  let Do := XOR256 Ci Cu1
  let Ca1 := ROL64in256 Ca 1
  let Du := XOR256 Co Ca1
  let Aba := XOR256 Aba Da
  let Bba := Aba
  let Age := XOR256 Age De
  let Bbe := ROL64in256 Age 44
  let Aki := XOR256 Aki Di
  let Bbi := ROL64in256 Aki 43
  let Eba := XOR256 Bba (ANDnu256 Bbe Bbi)
  let Eba := XOR256 Eba (CONST256_64 rc)
  let Ca := Eba
  let Amo := XOR256 Amo Do
  let Bbo := ROL64in256 Amo 21
  let Ebe := XOR256 Bbe (ANDnu256 Bbi Bbo)
  let Ce := Ebe
  let Asu := XOR256 Asu Du
  let Bbu := ROL64in256 Asu 14
  let Ebi := XOR256 Bbi (ANDnu256 Bbo Bbu)
  let Ci := Ebi
  let Ebo := XOR256 Bbo (ANDnu256 Bbu Bba)
  let Co := Ebo
  let Ebu := XOR256 Bbu (ANDnu256 Bba Bbe)
  let Cu := Ebu
  let Abo := XOR256 Abo Do
  let Bga := ROL64in256 Abo 28
  let Agu := XOR256 Agu Du
  let Bge := ROL64in256 Agu 20
  let Aka := XOR256 Aka Da
  let Bgi := ROL64in256 Aka 3
  let Ega := XOR256 Bga (ANDnu256 Bge Bgi)
  let Ca := XOR256 Ca Ega
  let Ame := XOR256 Ame De
  let Bgo := ROL64in256 Ame 45
  let Ege := XOR256 Bge (ANDnu256 Bgi Bgo)
  let Ce := XOR256 Ce Ege
  let Asi := XOR256 Asi Di
  let Bgu := ROL64in256 Asi 61
  let Egi := XOR256 Bgi (ANDnu256 Bgo Bgu)
  let Ci := XOR256 Ci Egi
  let Ego := XOR256 Bgo (ANDnu256 Bgu Bga)
  let Co := XOR256 Co Ego
  let Egu := XOR256 Bgu (ANDnu256 Bga Bge)
  let Cu := XOR256 Cu Egu
  let Abe := XOR256 Abe De
  let Bka := ROL64in256 Abe 1
  let Agi := XOR256 Agi Di
  let Bke := ROL64in256 Agi 6
  let Ako := XOR256 Ako Do
  let Bki := ROL64in256 Ako 25
  let Eka := XOR256 Bka (ANDnu256 Bke Bki)
  let Ca := XOR256 Ca Eka
  let Amu := XOR256 Amu Du
  let Bko := ROL64in256_8 Amu
  let Eke := XOR256 Bke (ANDnu256 Bki Bko)
  let Ce := XOR256 Ce Eke
  let Asa := XOR256 Asa Da
  let Bku := ROL64in256 Asa 18
  let Eki := XOR256 Bki (ANDnu256 Bko Bku)
  let Ci := XOR256 Ci Eki
  let Eko := XOR256 Bko (ANDnu256 Bku Bka)
  let Co := XOR256 Co Eko
  let Eku := XOR256 Bku (ANDnu256 Bka Bke)
  let Cu := XOR256 Cu Eku
  let Abu := XOR256 Abu Du
  let Bma := ROL64in256 Abu 27
  let Aga := XOR256 Aga Da
  let Bme := ROL64in256 Aga 36
  let Ake := XOR256 Ake De
  let Bmi := ROL64in256 Ake 10
  let Ema := XOR256 Bma (ANDnu256 Bme Bmi)
  let Ca := XOR256 Ca Ema
  let Ami := XOR256 Ami Di
  let Bmo := ROL64in256 Ami 15
  let Eme := XOR256 Bme (ANDnu256 Bmi Bmo)
  let Ce := XOR256 Ce Eme
  let Aso := XOR256 Aso Do
  let Bmu := ROL64in256_56 Aso
  let Emi := XOR256 Bmi (ANDnu256 Bmo Bmu)
  let Ci := XOR256 Ci Emi
  let Emo := XOR256 Bmo (ANDnu256 Bmu Bma)
  let Co := XOR256 Co Emo
  let Emu := XOR256 Bmu (ANDnu256 Bma Bme)
  let Cu := XOR256 Cu Emu
  let Abi := XOR256 Abi Di
  let Bsa := ROL64in256 Abi 62
  let Ago := XOR256 Ago Do
  let Bse := ROL64in256 Ago 55
  let Aku := XOR256 Aku Du
  let Bsi := ROL64in256 Aku 39
  let Esa := XOR256 Bsa (ANDnu256 Bse Bsi)
  let Ca := XOR256 Ca Esa
  let Ama := XOR256 Ama Da
  let Bso := ROL64in256 Ama 41
  let Ese := XOR256 Bse (ANDnu256 Bsi Bso)
  let Ce := XOR256 Ce Ese
  let Ase := XOR256 Ase De
  let Bsu := ROL64in256 Ase 2
  let Esi := XOR256 Bsi (ANDnu256 Bso Bsu)
  let Ci := XOR256 Ci Esi
  let Eso := XOR256 Bso (ANDnu256 Bsu Bsa)
  let Co := XOR256 Co Eso
  let Esu := XOR256 Bsu (ANDnu256 Bsa Bse)
  let Cu := XOR256 Cu Esu
  (⟨Eba, Ebe, Ebi, Ebo, Ebu, Ega, Ege, Egi, Ego, Egu, Eka, Eke, Eki, Eko, Eku, Ema, Eme, Emi, Emo, Emu, Esa, Ese, Esi, Eso, Esu⟩, ⟨Ca, Ce, Ci, Co, Cu⟩)

/-- avx2/keccak4x/KeccakP-1600-times4-SIMD256.c:594-686 `thetaRhoPiChiIota(i, A, E)`. -/
def thetaRhoPiChiIota (rc : UInt64) (S : Lanes4) (C : Theta) : Lanes4 :=
  let Aba := S.ba
  let Abe := S.be
  let Abi := S.bi
  let Abo := S.bo
  let Abu := S.bu
  let Aga := S.ga
  let Age := S.ge
  let Agi := S.gi
  let Ago := S.go
  let Agu := S.gu
  let Aka := S.ka
  let Ake := S.ke
  let Aki := S.ki
  let Ako := S.ko
  let Aku := S.ku
  let Ama := S.ma
  let Ame := S.me
  let Ami := S.mi
  let Amo := S.mo
  let Amu := S.mu
  let Asa := S.sa
  let Ase := S.se
  let Asi := S.si
  let Aso := S.so
  let Asu := S.su
  let Ca := C.a
  let Ce := C.e
  let Ci := C.i
  let Co := C.o
  let Cu := C.u
  let Ce1 := ROL64in256 Ce 1
  let Da := XOR256 Cu Ce1
  let Ci1 := ROL64in256 Ci 1
  let De := XOR256 Ca Ci1
  let Co1 := ROL64in256 Co 1
  let Di := XOR256 Ce Co1
  let Cu1 := ROL64in256 Cu 1
  let Do := XOR256 Ci Cu1
  let Ca1 := ROL64in256 Ca 1
  let Du := XOR256 Co Ca1
  let Aba := XOR256 Aba Da
  let Bba := Aba
  let Age := XOR256 Age De
  let Bbe := ROL64in256 Age 44
  let Aki := XOR256 Aki Di
  let Bbi := ROL64in256 Aki 43
  let Eba := XOR256 Bba (ANDnu256 Bbe Bbi)
  let Eba := XOR256 Eba (CONST256_64 rc)
  let Amo := XOR256 Amo Do
  let Bbo := ROL64in256 Amo 21
  let Ebe := XOR256 Bbe (ANDnu256 Bbi Bbo)
  let Asu := XOR256 Asu Du
  let Bbu := ROL64in256 Asu 14
  let Ebi := XOR256 Bbi (ANDnu256 Bbo Bbu)
  let Ebo := XOR256 Bbo (ANDnu256 Bbu Bba)
  let Ebu := XOR256 Bbu (ANDnu256 Bba Bbe)
  let Abo := XOR256 Abo Do
  let Bga := ROL64in256 Abo 28
  let Agu := XOR256 Agu Du
  let Bge := ROL64in256 Agu 20
  let Aka := XOR256 Aka Da
  let Bgi := ROL64in256 Aka 3
  let Ega := XOR256 Bga (ANDnu256 Bge Bgi)
  let Ame := XOR256 Ame De
  let Bgo := ROL64in256 Ame 45
  let Ege := XOR256 Bge (ANDnu256 Bgi Bgo)
  let Asi := XOR256 Asi Di
  let Bgu := ROL64in256 Asi 61
  let Egi := XOR256 Bgi (ANDnu256 Bgo Bgu)
  let Ego := XOR256 Bgo (ANDnu256 Bgu Bga)
  let Egu := XOR256 Bgu (ANDnu256 Bga Bge)
  let Abe := XOR256 Abe De
  let Bka := ROL64in256 Abe 1
  let Agi := XOR256 Agi Di
  let Bke := ROL64in256 Agi 6
  let Ako := XOR256 Ako Do
  let Bki := ROL64in256 Ako 25
  let Eka := XOR256 Bka (ANDnu256 Bke Bki)
  let Amu := XOR256 Amu Du
  let Bko := ROL64in256_8 Amu
  let Eke := XOR256 Bke (ANDnu256 Bki Bko)
  let Asa := XOR256 Asa Da
  let Bku := ROL64in256 Asa 18
  let Eki := XOR256 Bki (ANDnu256 Bko Bku)
  let Eko := XOR256 Bko (ANDnu256 Bku Bka)
  let Eku := XOR256 Bku (ANDnu256 Bka Bke)
  let Abu := XOR256 Abu Du
  let Bma := ROL64in256 Abu 27
  let Aga := XOR256 Aga Da
  let Bme := ROL64in256 Aga 36
  let Ake := XOR256 Ake De
  let Bmi := ROL64in256 Ake 10
  let Ema := XOR256 Bma (ANDnu256 Bme Bmi)
  let Ami := XOR256 Ami Di
  let Bmo := ROL64in256 Ami 15
  let Eme := XOR256 Bme (ANDnu256 Bmi Bmo)
  let Aso := XOR256 Aso Do
  let Bmu := ROL64in256_56 Aso
  let Emi := XOR256 Bmi (ANDnu256 Bmo Bmu)
  let Emo := XOR256 Bmo (ANDnu256 Bmu Bma)
  let Emu := XOR256 Bmu (ANDnu256 Bma Bme)
  let Abi := XOR256 Abi Di
  let Bsa := ROL64in256 Abi 62
  let Ago := XOR256 Ago Do
  let Bse := ROL64in256 Ago 55
  let Aku := XOR256 Aku Du
  let Bsi := ROL64in256 Aku 39
  let Esa := XOR256 Bsa (ANDnu256 Bse Bsi)
  let Ama := XOR256 Ama Da
  let Bso := ROL64in256 Ama 41
  let Ese := XOR256 Bse (ANDnu256 Bsi Bso)
  let Ase := XOR256 Ase De
  let Bsu := ROL64in256 Ase 2
  let Esi := XOR256 Bsi (ANDnu256 Bso Bsu)
  let Eso := XOR256 Bso (ANDnu256 Bsu Bsa)
  let Esu := XOR256 Bsu (ANDnu256 Bsa Bse)
  ⟨Eba, Ebe, Ebi, Ebo, Ebu, Ega, Ege, Egi, Ego, Egu, Eka, Eke, Eki, Eko, Eku, Ema, Eme, Emi, Emo, Emu, Esa, Ese, Esi, Eso, Esu⟩

/-- avx2/keccak4x/KeccakP-1600-times4-SIMD256.c:688-712 `KeccakF1600RoundConstants`. -/
def KeccakF1600RoundConstants : Mem UInt64 := #[
  some 0x0000000000000001, some 0x0000000000008082, some 0x800000000000808a,
  some 0x8000000080008000, some 0x000000000000808b, some 0x0000000080000001,
  some 0x8000000080008081, some 0x8000000000008009, some 0x000000000000008a,
  some 0x0000000000000088, some 0x0000000080008009, some 0x000000008000000a,
  some 0x000000008000808b, some 0x800000000000008b, some 0x8000000000008089,
  some 0x8000000000008003, some 0x8000000000008002, some 0x8000000000000080,
  some 0x000000000000800a, some 0x800000008000000a, some 0x8000000080008081,
  some 0x8000000000008080, some 0x0000000080000001, some 0x8000000080008008]

/-- avx2/keccak4x/KeccakP-1600-times4-SIMD256.c:714-739 `copyFromState`. -/
def copyFromState4 (s : Mem V4) : C Lanes4 := do
  let ba ← rd s 0
  let be ← rd s 1
  let bi ← rd s 2
  let bo ← rd s 3
  let bu ← rd s 4
  let ga ← rd s 5
  let ge ← rd s 6
  let gi ← rd s 7
  let go ← rd s 8
  let gu ← rd s 9
  let ka ← rd s 10
  let ke ← rd s 11
  let ki ← rd s 12
  let ko ← rd s 13
  let ku ← rd s 14
  let ma ← rd s 15
  let me ← rd s 16
  let mi ← rd s 17
  let mo ← rd s 18
  let mu ← rd s 19
  let sa ← rd s 20
  let se ← rd s 21
  let si ← rd s 22
  let so ← rd s 23
  let su ← rd s 24
  pure ⟨ba, be, bi, bo, bu, ga, ge, gi, go, gu, ka, ke, ki, ko, ku, ma, me, mi, mo, mu, sa, se, si, so, su⟩

/-- avx2/keccak4x/KeccakP-1600-times4-SIMD256.c:741-766 `copyToState`. -/
def copyToState4 (s : Mem V4) (X : Lanes4) : C (Mem V4) := do
  let s ← wr s 0 X.ba
  let s ← wr s 1 X.be
  let s ← wr s 2 X.bi
  let s ← wr s 3 X.bo
  let s ← wr s 4 X.bu
  let s ← wr s 5 X.ga
  let s ← wr s 6 X.ge
  let s ← wr s 7 X.gi
  let s ← wr s 8 X.go
  let s ← wr s 9 X.gu
  let s ← wr s 10 X.ka
  let s ← wr s 11 X.ke
  let s ← wr s 12 X.ki
  let s ← wr s 13 X.ko
  let s ← wr s 14 X.ku
  let s ← wr s 15 X.ma
  let s ← wr s 16 X.me
  let s ← wr s 17 X.mi
  let s ← wr s 18 X.mo
  let s ← wr s 19 X.mu
  let s ← wr s 20 X.sa
  let s ← wr s 21 X.se
  let s ← wr s 22 X.si
  let s ← wr s 23 X.so
  wr s 24 X.su
/-- avx2/keccak4x/KeccakP-1600-unrolling.macros:16-42 `rounds24` (`FullUnrolling`, KeccakP-SIMD256-config.h:2): rounds 0 to 22 with the macro that
prepares the next theta, round 23 without. -/
def rounds24 (S : Lanes4) : C Lanes4 := do
  let (S, T) ← cfor 0 23 (S, prepareTheta S) fun i (S, T) => do
    let rc ← rd KeccakF1600RoundConstants i
    pure (thetaRhoPiChiIotaPrepareTheta rc S T)
  let rc ← rd KeccakF1600RoundConstants 23
  pure (thetaRhoPiChiIota rc S T)

/-- avx2/keccak4x/KeccakP-1600-times4-SIMD256.c:802-813 `KeccakP1600times4_PermuteAll_24rounds` -/
def PermuteAll_24rounds (s : Mem V4) : C (Mem V4) := do
  let S ← copyFromState4 s
  let S ← rounds24 S
  copyToState4 s S

/-- The same with the addresses of the arrays `rho8` and `rho56`, which are declared without alignment (KeccakP-1600-times4-SIMD256.c:49-50) but read by
`_mm256_load_si256` (lines 41, 47, 48), which needs a multiple of 32. `PermuteAll_24rounds`, used in the rest of the model, is the case that both are. -/
def PermuteAll_24rounds_at (rho8_addr rho56_addr : Nat) (s : Mem V4) : C (Mem V4) :=
  if rho8_addr % 32 = 0 ∧ rho56_addr % 32 = 0 then PermuteAll_24rounds s else .ub .align

end Verif.Avx
