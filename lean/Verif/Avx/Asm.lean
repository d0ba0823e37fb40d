import Verif.Avx.Vm

/-!
# The assembly files of /repo/avx2

Instruction names and operand order (sources first, destination last) are those of the files. A register argument `n` is `%ymmn`.
A memory operand is an object number and a byte offset in it. A memory operand of an arithmetic instruction is first loaded into a register
numbered 16 or above (which the code does not use); all such operands are aligned in the code.
-/

namespace Verif.Avx

/-! ## Instructions -/

def vpaddw (s1 s2 d : Nat) : I := .op d (.lw .add) [s2, s1] 16
/-- `d = s2 - s1` -/
def vpsubw (s1 s2 d : Nat) : I := .op d (.lw .sub) [s2, s1] 16
def vpmullw (s1 s2 d : Nat) : I := .op d (.lw .mullo) [s2, s1] 16
def vpmulhw (s1 s2 d : Nat) : I := .op d (.lw .mulhi) [s2, s1] 16
def vpmulhrsw (s1 s2 d : Nat) : I := .op d (.lw .mulhrs) [s2, s1] 16
def vpand (s1 s2 d : Nat) : I := .op d (.lw .and) [s2, s1] 16
def vpor (s1 s2 d : Nat) : I := .op d (.lw .or) [s2, s1] 16
def vpsraw (k s d : Nat) : I := .op d (.lw (.sra k)) [s] 16
def vpsllw (k s d : Nat) : I := .op d (.lw (.sll k)) [s] 16
def vpsrlw (k s d : Nat) : I := .op d (.lw (.srl k)) [s] 16
def vperm2i128 (imm s1 s2 d : Nat) : I := .op d (.perm2i128 imm) [s2, s1] 16
def vpunpcklqdq (s1 s2 d : Nat) : I := .op d .unpcklqdq [s2, s1] 16
def vpunpckhqdq (s1 s2 d : Nat) : I := .op d .unpckhqdq [s2, s1] 16
def vmovsldup (s d : Nat) : I := .op d .movsldup [s] 16
def vpblendd (imm s1 s2 d : Nat) : I := .op d (.blendd imm) [s2, s1] 16
def vpblendw (imm s1 s2 d : Nat) : I := .op d (.blendw imm) [s2, s1] 16
def vpsrlq (k s d : Nat) : I := .op d (.psrlq k) [s] 16
def vpslld (k s d : Nat) : I := .op d (.pslld k) [s] 16
def vpsrld (k s d : Nat) : I := .op d (.psrld k) [s] 16
/-- mask first, as in the source text -/
def vpshufb (m s d : Nat) : I := .op d .pshufb [s, m] 16
def vmovdqa_ld (o off d : Nat) : I := .ld d o off 16 16 true
def vmovdqa_st (s o off : Nat) : I := .st s o off 16 true
def vmovdqu_ld (o off d : Nat) : I := .ld d o off 16 16 false
def vmovdqu_st (s o off : Nat) : I := .st s o off 16 false
def vpbroadcastq (o off d : Nat) : I := .bcastq d o off
/-- vpermq with a memory source -/
def vpermq_m (imm o off d : Nat) : List I := [.ld 16 o off 16 16 true, .op d (.permq imm) [16] 16]
/-- vpermd with a memory source: indices in register `i` -/
def vpermd_m (o off i d : Nat) : List I := [.ld 16 o off 16 16 true, .op d .permd [16, i] 16]
/-- `d = s2 - memory` -/
def vpsubw_m (o off s2 d : Nat) : List I := [.ld 16 o off 16 16 true, vpsubw 16 s2 d]

/-! ## consts.c, consts.h -/

/-- consts.c:16-121 -/
def qdata : List Int :=
  List.replicate 16 3329 ++ List.replicate 16 (-3327) ++ List.replicate 16 20159 ++ List.replicate 16 (-10079) ++
  List.replicate 16 1441 ++ List.replicate 16 20553 ++ List.replicate 16 1353 ++ List.replicate 16 4095 ++
  [3854, 3340, 2826, 2312, 1798, 1284, 770, 256, 3854, 3340, 2826, 2312, 1798, 1284, 770, 256] ++
  [7, 0, 6, 0, 5, 0, 4, 0, 3, 0, 2, 0, 1, 0, 0, 0] ++
  [31498,  31498,  31498,  31498,   -758,   -758,   -758,   -758,
   5237,   5237,   5237,   5237,   1397,   1397,   1397,   1397,
   14745,  14745,  14745,  14745,  14745,  14745,  14745,  14745,
   14745,  14745,  14745,  14745,  14745,  14745,  14745,  14745,
   -359,   -359,   -359,   -359,   -359,   -359,   -359,   -359,
   -359,   -359,   -359,   -359,   -359,   -359,   -359,   -359,
   13525,  13525,  13525,  13525,  13525,  13525,  13525,  13525,
   -12402, -12402, -12402, -12402, -12402, -12402, -12402, -12402,
   1493,   1493,   1493,   1493,   1493,   1493,   1493,   1493,
   1422,   1422,   1422,   1422,   1422,   1422,   1422,   1422,
   -20907, -20907, -20907, -20907,  27758,  27758,  27758,  27758,
   -3799,  -3799,  -3799,  -3799, -15690, -15690, -15690, -15690,
   -171,   -171,   -171,   -171,    622,    622,    622,    622,
   1577,   1577,   1577,   1577,    182,    182,    182,    182,
   -5827,  -5827,  17363,  17363, -26360, -26360, -29057, -29057,
   5571,   5571,  -1102,  -1102,  21438,  21438, -26242, -26242,
   573,    573,  -1325,  -1325,    264,    264,    383,    383,
   -829,   -829,   1458,   1458,  -1602,  -1602,   -130,   -130,
   -5689,  -6516,   1496,  30967, -23565,  20179,  20710,  25080,
   -12796,  26616,  16064, -12442,   9134,   -650, -25986,  27837,
   1223,    652,   -552,   1015,  -1293,   1491,   -282,  -1544,
   516,     -8,   -320,   -666,  -1618,  -1162,    126,   1469,
   -335, -11477, -32227,  20494, -27738,    945, -14883,   6182,
   32010,  10631,  29175, -28762, -18486,  17560, -14430,  -5276,
   -1103,    555,  -1251,   1550,    422,    177,   -291,   1574,
   -246,   1159,   -777,   -602,  -1590,   -872,    418,   -156,
   11182,  13387, -14233, -21655,  13131,  -4587,  23092,   5493,
   -32502,  30317, -18741,  12639,  20100,  18525,  19529, -12619,
   430,    843,    871,    105,    587,   -235,   -460,   1653,
   778,   -147,   1483,   1119,    644,    349,    329,    -75,
   787,    787,    787,    787,    787,    787,    787,    787,
   787,    787,    787,    787,    787,    787,    787,    787,
   -1517,  -1517,  -1517,  -1517,  -1517,  -1517,  -1517,  -1517,
   -1517,  -1517,  -1517,  -1517,  -1517,  -1517,  -1517,  -1517,
   28191,  28191,  28191,  28191,  28191,  28191,  28191,  28191,
   -16694, -16694, -16694, -16694, -16694, -16694, -16694, -16694,
   287,    287,    287,    287,    287,    287,    287,    287,
   202,    202,    202,    202,    202,    202,    202,    202,
   10690,  10690,  10690,  10690,   1358,   1358,   1358,   1358,
   -11202, -11202, -11202, -11202,  31164,  31164,  31164,  31164,
   962,    962,    962,    962,  -1202,  -1202,  -1202,  -1202,
   -1474,  -1474,  -1474,  -1474,   1468,   1468,   1468,   1468,
   -28073, -28073,  24313,  24313, -10532, -10532,   8800,   8800,
   18426,  18426,   8859,   8859,  26675,  26675, -16163, -16163,
   -681,   -681,   1017,   1017,    732,    732,    608,    608,
   -1542,  -1542,    411,    411,   -205,   -205,  -1571,  -1571,
   19883, -28250, -15887,  -8898, -28309,   9075, -30199,  18249,
   13426,  14017, -29156, -12757,  16832,   4311, -24155, -17915,
   -853,    -90,   -271,    830,    107,  -1421,   -247,   -951,
   -398,    961,  -1508,   -725,    448,  -1065,    677,  -1275,
   -31183,  25435,  -7382,  24391, -20927,  10946,  24214,  16989,
   10335,  -7934, -22502,  10906,  31636,  28644,  23998, -17422,
   817,    603,   1322,  -1465,  -1215,   1218,   -874,  -1187,
   -1185,  -1278,  -1510,   -870,   -108,    996,    958,   1522,
   20297,   2146,  15355, -32384,  -6280, -14903, -11044,  14469,
   -21498, -20198,  23210, -17442, -23860, -20257,   7756,  23132,
   1097,    610,  -1285,    384,   -136,  -1335,    220,  -1659,
   -1530,    794,   -854,    478,   -308,    991,  -1460,   1628] ++
  List.replicate 16 32

/-- consts.h:6-17 -/
def _16XQ := 0
def _16XQINV := 16
def _16XV := 32
def _16XFLO := 48
def _16XFHI := 64
def _16XMONTSQLO := 80
def _16XMONTSQHI := 96
def _16XMASK := 112
def _REVIDXB := 128
def _REVIDXD := 144
def _ZETAS_EXP := 160
def _16XSHIFT := 624

/-! ## fq.inc -/

/-- fq.inc:1-10, with the default `rs=0` (the only use) -/
def red16 (r : Nat) (x : Nat := 12) : List I := [vpmulhw 1 r x, vpsraw 10 x x, vpmullw 0 x x, vpsubw x r r]

/-- fq.inc:12-17 -/
def csubq (r : Nat) (x : Nat := 12) : List I := [vpsubw 0 r r, vpsraw 15 r x, vpand 0 x x, vpaddw x r r]

/-- fq.inc:25-30 -/
def fqmulprecomp (al ah b : Nat) (x : Nat := 12) : List I := [vpmullw al b x, vpmulhw ah b b, vpmulhw 0 x x, vpsubw x b b]

/-! ## shuffle.inc -/

/-- shuffle.inc:1-4 -/
def shuffle8 (r0 r1 r2 r3 : Nat) : List I := [vperm2i128 0x20 r1 r0 r2, vperm2i128 0x31 r1 r0 r3]
/-- shuffle.inc:6-9 -/
def shuffle4 (r0 r1 r2 r3 : Nat) : List I := [vpunpcklqdq r1 r0 r2, vpunpckhqdq r1 r0 r3]
/-- shuffle.inc:11-18 -/
def shuffle2 (r0 r1 r2 r3 : Nat) : List I := [vmovsldup r1 r2, vpblendd 0xAA r2 r0 r2, vpsrlq 32 r0 r0, vpblendd 0xAA r1 r0 r3]
/-- shuffle.inc:20-25 -/
def shuffle1 (r0 r1 r2 r3 : Nat) : List I := [vpslld 16 r1 r2, vpblendw 0xAA r2 r0 r2, vpsrld 16 r0 r0, vpblendw 0xAA r1 r0 r3]

/-! ## fq.S: object 0 is the polynomial (%rdi), object 1 is qdata (%rsi) -/

/-- fq.S:5-35, `b` the byte offset added to %rdi -/
def reduce128_avx (b : Nat) : List I :=
  [vmovdqa_ld 0 (b + 0) 2, vmovdqa_ld 0 (b + 32) 3, vmovdqa_ld 0 (b + 64) 4, vmovdqa_ld 0 (b + 96) 5,
   vmovdqa_ld 0 (b + 128) 6, vmovdqa_ld 0 (b + 160) 7, vmovdqa_ld 0 (b + 192) 8, vmovdqa_ld 0 (b + 224) 9] ++
  red16 2 ++ red16 3 ++ red16 4 ++ red16 5 ++ red16 6 ++ red16 7 ++ red16 8 ++ red16 9 ++
  [vmovdqa_st 2 0 (b + 0), vmovdqa_st 3 0 (b + 32), vmovdqa_st 4 0 (b + 64), vmovdqa_st 5 0 (b + 96),
   vmovdqa_st 6 0 (b + 128), vmovdqa_st 7 0 (b + 160), vmovdqa_st 8 0 (b + 192), vmovdqa_st 9 0 (b + 224)]

/-- fq.S:37-45 -/
def reduce_avx : List I :=
  [vmovdqa_ld 1 (_16XQ * 2) 0, vmovdqa_ld 1 (_16XV * 2) 1] ++ reduce128_avx 0 ++ reduce128_avx 256

/-- fq.S:47-77 -/
def tomont128_avx (b : Nat) : List I :=
  [vmovdqa_ld 0 (b + 0) 3, vmovdqa_ld 0 (b + 32) 4, vmovdqa_ld 0 (b + 64) 5, vmovdqa_ld 0 (b + 96) 6,
   vmovdqa_ld 0 (b + 128) 7, vmovdqa_ld 0 (b + 160) 8, vmovdqa_ld 0 (b + 192) 9, vmovdqa_ld 0 (b + 224) 10] ++
  fqmulprecomp 1 2 3 11 ++ fqmulprecomp 1 2 4 12 ++ fqmulprecomp 1 2 5 13 ++ fqmulprecomp 1 2 6 14 ++
  fqmulprecomp 1 2 7 15 ++ fqmulprecomp 1 2 8 11 ++ fqmulprecomp 1 2 9 12 ++ fqmulprecomp 1 2 10 13 ++
  [vmovdqa_st 3 0 (b + 0), vmovdqa_st 4 0 (b + 32), vmovdqa_st 5 0 (b + 64), vmovdqa_st 6 0 (b + 96),
   vmovdqa_st 7 0 (b + 128), vmovdqa_st 8 0 (b + 160), vmovdqa_st 9 0 (b + 192), vmovdqa_st 10 0 (b + 224)]

/-- fq.S:79-88 -/
def tomont_avx : List I :=
  [vmovdqa_ld 1 (_16XQ * 2) 0, vmovdqa_ld 1 (_16XMONTSQLO * 2) 1, vmovdqa_ld 1 (_16XMONTSQHI * 2) 2] ++
  tomont128_avx 0 ++ tomont128_avx 256

/-! ## ntt.S: object 0 is the polynomial (%rdi), object 1 is qdata (%rsi) -/

/-- ntt.S:4-16 -/
def mul (rh0 rh1 rh2 rh3 : Nat) (zl0 zl1 : Nat := 15) (zh0 zh1 : Nat := 2) : List I :=
  [vpmullw zl0 rh0 12, vpmullw zl0 rh1 13,
   vpmullw zl1 rh2 14, vpmullw zl1 rh3 15,
   vpmulhw zh0 rh0 rh0, vpmulhw zh0 rh1 rh1,
   vpmulhw zh1 rh2 rh2, vpmulhw zh1 rh3 rh3]

/-- ntt.S:18-24 -/
def reduce : List I := [vpmulhw 0 12 12, vpmulhw 0 13 13, vpmulhw 0 14 14, vpmulhw 0 15 15]

/-- ntt.S:26-48 -/
def update (rln rl0 rl1 rl2 rl3 rh0 rh1 rh2 rh3 : Nat) : List I :=
  [vpaddw rh0 rl0 rln, vpsubw rh0 rl0 rh0, vpaddw rh1 rl1 rl0,
   vpsubw rh1 rl1 rh1, vpaddw rh2 rl2 rl1, vpsubw rh2 rl2 rh2,
   vpaddw rh3 rl3 rl2, vpsubw rh3 rl3 rh3,
   vpsubw 12 rln rln, vpaddw 12 rh0 rh0, vpsubw 13 rl0 rl0,
   vpaddw 13 rh1 rh1, vpsubw 14 rl1 rl1, vpaddw 14 rh2 rh2,
   vpsubw 15 rl2 rl2, vpaddw 15 rh3 rh3]

/-- ntt.S:50-76 -/
def level0 (off : Nat) : List I :=
  [vpbroadcastq 1 ((_ZETAS_EXP + 0) * 2) 15,
   vmovdqa_ld 0 ((64 * off + 128) * 2) 8,
   vmovdqa_ld 0 ((64 * off + 144) * 2) 9,
   vmovdqa_ld 0 ((64 * off + 160) * 2) 10,
   vmovdqa_ld 0 ((64 * off + 176) * 2) 11,
   vpbroadcastq 1 ((_ZETAS_EXP + 4) * 2) 2] ++
  mul 8 9 10 11 ++
  [vmovdqa_ld 0 ((64 * off + 0) * 2) 4,
   vmovdqa_ld 0 ((64 * off + 16) * 2) 5,
   vmovdqa_ld 0 ((64 * off + 32) * 2) 6,
   vmovdqa_ld 0 ((64 * off + 48) * 2) 7] ++
  reduce ++ update 3 4 5 6 7 8 9 10 11 ++
  [vmovdqa_st 3 0 ((64 * off + 0) * 2),
   vmovdqa_st 4 0 ((64 * off + 16) * 2),
   vmovdqa_st 5 0 ((64 * off + 32) * 2),
   vmovdqa_st 6 0 ((64 * off + 48) * 2),
   vmovdqa_st 8 0 ((64 * off + 128) * 2),
   vmovdqa_st 9 0 ((64 * off + 144) * 2),
   vmovdqa_st 10 0 ((64 * off + 160) * 2),
   vmovdqa_st 11 0 ((64 * off + 176) * 2)]

/-- ntt.S:79-95 -/
def level1 (off : Nat) : List I :=
  [vmovdqa_ld 1 ((_ZETAS_EXP + 224 * off + 16) * 2) 15,
   vmovdqa_ld 0 ((128 * off + 64) * 2) 8,
   vmovdqa_ld 0 ((128 * off + 80) * 2) 9,
   vmovdqa_ld 0 ((128 * off + 96) * 2) 10,
   vmovdqa_ld 0 ((128 * off + 112) * 2) 11,
   vmovdqa_ld 1 ((_ZETAS_EXP + 224 * off + 32) * 2) 2] ++
  mul 8 9 10 11 ++
  [vmovdqa_ld 0 ((128 * off + 0) * 2) 4,
   vmovdqa_ld 0 ((128 * off + 16) * 2) 5,
   vmovdqa_ld 0 ((128 * off + 32) * 2) 6,
   vmovdqa_ld 0 ((128 * off + 48) * 2) 7] ++
  reduce ++ update 3 4 5 6 7 8 9 10 11

/-- ntt.S:97-110 -/
def level2 (off : Nat) : List I :=
  shuffle8 5 10 7 10 ++ shuffle8 6 11 5 11 ++
  [vmovdqa_ld 1 ((_ZETAS_EXP + 224 * off + 48) * 2) 15,
   vmovdqa_ld 1 ((_ZETAS_EXP + 224 * off + 64) * 2) 2] ++
  mul 7 10 5 11 ++
  shuffle8 3 8 6 8 ++ shuffle8 4 9 3 9 ++
  reduce ++ update 4 6 8 3 9 7 10 5 11

/-- ntt.S:112-125 -/
def level3 (off : Nat) : List I :=
  shuffle4 8 5 9 5 ++ shuffle4 3 11 8 11 ++
  [vmovdqa_ld 1 ((_ZETAS_EXP + 224 * off + 80) * 2) 15,
   vmovdqa_ld 1 ((_ZETAS_EXP + 224 * off + 96) * 2) 2] ++
  mul 9 5 8 11 ++
  shuffle4 4 7 3 7 ++ shuffle4 6 10 4 10 ++
  reduce ++ update 6 3 7 4 10 9 5 8 11

/-- ntt.S:127-140 -/
def level4 (off : Nat) : List I :=
  shuffle2 7 8 10 8 ++ shuffle2 4 11 7 11 ++
  [vmovdqa_ld 1 ((_ZETAS_EXP + 224 * off + 112) * 2) 15,
   vmovdqa_ld 1 ((_ZETAS_EXP + 224 * off + 128) * 2) 2] ++
  mul 10 8 7 11 ++
  shuffle2 6 9 4 9 ++ shuffle2 3 5 6 5 ++
  reduce ++ update 3 4 9 6 5 10 8 7 11

/-- ntt.S:142-155 -/
def level5 (off : Nat) : List I :=
  shuffle1 9 7 5 7 ++ shuffle1 6 11 9 11 ++
  [vmovdqa_ld 1 ((_ZETAS_EXP + 224 * off + 144) * 2) 15,
   vmovdqa_ld 1 ((_ZETAS_EXP + 224 * off + 160) * 2) 2] ++
  mul 5 7 9 11 ++
  shuffle1 3 10 6 10 ++ shuffle1 4 8 3 8 ++
  reduce ++ update 4 6 10 3 8 5 7 9 11

/-- ntt.S:157-175 -/
def level6 (off : Nat) : List I :=
  [vmovdqa_ld 1 ((_ZETAS_EXP + 224 * off + 176) * 2) 14,
   vmovdqa_ld 1 ((_ZETAS_EXP + 224 * off + 208) * 2) 15,
   vmovdqa_ld 1 ((_ZETAS_EXP + 224 * off + 192) * 2) 8,
   vmovdqa_ld 1 ((_ZETAS_EXP + 224 * off + 224) * 2) 2] ++
  mul 10 3 9 11 14 15 8 2 ++
  reduce ++ update 8 4 6 5 7 10 3 9 11 ++
  [vmovdqa_st 8 0 ((128 * off + 0) * 2),
   vmovdqa_st 4 0 ((128 * off + 16) * 2),
   vmovdqa_st 10 0 ((128 * off + 32) * 2),
   vmovdqa_st 3 0 ((128 * off + 48) * 2),
   vmovdqa_st 6 0 ((128 * off + 64) * 2),
   vmovdqa_st 5 0 ((128 * off + 80) * 2),
   vmovdqa_st 9 0 ((128 * off + 96) * 2),
   vmovdqa_st 11 0 ((128 * off + 112) * 2)]

/-- ntt.S:78-176 -/
def levels1t6 (off : Nat) : List I :=
  level1 off ++ (level2 off ++ (level3 off ++ (level4 off ++ (level5 off ++ level6 off))))

/-- ntt.S:178-189 -/
def ntt_avx : List I :=
  [vmovdqa_ld 1 (_16XQ * 2) 0] ++ (level0 0 ++ (level0 1 ++ (levels1t6 0 ++ levels1t6 1)))

/-! ## invntt.S: object 0 is the polynomial (%rdi), object 1 is qdata (%rsi) -/

/-- invntt.S:5-45 -/
def butterfly (rl0 rl1 rl2 rl3 rh0 rh1 rh2 rh3 : Nat) (zl0 zl1 : Nat := 2) (zh0 zh1 : Nat := 3) : List I :=
  [vpsubw rl0 rh0 12, vpaddw rh0 rl0 rl0, vpsubw rl1 rh1 13,
   vpmullw zl0 12 rh0, vpaddw rh1 rl1 rl1, vpsubw rl2 rh2 14,
   vpmullw zl0 13 rh1, vpaddw rh2 rl2 rl2, vpsubw rl3 rh3 15,
   vpmullw zl1 14 rh2, vpaddw rh3 rl3 rl3, vpmullw zl1 15 rh3,
   vpmulhw zh0 12 12, vpmulhw zh0 13 13,
   vpmulhw zh1 14 14, vpmulhw zh1 15 15,
   vpmulhw 0 rh0 rh0, vpmulhw 0 rh1 rh1, vpmulhw 0 rh2 rh2, vpmulhw 0 rh3 rh3,
   vpsubw rh0 12 rh0, vpsubw rh1 13 rh1, vpsubw rh2 14 rh2, vpsubw rh3 15 rh3]

/-- invntt.S:48-82 -/
def ilevel0 (off : Nat) : List I :=
  [vmovdqa_ld 1 (_16XFLO * 2) 2, vmovdqa_ld 1 (_16XFHI * 2) 3,
   vmovdqa_ld 0 ((128 * off + 0) * 2) 4, vmovdqa_ld 0 ((128 * off + 32) * 2) 6,
   vmovdqa_ld 0 ((128 * off + 16) * 2) 5, vmovdqa_ld 0 ((128 * off + 48) * 2) 7] ++
  fqmulprecomp 2 3 4 ++ fqmulprecomp 2 3 6 ++ fqmulprecomp 2 3 5 ++ fqmulprecomp 2 3 7 ++
  [vmovdqa_ld 0 ((128 * off + 64) * 2) 8, vmovdqa_ld 0 ((128 * off + 96) * 2) 10,
   vmovdqa_ld 0 ((128 * off + 80) * 2) 9, vmovdqa_ld 0 ((128 * off + 112) * 2) 11] ++
  fqmulprecomp 2 3 8 ++ fqmulprecomp 2 3 10 ++ fqmulprecomp 2 3 9 ++ fqmulprecomp 2 3 11 ++
  vpermq_m 0x4E 1 ((_ZETAS_EXP + (1 - off) * 224 + 208) * 2) 15 ++
  vpermq_m 0x4E 1 ((_ZETAS_EXP + (1 - off) * 224 + 176) * 2) 1 ++
  vpermq_m 0x4E 1 ((_ZETAS_EXP + (1 - off) * 224 + 224) * 2) 2 ++
  vpermq_m 0x4E 1 ((_ZETAS_EXP + (1 - off) * 224 + 192) * 2) 3 ++
  [vmovdqa_ld 1 (_REVIDXB * 2) 12,
   vpshufb 12 15 15, vpshufb 12 1 1, vpshufb 12 2 2, vpshufb 12 3 3] ++
  butterfly 4 5 8 9 6 7 10 11 15 1 2 3

/-- invntt.S:84-96 -/
def ilevel1 (off : Nat) : List I :=
  vpermq_m 0x4E 1 ((_ZETAS_EXP + (1 - off) * 224 + 144) * 2) 2 ++
  vpermq_m 0x4E 1 ((_ZETAS_EXP + (1 - off) * 224 + 160) * 2) 3 ++
  [vmovdqa_ld 1 (_REVIDXB * 2) 1, vpshufb 1 2 2, vpshufb 1 3 3] ++
  butterfly 4 5 6 7 8 9 10 11 2 2 3 3 ++
  shuffle1 4 5 3 5 ++ shuffle1 6 7 4 7 ++ shuffle1 8 9 6 9 ++ shuffle1 10 11 8 11

/-- invntt.S:98-111 -/
def ilevel2 (off : Nat) : List I :=
  [vmovdqa_ld 1 (_REVIDXD * 2) 12] ++
  vpermd_m 1 ((_ZETAS_EXP + (1 - off) * 224 + 112) * 2) 12 2 ++
  vpermd_m 1 ((_ZETAS_EXP + (1 - off) * 224 + 128) * 2) 12 10 ++
  butterfly 3 4 6 8 5 7 9 11 2 2 10 10 ++
  [vmovdqa_ld 1 (_16XV * 2) 1] ++ red16 3 ++
  shuffle2 3 4 10 4 ++ shuffle2 6 8 3 8 ++ shuffle2 5 7 6 7 ++ shuffle2 9 11 5 11

/-- invntt.S:113-122 -/
def ilevel3 (off : Nat) : List I :=
  vpermq_m 0x1B 1 ((_ZETAS_EXP + (1 - off) * 224 + 80) * 2) 2 ++
  vpermq_m 0x1B 1 ((_ZETAS_EXP + (1 - off) * 224 + 96) * 2) 9 ++
  butterfly 10 3 6 5 4 8 7 11 2 2 9 9 ++
  shuffle4 10 3 9 3 ++ shuffle4 6 5 10 5 ++ shuffle4 4 8 6 8 ++ shuffle4 7 11 4 11

/-- invntt.S:124-135 -/
def ilevel4 (off : Nat) : List I :=
  vpermq_m 0x4E 1 ((_ZETAS_EXP + (1 - off) * 224 + 48) * 2) 2 ++
  vpermq_m 0x4E 1 ((_ZETAS_EXP + (1 - off) * 224 + 64) * 2) 7 ++
  butterfly 9 10 6 4 3 5 8 11 2 2 7 7 ++
  red16 9 ++
  shuffle8 9 10 7 10 ++ shuffle8 6 4 9 4 ++ shuffle8 3 5 6 5 ++ shuffle8 8 11 3 11

/-- invntt.S:137-150 -/
def ilevel5 (off : Nat) : List I :=
  [vmovdqa_ld 1 ((_ZETAS_EXP + (1 - off) * 224 + 16) * 2) 2,
   vmovdqa_ld 1 ((_ZETAS_EXP + (1 - off) * 224 + 32) * 2) 8] ++
  butterfly 7 9 6 3 10 4 5 11 2 2 8 8 ++
  [vmovdqa_st 7 0 ((128 * off + 0) * 2),
   vmovdqa_st 9 0 ((128 * off + 16) * 2),
   vmovdqa_st 6 0 ((128 * off + 32) * 2),
   vmovdqa_st 3 0 ((128 * off + 48) * 2),
   vmovdqa_st 10 0 ((128 * off + 64) * 2),
   vmovdqa_st 4 0 ((128 * off + 80) * 2),
   vmovdqa_st 5 0 ((128 * off + 96) * 2),
   vmovdqa_st 11 0 ((128 * off + 112) * 2)]

/-- invntt.S:47-151 -/
def intt_levels0t5 (off : Nat) : List I :=
  ilevel0 off ++ (ilevel1 off ++ (ilevel2 off ++ (ilevel3 off ++ (ilevel4 off ++ ilevel5 off))))

/-- invntt.S:153-181 -/
def intt_level6 (off : Nat) : List I :=
  [vmovdqa_ld 0 ((64 * off + 0) * 2) 4,
   vmovdqa_ld 0 ((64 * off + 128) * 2) 8,
   vmovdqa_ld 0 ((64 * off + 16) * 2) 5,
   vmovdqa_ld 0 ((64 * off + 144) * 2) 9,
   vpbroadcastq 1 ((_ZETAS_EXP + 0) * 2) 2,
   vmovdqa_ld 0 ((64 * off + 32) * 2) 6,
   vmovdqa_ld 0 ((64 * off + 160) * 2) 10,
   vmovdqa_ld 0 ((64 * off + 48) * 2) 7,
   vmovdqa_ld 0 ((64 * off + 176) * 2) 11,
   vpbroadcastq 1 ((_ZETAS_EXP + 4) * 2) 3] ++
  butterfly 4 5 6 7 8 9 10 11 ++
  (if off = 0 then red16 4 else []) ++
  [vmovdqa_st 4 0 ((64 * off + 0) * 2),
   vmovdqa_st 5 0 ((64 * off + 16) * 2),
   vmovdqa_st 6 0 ((64 * off + 32) * 2),
   vmovdqa_st 7 0 ((64 * off + 48) * 2),
   vmovdqa_st 8 0 ((64 * off + 128) * 2),
   vmovdqa_st 9 0 ((64 * off + 144) * 2),
   vmovdqa_st 10 0 ((64 * off + 160) * 2),
   vmovdqa_st 11 0 ((64 * off + 176) * 2)]

/-- invntt.S:183-193 -/
def invntt_avx : List I :=
  [vmovdqa_ld 1 (_16XQ * 2) 0] ++ (intt_levels0t5 0 ++ (intt_levels0t5 1 ++ (intt_level6 0 ++ intt_level6 1)))

/-! ## basemul.S: objects 0 to 3 are the arguments r (%rdi), a (%rsi), b (%rdx), qdata (%rcx), object 4 is the 32-byte stack slot -/

/-- basemul.S:3-83, `r9` the byte offset of %r9 in qdata -/
def schoolbook (off r9 : Nat) : List I :=
  [vmovdqa_ld 3 (_16XQINV * 2) 0,
   vmovdqa_ld 1 ((64 * off + 0) * 2) 1,
   vmovdqa_ld 1 ((64 * off + 16) * 2) 2,
   vmovdqa_ld 1 ((64 * off + 32) * 2) 3,
   vmovdqa_ld 1 ((64 * off + 48) * 2) 4,
   vpmullw 0 1 9, vpmullw 0 2 10, vpmullw 0 3 11, vpmullw 0 4 12,
   vmovdqa_ld 2 ((64 * off + 0) * 2) 5,
   vmovdqa_ld 2 ((64 * off + 16) * 2) 6,
   vpmulhw 5 1 13, vpmulhw 6 1 1, vpmulhw 5 2 14, vpmulhw 6 2 2,
   vmovdqa_ld 2 ((64 * off + 32) * 2) 7,
   vmovdqa_ld 2 ((64 * off + 48) * 2) 8,
   vpmulhw 7 3 15, vpmulhw 8 3 3, vpmulhw 7 4 0, vpmulhw 8 4 4,
   vmovdqa_st 13 4 0,
   vpmullw 5 9 13, vpmullw 6 9 9, vpmullw 5 10 5, vpmullw 6 10 10,
   vpmullw 7 11 6, vpmullw 8 11 11, vpmullw 7 12 7, vpmullw 8 12 12,
   vmovdqa_ld 3 (_16XQ * 2) 8,
   vpmulhw 8 13 13, vpmulhw 8 9 9, vpmulhw 8 5 5, vpmulhw 8 10 10,
   vpmulhw 8 6 6, vpmulhw 8 11 11, vpmulhw 8 7 7, vpmulhw 8 12 12] ++
  vpsubw_m 4 0 13 13 ++
  [vpsubw 9 1 9, vpsubw 5 14 5, vpsubw 10 2 10,
   vpsubw 6 15 6, vpsubw 11 3 11, vpsubw 7 0 7, vpsubw 12 4 12,
   vmovdqa_ld 3 r9 0, vmovdqa_ld 3 (r9 + 32) 1,
   vpmullw 0 10 2, vpmullw 0 12 3, vpmulhw 1 10 10, vpmulhw 1 12 12,
   vpmulhw 8 2 2, vpmulhw 8 3 3, vpsubw 2 10 10, vpsubw 3 12 12,
   vpaddw 5 9 9, vpaddw 7 11 11, vpsubw 13 10 13, vpsubw 12 6 6,
   vmovdqa_st 13 0 ((64 * off + 0) * 2),
   vmovdqa_st 9 0 ((64 * off + 16) * 2),
   vmovdqa_st 6 0 ((64 * off + 32) * 2),
   vmovdqa_st 11 0 ((64 * off + 48) * 2)]

/-- basemul.S:85-105 -/
def basemul_avx : List I :=
  schoolbook 0 ((_ZETAS_EXP + 176) * 2) ++
  (schoolbook 1 ((_ZETAS_EXP + 176) * 2 + 32 * 2) ++
  (schoolbook 2 ((_ZETAS_EXP + 176) * 2 + 32 * 2 + 192 * 2) ++
   schoolbook 3 ((_ZETAS_EXP + 176) * 2 + 32 * 2 + 192 * 2 + 32 * 2)))

/-! ## shuffle.S -/

/-- shuffle.S:51-92, object 0 the polynomial (%rdi) -/
def nttunpack128_avx (b : Nat) : List I :=
  [vmovdqa_ld 0 (b + 0) 4, vmovdqa_ld 0 (b + 32) 5, vmovdqa_ld 0 (b + 64) 6, vmovdqa_ld 0 (b + 96) 7,
   vmovdqa_ld 0 (b + 128) 8, vmovdqa_ld 0 (b + 160) 9, vmovdqa_ld 0 (b + 192) 10, vmovdqa_ld 0 (b + 224) 11] ++
  shuffle8 4 8 3 8 ++ shuffle8 5 9 4 9 ++ shuffle8 6 10 5 10 ++ shuffle8 7 11 6 11 ++
  shuffle4 3 5 7 5 ++ shuffle4 8 10 3 10 ++ shuffle4 4 6 8 6 ++ shuffle4 9 11 4 11 ++
  shuffle2 7 8 9 8 ++ shuffle2 5 6 7 6 ++ shuffle2 3 4 5 4 ++ shuffle2 10 11 3 11 ++
  shuffle1 9 5 10 5 ++ shuffle1 8 4 9 4 ++ shuffle1 7 3 8 3 ++ shuffle1 6 11 7 11 ++
  [vmovdqa_st 10 0 (b + 0), vmovdqa_st 5 0 (b + 32), vmovdqa_st 9 0 (b + 64), vmovdqa_st 4 0 (b + 96),
   vmovdqa_st 8 0 (b + 128), vmovdqa_st 3 0 (b + 160), vmovdqa_st 7 0 (b + 192), vmovdqa_st 11 0 (b + 224)]

/-- shuffle.S:94-99 -/
def nttunpack_avx : List I := nttunpack128_avx 0 ++ nttunpack128_avx 256

/-- shuffle.S:101-169, object 0 the byte array (%rdi, offset `a`), object 1 the polynomial (%rsi, offset `b`), object 2 qdata -/
def ntttobytes128_avx (a b : Nat) : List I :=
  [vmovdqa_ld 1 (b + 0) 5, vmovdqa_ld 1 (b + 32) 6, vmovdqa_ld 1 (b + 64) 7, vmovdqa_ld 1 (b + 96) 8,
   vmovdqa_ld 1 (b + 128) 9, vmovdqa_ld 1 (b + 160) 10, vmovdqa_ld 1 (b + 192) 11, vmovdqa_ld 1 (b + 224) 12] ++
  csubq 5 13 ++ csubq 6 13 ++ csubq 7 13 ++ csubq 8 13 ++ csubq 9 13 ++ csubq 10 13 ++ csubq 11 13 ++ csubq 12 13 ++
  [vpsllw 12 6 4, vpor 4 5 4,
   vpsrlw 4 6 5, vpsllw 8 7 6, vpor 5 6 5,
   vpsrlw 8 7 6, vpsllw 4 8 7, vpor 6 7 6,
   vpsllw 12 10 7, vpor 7 9 7,
   vpsrlw 4 10 8, vpsllw 8 11 9, vpor 8 9 8,
   vpsrlw 8 11 9, vpsllw 4 12 10, vpor 9 10 9] ++
  shuffle1 4 5 3 5 ++ shuffle1 6 7 4 7 ++ shuffle1 8 9 6 9 ++
  shuffle2 3 4 8 4 ++ shuffle2 6 5 3 5 ++ shuffle2 7 9 6 9 ++
  shuffle4 8 3 7 3 ++ shuffle4 6 4 8 4 ++ shuffle4 5 9 6 9 ++
  shuffle8 7 8 5 8 ++ shuffle8 6 3 7 3 ++ shuffle8 4 9 6 9 ++
  [vmovdqu_st 5 0 (a + 0), vmovdqu_st 7 0 (a + 32), vmovdqu_st 6 0 (a + 64),
   vmovdqu_st 8 0 (a + 96), vmovdqu_st 3 0 (a + 128), vmovdqu_st 9 0 (a + 160)]

/-- shuffle.S:171-179 -/
def ntttobytes_avx : List I :=
  [vmovdqa_ld 2 (_16XQ * 2) 0] ++ ntttobytes128_avx 0 0 ++ ntttobytes128_avx 192 256

/-- shuffle.S:181-245, object 0 the polynomial (%rdi, offset `a`), object 1 the byte array (%rsi, offset `b`), object 2 qdata -/
def nttfrombytes128_avx (a b : Nat) : List I :=
  [vmovdqu_ld 1 (b + 0) 4, vmovdqu_ld 1 (b + 32) 5, vmovdqu_ld 1 (b + 64) 6,
   vmovdqu_ld 1 (b + 96) 7, vmovdqu_ld 1 (b + 128) 8, vmovdqu_ld 1 (b + 160) 9] ++
  shuffle8 4 7 3 7 ++ shuffle8 5 8 4 8 ++ shuffle8 6 9 5 9 ++
  shuffle4 3 8 6 8 ++ shuffle4 7 5 3 5 ++ shuffle4 4 9 7 9 ++
  shuffle2 6 5 4 5 ++ shuffle2 8 7 6 7 ++ shuffle2 3 9 8 9 ++
  shuffle1 4 7 10 7 ++ shuffle1 5 8 4 8 ++ shuffle1 6 9 5 9 ++
  [vpsrlw 12 10 11, vpsllw 4 7 12, vpor 11 12 11, vpand 0 10 10, vpand 0 11 11,
   vpsrlw 8 7 12, vpsllw 8 4 13, vpor 12 13 12, vpand 0 12 12,
   vpsrlw 4 4 13, vpand 0 13 13,
   vpsrlw 12 8 14, vpsllw 4 5 15, vpor 14 15 14, vpand 0 8 8, vpand 0 14 14,
   vpsrlw 8 5 15, vpsllw 8 9 1, vpor 15 1 15, vpand 0 15 15,
   vpsrlw 4 9 1, vpand 0 1 1,
   vmovdqa_st 10 0 (a + 0), vmovdqa_st 11 0 (a + 32), vmovdqa_st 12 0 (a + 64), vmovdqa_st 13 0 (a + 96),
   vmovdqa_st 8 0 (a + 128), vmovdqa_st 14 0 (a + 160), vmovdqa_st 15 0 (a + 192), vmovdqa_st 1 0 (a + 224)]

/-- shuffle.S:247-255 -/
def nttfrombytes_avx : List I :=
  [vmovdqa_ld 2 (_16XMASK * 2) 0] ++ nttfrombytes128_avx 0 0 ++ nttfrombytes128_avx 256 192

end Verif.Avx
