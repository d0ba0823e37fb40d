import Verif.Avx.Asm

/-!
# avx2/poly.c, polyvec.c, cbd.c: functions written with intrinsics

Each function is transcribed to one program. Loops have constant bounds and are written out (`flatMap`). C variables of vector type are
registers, numbered at the start of each program. The destination comes first, then the arguments of the intrinsic in the order of the C
code. Object 0 is the output.
-/

namespace Verif.Avx

/-! ## Intrinsics -/

def mm256_load_si256 (d o off : Nat) : I := .ld d o off 16 16 true
def mm256_loadu_si256 (d o off : Nat) : I := .ld d o off 16 16 false
def mm_loadl_epi64 (d o off : Nat) : I := .ld d o off 4 8 false
/-- memcpy of two bytes into a variable of type int16_t -/
def memcpy2_ld (d o off : Nat) : I := .ld d o off 1 1 false
def mm256_store_si256 (o off s : Nat) : I := .st s o off 16 true
def mm256_storeu_si256 (o off s : Nat) : I := .st s o off 16 false
def mm_storeu_si128 (o off s : Nat) : I := .st s o off 8 false
def mm_storel_epi64 (o off s : Nat) : I := .st s o off 4 false
/-- memcpy of the first four bytes of a vector, or of a variable of type uint32_t -/
def memcpy4_st (o off s : Nat) : I := .st s o off 2 false

/-- Words of a constant given as `bits`-bit numbers, most significant first (the order of the arguments of the `set` intrinsics). -/
def words (bits : Nat) (l : List Nat) : List Nat :=
  l.reverse.flatMap fun x => (List.range (bits / 16)).map fun j => x / 2 ^ (16 * j) % 65536
/-- Words of a constant given as bytes, most significant first. -/
def byteWords (l : List Int) : List Nat :=
  (List.range (l.length / 2)).map fun j => (l.reverse.getD (2 * j) 0 % 256).toNat + 256 * (l.reverse.getD (2 * j + 1) 0 % 256).toNat

def mm256_set1_epi16 (d x : Nat) : I := .set d (words 16 (List.replicate 16 x))
def mm256_set1_epi32 (d x : Nat) : I := .set d (words 32 (List.replicate 8 x))
def mm256_set1_epi64x (d x : Nat) : I := .set d (words 64 (List.replicate 4 x))
def mm256_set_epi8 (d : Nat) (l : List Int) : I := .set d (byteWords l)
def mm256_set_epi16 (d : Nat) (l : List Nat) : I := .set d (words 16 l)
def mm256_set_epi32 (d : Nat) (l : List Nat) : I := .set d (words 32 l)
def mm256_set_epi64x (d : Nat) (l : List Nat) : I := .set d (words 64 l)
def mm_set_epi8 (d : Nat) (l : List Int) : I := .set d (byteWords l)
def mm_set_epi32 (d : Nat) (l : List Nat) : I := .set d (words 32 l)

def mm256_add_epi16 (d a b : Nat) : I := .op d (.lw .add) [a, b] 16
def mm256_sub_epi16 (d a b : Nat) : I := .op d (.lw .sub) [a, b] 16
def mm256_mulhi_epi16 (d a b : Nat) : I := .op d (.lw .mulhi) [a, b] 16
def mm256_mullo_epi16 (d a b : Nat) : I := .op d (.lw .mullo) [a, b] 16
def mm256_mulhrs_epi16 (d a b : Nat) : I := .op d (.lw .mulhrs) [a, b] 16
def mm256_and_si256 (d a b : Nat) : I := .op d (.lw .and) [a, b] 16
def mm256_andnot_si256 (d a b : Nat) : I := .op d (.lw .andn) [a, b] 16
def mm256_xor_si256 (d a b : Nat) : I := .op d (.lw .xor) [a, b] 16
def mm256_slli_epi16 (d a k : Nat) : I := .op d (.lw (.sll k)) [a] 16
def mm256_srli_epi16 (d a k : Nat) : I := .op d (.lw (.srl k)) [a] 16
def mm256_srai_epi16 (d a k : Nat) : I := .op d (.lw (.sra k)) [a] 16
def mm256_add_epi8 (d a b : Nat) : I := .op d (.lw .add8) [a, b] 16
def mm256_sub_epi8 (d a b : Nat) : I := .op d (.lw .sub8) [a, b] 16
def mm256_maddubs_epi16 (d a b : Nat) : I := .op d (.lw .maddubs) [a, b] 16
def mm256_madd_epi16 (d a b : Nat) : I := .op d .pmaddwd [a, b] 16
def mm256_packus_epi16 (d a b : Nat) : I := .op d .packuswb [a, b] 16
def mm256_packs_epi16 (d a b : Nat) : I := .op d .packsswb [a, b] 16
def mm256_slli_epi32 (d a k : Nat) : I := .op d (.pslld k) [a] 16
def mm256_srli_epi32 (d a k : Nat) : I := .op d (.psrld k) [a] 16
def mm256_slli_epi64 (d a k : Nat) : I := .op d (.psllq k) [a] 16
def mm256_srli_epi64 (d a k : Nat) : I := .op d (.psrlq k) [a] 16
def mm256_sllv_epi32 (d a b : Nat) : I := .op d .psllvd [a, b] 16
def mm256_srlv_epi32 (d a b : Nat) : I := .op d .psrlvd [a, b] 16
def mm256_srlv_epi64 (d a b : Nat) : I := .op d .psrlvq [a, b] 16
def mm256_add_epi32 (d a b : Nat) : I := .op d .paddd [a, b] 16
def mm256_sub_epi32 (d a b : Nat) : I := .op d .psubd [a, b] 16
def mm256_add_epi64 (d a b : Nat) : I := .op d .paddq [a, b] 16
def mm256_shuffle_epi8 (d a b : Nat) : I := .op d .pshufb [a, b] 16
def mm256_shuffle_epi32 (d a imm : Nat) : I := .op d (.pshufd imm) [a] 16
def mm256_permutevar8x32_epi32 (d a b : Nat) : I := .op d .permd [a, b] 16
def mm256_permute4x64_epi64 (d a imm : Nat) : I := .op d (.permq imm) [a] 16
def mm256_permute2x128_si256 (d a b imm : Nat) : I := .op d (.perm2i128 imm) [a, b] 16
def mm256_unpacklo_epi64 (d a b : Nat) : I := .op d .unpcklqdq [a, b] 16
def mm256_unpackhi_epi64 (d a b : Nat) : I := .op d .unpckhqdq [a, b] 16
def mm256_unpacklo_epi32 (d a b : Nat) : I := .op d .unpckldq [a, b] 16
def mm256_unpackhi_epi32 (d a b : Nat) : I := .op d .unpckhdq [a, b] 16
def mm256_unpacklo_epi8 (d a b : Nat) : I := .op d .unpcklbw [a, b] 16
def mm256_unpackhi_epi8 (d a b : Nat) : I := .op d .unpckhbw [a, b] 16
def mm256_bsrli_epi128_8 (d a : Nat) : I := .op d .psrldq8 [a] 16
def mm256_castsi256_si128 (d a : Nat) : I := .op d .lowhalf [a] 8
def mm256_extracti128_si256_1 (d a : Nat) : I := .op d .highhalf [a] 8
def mm256_broadcastsi128_si256 (d a : Nat) : I := .op d .bcast128 [a] 16
def mm256_cvtepi8_epi16 (d a : Nat) : I := .op d .pmovsxbw [a] 16
def mm256_movemask_epi8 (d a : Nat) : I := .op d .pmovmskb [a] 2
def mm_blend_epi16 (d a b imm : Nat) : I := .op d (.blendw imm) [a, b] 8
def mm_blendv_epi8 (d a b m : Nat) : I := .op d (.lw .blendv) [a, b, m] 8
def mm_insert_epi16 (d a b n : Nat) : I := .op d (.pinsrw n) [a, b] 8

/-! ## poly.c -/

/-- poly.c:26-61. Object 0: r, 1: a, 2: qdata -/
def poly_compress_128 : List I :=
  let f0 := 0; let f1 := 1; let f2 := 2; let f3 := 3; let v := 4; let shift1 := 5; let mask := 6; let shift2 := 7; let permdidx := 8
  [mm256_load_si256 v 2 (2 * _16XV),
   mm256_set1_epi16 shift1 (2 ^ 9),
   mm256_set1_epi16 mask 15,
   mm256_set1_epi16 shift2 (16 * 2 ^ 8 + 1),
   mm256_set_epi32 permdidx [7, 3, 6, 2, 5, 1, 4, 0]] ++
  (List.range 4).flatMap fun i =>
    [mm256_load_si256 f0 1 (32 * (4 * i + 0)),
     mm256_load_si256 f1 1 (32 * (4 * i + 1)),
     mm256_load_si256 f2 1 (32 * (4 * i + 2)),
     mm256_load_si256 f3 1 (32 * (4 * i + 3)),
     mm256_mulhi_epi16 f0 f0 v,
     mm256_mulhi_epi16 f1 f1 v,
     mm256_mulhi_epi16 f2 f2 v,
     mm256_mulhi_epi16 f3 f3 v,
     mm256_mulhrs_epi16 f0 f0 shift1,
     mm256_mulhrs_epi16 f1 f1 shift1,
     mm256_mulhrs_epi16 f2 f2 shift1,
     mm256_mulhrs_epi16 f3 f3 shift1,
     mm256_and_si256 f0 f0 mask,
     mm256_and_si256 f1 f1 mask,
     mm256_and_si256 f2 f2 mask,
     mm256_and_si256 f3 f3 mask,
     mm256_packus_epi16 f0 f0 f1,
     mm256_packus_epi16 f2 f2 f3,
     mm256_maddubs_epi16 f0 f0 shift2,
     mm256_maddubs_epi16 f2 f2 shift2,
     mm256_packus_epi16 f0 f0 f2,
     mm256_permutevar8x32_epi32 f0 f0 permdidx,
     mm256_storeu_si256 0 (32 * i) f0]

/-- poly.c:63-83. Object 0: r, 1: a, 2: qdata -/
def poly_decompress_128 : List I :=
  let t := 0; let f := 1; let q := 2; let shufbidx := 3; let mask := 4; let shift := 5
  [mm256_load_si256 q 2 (2 * _16XQ),
   mm256_set_epi8 shufbidx [7,7,7,7,6,6,6,6,5,5,5,5,4,4,4,4,3,3,3,3,2,2,2,2,1,1,1,1,0,0,0,0],
   mm256_set1_epi32 mask 0x00F0000F,
   mm256_set1_epi32 shift (128 * 2 ^ 16 + 2048)] ++
  (List.range 16).flatMap fun i =>
    [mm_loadl_epi64 t 1 (8 * i),
     mm256_broadcastsi128_si256 f t,
     mm256_shuffle_epi8 f f shufbidx,
     mm256_and_si256 f f mask,
     mm256_mullo_epi16 f f shift,
     mm256_mulhrs_epi16 f f q,
     mm256_store_si256 0 (32 * i) f]

/-- poly.c:86-121. Object 0: r, 1: a, 2: qdata. Register 11 holds the cast of shufbidx in line 117. -/
def poly_compress_160 : List I :=
  let f0 := 0; let f1 := 1; let t0 := 2; let t1 := 3; let v := 4; let shift1 := 5; let mask := 6; let shift2 := 7; let shift3 := 8
  let sllvdidx := 9; let shufbidx := 10
  [mm256_load_si256 v 2 (2 * _16XV),
   mm256_set1_epi16 shift1 (2 ^ 10),
   mm256_set1_epi16 mask 31,
   mm256_set1_epi16 shift2 (32 * 2 ^ 8 + 1),
   mm256_set1_epi32 shift3 (1024 * 2 ^ 16 + 1),
   mm256_set1_epi64x sllvdidx 12,
   mm256_set_epi8 shufbidx [8,-1,-1,-1,-1,-1,4,3,2,1,0,-1,12,11,10,9,-1,12,11,10,9,8,-1,-1,-1,-1,-1,4,3,2,1,0]] ++
  (List.range 8).flatMap fun i =>
    [mm256_load_si256 f0 1 (32 * (2 * i + 0)),
     mm256_load_si256 f1 1 (32 * (2 * i + 1)),
     mm256_mulhi_epi16 f0 f0 v,
     mm256_mulhi_epi16 f1 f1 v,
     mm256_mulhrs_epi16 f0 f0 shift1,
     mm256_mulhrs_epi16 f1 f1 shift1,
     mm256_and_si256 f0 f0 mask,
     mm256_and_si256 f1 f1 mask,
     mm256_packus_epi16 f0 f0 f1,
     mm256_maddubs_epi16 f0 f0 shift2,
     mm256_madd_epi16 f0 f0 shift3,
     mm256_sllv_epi32 f0 f0 sllvdidx,
     mm256_srlv_epi64 f0 f0 sllvdidx,
     mm256_shuffle_epi8 f0 f0 shufbidx,
     mm256_castsi256_si128 t0 f0,
     mm256_extracti128_si256_1 t1 f0,
     mm256_castsi256_si128 11 shufbidx,
     mm_blendv_epi8 t0 t0 t1 11,
     mm_storeu_si128 0 (20 * i + 0) t0,
     memcpy4_st 0 (20 * i + 16) t1]

/-- poly.c:123-148. Object 0: r, 1: a, 2: qdata -/
def poly_decompress_160 : List I :=
  let t := 0; let f := 1; let ti := 2; let q := 3; let shufbidx := 4; let mask := 5; let shift := 6
  [mm256_load_si256 q 2 (2 * _16XQ),
   mm256_set_epi8 shufbidx [9,9,9,8,8,8,8,7,7,6,6,6,6,5,5,5,4,4,4,3,3,3,3,2,2,1,1,1,1,0,0,0],
   mm256_set_epi16 mask [248,1984,62,496,3968,124,992,31,248,1984,62,496,3968,124,992,31],
   mm256_set_epi16 shift [128,16,512,64,8,256,32,1024,128,16,512,64,8,256,32,1024]] ++
  (List.range 16).flatMap fun i =>
    [mm_loadl_epi64 t 1 (10 * i + 0),
     memcpy2_ld ti 1 (10 * i + 8),
     mm_insert_epi16 t t ti 4,
     mm256_broadcastsi128_si256 f t,
     mm256_shuffle_epi8 f f shufbidx,
     mm256_and_si256 f f mask,
     mm256_mullo_epi16 f f shift,
     mm256_mulhrs_epi16 f f q,
     mm256_store_si256 0 (32 * i) f]

/-- poly.c:204-230, the macro FROMMSG64 -/
def FROMMSG64 (i : Nat) : List I :=
  let f := 0; let g0 := 1; let g1 := 2; let g2 := 3; let g3 := 4; let h0 := 5; let h1 := 6; let h2 := 7; let h3 := 8
  let shift := 9; let idx := 10; let hqs := 11
  let _ := f
  [mm256_shuffle_epi32 g3 f (0x55 * i),
   mm256_sllv_epi32 g3 g3 shift,
   mm256_shuffle_epi8 g3 g3 idx,
   mm256_slli_epi16 g0 g3 12,
   mm256_slli_epi16 g1 g3 8,
   mm256_slli_epi16 g2 g3 4,
   mm256_srai_epi16 g0 g0 15,
   mm256_srai_epi16 g1 g1 15,
   mm256_srai_epi16 g2 g2 15,
   mm256_srai_epi16 g3 g3 15,
   mm256_and_si256 g0 g0 hqs,
   mm256_and_si256 g1 g1 hqs,
   mm256_and_si256 g2 g2 hqs,
   mm256_and_si256 g3 g3 hqs,
   mm256_unpacklo_epi64 h0 g0 g1,
   mm256_unpackhi_epi64 h2 g0 g1,
   mm256_unpacklo_epi64 h1 g2 g3,
   mm256_unpackhi_epi64 h3 g2 g3,
   mm256_permute2x128_si256 g0 h0 h1 0x20,
   mm256_permute2x128_si256 g2 h0 h1 0x31,
   mm256_permute2x128_si256 g1 h2 h3 0x20,
   mm256_permute2x128_si256 g3 h2 h3 0x31,
   mm256_store_si256 0 (32 * (0 + 2 * i + 0)) g0,
   mm256_store_si256 0 (32 * (0 + 2 * i + 1)) g1,
   mm256_store_si256 0 (32 * (8 + 2 * i + 0)) g2,
   mm256_store_si256 0 (32 * (8 + 2 * i + 1)) g3]

/-- poly.c:194-237. Object 0: r, 1: msg. Registers 12 and 13 hold the arguments of the broadcasts. -/
def poly_frommsg_prog : List I :=
  let f := 0; let shift := 9; let idx := 10; let hqs := 11
  [mm_set_epi32 12 [0, 1, 2, 3],
   mm256_broadcastsi128_si256 shift 12,
   mm_set_epi8 13 [15,14,11,10,7,6,3,2,13,12,9,8,5,4,1,0],
   mm256_broadcastsi128_si256 idx 13,
   mm256_set1_epi16 hqs ((3329 + 1) / 2),
   mm256_loadu_si256 f 1 0] ++ FROMMSG64 0 ++ FROMMSG64 1 ++ FROMMSG64 2 ++ FROMMSG64 3

/-- poly.c:250-274. Object 0: msg, 1: a -/
def poly_tomsg_prog : List I :=
  let f0 := 0; let f1 := 1; let g0 := 2; let g1 := 3; let hq := 4; let hhq := 5; let small := 6
  [mm256_set1_epi16 hq ((3329 - 1) / 2),
   mm256_set1_epi16 hhq ((3329 - 1) / 4)] ++
  (List.range 8).flatMap fun i =>
    [mm256_load_si256 f0 1 (32 * (2 * i + 0)),
     mm256_load_si256 f1 1 (32 * (2 * i + 1)),
     mm256_sub_epi16 f0 hq f0,
     mm256_sub_epi16 f1 hq f1,
     mm256_srai_epi16 g0 f0 15,
     mm256_srai_epi16 g1 f1 15,
     mm256_xor_si256 f0 f0 g0,
     mm256_xor_si256 f1 f1 g1,
     mm256_sub_epi16 f0 f0 hhq,
     mm256_sub_epi16 f1 f1 hhq,
     mm256_packs_epi16 f0 f0 f1,
     mm256_permute4x64_epi64 f0 f0 0xD8,
     mm256_movemask_epi8 small f0,
     memcpy4_st 0 (4 * i) small]

/-- poly.c:480-491. `a`, `b` the numbers of the objects of the two inputs, which may be object 0, the output. -/
def poly_add_prog (a b : Nat) : List I :=
  let f0 := 0; let f1 := 1
  (List.range 16).flatMap fun i =>
    [mm256_load_si256 f0 a (32 * i),
     mm256_load_si256 f1 b (32 * i),
     mm256_add_epi16 f0 f0 f1,
     mm256_store_si256 0 (32 * i) f0]

/-- poly.c:503-514 -/
def poly_sub_prog (a b : Nat) : List I :=
  let f0 := 0; let f1 := 1
  (List.range 16).flatMap fun i =>
    [mm256_load_si256 f0 a (32 * i),
     mm256_load_si256 f1 b (32 * i),
     mm256_sub_epi16 f0 f0 f1,
     mm256_store_si256 0 (32 * i) f0]

/-! ## polyvec.c -/

/-- polyvec.c:11-48. Object 0: r, 1: a, 2: qdata -/
def poly_compress10_prog : List I :=
  let f0 := 0; let f1 := 1; let f2 := 2; let t0 := 3; let t1 := 4; let v := 5; let v8 := 6; let off := 7; let shift1 := 8; let mask := 9
  let shift2 := 10; let sllvdidx := 11; let shufbidx := 12
  [mm256_load_si256 v 2 (2 * _16XV),
   mm256_slli_epi16 v8 v 3,
   mm256_set1_epi16 off 15,
   mm256_set1_epi16 shift1 (2 ^ 12),
   mm256_set1_epi16 mask 1023,
   mm256_set1_epi64x shift2 (1024 * 2 ^ 48 + 2 ^ 32 + 1024 * 2 ^ 16 + 1),
   mm256_set1_epi64x sllvdidx 12,
   mm256_set_epi8 shufbidx [8,4,3,2,1,0,-1,-1,-1,-1,-1,-1,12,11,10,9,-1,-1,-1,-1,-1,-1,12,11,10,9,8,4,3,2,1,0]] ++
  (List.range 16).flatMap fun i =>
    [mm256_load_si256 f0 1 (32 * i),
     mm256_mullo_epi16 f1 f0 v8,
     mm256_add_epi16 f2 f0 off,
     mm256_slli_epi16 f0 f0 3,
     mm256_mulhi_epi16 f0 f0 v,
     mm256_sub_epi16 f2 f1 f2,
     mm256_andnot_si256 f1 f1 f2,
     mm256_srli_epi16 f1 f1 15,
     mm256_sub_epi16 f0 f0 f1,
     mm256_mulhrs_epi16 f0 f0 shift1,
     mm256_and_si256 f0 f0 mask,
     mm256_madd_epi16 f0 f0 shift2,
     mm256_sllv_epi32 f0 f0 sllvdidx,
     mm256_srli_epi64 f0 f0 12,
     mm256_shuffle_epi8 f0 f0 shufbidx,
     mm256_castsi256_si128 t0 f0,
     mm256_extracti128_si256_1 t1 f0,
     mm_blend_epi16 t0 t0 t1 0xE0,
     mm_storeu_si128 0 (20 * i + 0) t0,
     memcpy4_st 0 (20 * i + 16) t1]

/-- polyvec.c:50-72. Object 0: r, 1: a -/
def poly_decompress10_prog : List I :=
  let f := 0; let q := 1; let shufbidx := 2; let sllvdidx := 3; let mask := 4
  [mm256_set1_epi32 q (3329 * 2 ^ 16 + 4 * 3329),
   mm256_set_epi8 shufbidx [11,10,10,9,9,8,8,7,6,5,5,4,4,3,3,2,9,8,8,7,7,6,6,5,4,3,3,2,2,1,1,0],
   mm256_set1_epi64x sllvdidx 4,
   mm256_set1_epi32 mask (32736 * 2 ^ 16 + 8184)] ++
  (List.range 16).flatMap fun i =>
    [mm256_loadu_si256 f 1 (20 * i),
     mm256_permute4x64_epi64 f f 0x94,
     mm256_shuffle_epi8 f f shufbidx,
     mm256_sllv_epi32 f f sllvdidx,
     mm256_srli_epi16 f f 1,
     mm256_and_si256 f f mask,
     mm256_mulhrs_epi16 f f q,
     mm256_store_si256 0 (32 * i) f]

/-- polyvec.c:75-116. Object 0: r, 1: a, 2: qdata. Register 14 holds the cast of shufbidx in line 112. -/
def poly_compress11_prog : List I :=
  let f0 := 0; let f1 := 1; let f2 := 2; let t0 := 3; let t1 := 4; let v := 5; let v8 := 6; let off := 7; let shift1 := 8; let mask := 9
  let shift2 := 10; let sllvdidx := 11; let srlvqidx := 12; let shufbidx := 13
  [mm256_load_si256 v 2 (2 * _16XV),
   mm256_slli_epi16 v8 v 3,
   mm256_set1_epi16 off 36,
   mm256_set1_epi16 shift1 (2 ^ 13),
   mm256_set1_epi16 mask 2047,
   mm256_set1_epi64x shift2 (2048 * 2 ^ 48 + 2 ^ 32 + 2048 * 2 ^ 16 + 1),
   mm256_set1_epi64x sllvdidx 10,
   mm256_set_epi64x srlvqidx [30, 10, 30, 10],
   mm256_set_epi8 shufbidx [4,3,2,1,0,0,-1,-1,-1,-1,10,9,8,7,6,5,-1,-1,-1,-1,-1,10,9,8,7,6,5,4,3,2,1,0]] ++
  (List.range 16).flatMap fun i =>
    [mm256_load_si256 f0 1 (32 * i),
     mm256_mullo_epi16 f1 f0 v8,
     mm256_add_epi16 f2 f0 off,
     mm256_slli_epi16 f0 f0 3,
     mm256_mulhi_epi16 f0 f0 v,
     mm256_sub_epi16 f2 f1 f2,
     mm256_andnot_si256 f1 f1 f2,
     mm256_srli_epi16 f1 f1 15,
     mm256_sub_epi16 f0 f0 f1,
     mm256_mulhrs_epi16 f0 f0 shift1,
     mm256_and_si256 f0 f0 mask,
     mm256_madd_epi16 f0 f0 shift2,
     mm256_sllv_epi32 f0 f0 sllvdidx,
     mm256_bsrli_epi128_8 f1 f0,
     mm256_srlv_epi64 f0 f0 srlvqidx,
     mm256_slli_epi64 f1 f1 34,
     mm256_add_epi64 f0 f0 f1,
     mm256_shuffle_epi8 f0 f0 shufbidx,
     mm256_castsi256_si128 t0 f0,
     mm256_extracti128_si256_1 t1 f0,
     mm256_castsi256_si128 14 shufbidx,
     mm_blendv_epi8 t0 t0 t1 14,
     mm_storeu_si128 0 (22 * i + 0) t0,
     mm_storel_epi64 0 (22 * i + 16) t1]

/-- polyvec.c:118-144. Object 0: r, 1: a, 2: qdata -/
def poly_decompress11_prog : List I :=
  let f := 0; let q := 1; let shufbidx := 2; let srlvdidx := 3; let srlvqidx := 4; let shift := 5; let mask := 6
  [mm256_load_si256 q 2 (2 * _16XQ),
   mm256_set_epi8 shufbidx [13,12,12,11,10,9,9,8,8,7,6,5,5,4,4,3,10,9,9,8,7,6,6,5,5,4,3,2,2,1,1,0],
   mm256_set_epi32 srlvdidx [0, 0, 1, 0, 0, 0, 1, 0],
   mm256_set_epi64x srlvqidx [2, 0, 2, 0],
   mm256_set_epi16 shift [4,32,1,8,32,1,4,32,4,32,1,8,32,1,4,32],
   mm256_set1_epi16 mask 32752] ++
  (List.range 16).flatMap fun i =>
    [mm256_loadu_si256 f 1 (22 * i),
     mm256_permute4x64_epi64 f f 0x94,
     mm256_shuffle_epi8 f f shufbidx,
     mm256_srlv_epi32 f f srlvdidx,
     mm256_srlv_epi64 f f srlvqidx,
     mm256_mullo_epi16 f f shift,
     mm256_srli_epi16 f f 1,
     mm256_and_si256 f f mask,
     mm256_mulhrs_epi16 f f q,
     mm256_store_si256 0 (32 * i) f]

/-! ## cbd.c -/

/-- cbd.c:16-58. Object 0: r, 1: buf (bytes, aligned). Registers 8 to 11 hold the arguments of the conversions in lines 48-51. -/
def cbd2_prog : List I :=
  let f0 := 0; let f1 := 1; let f2 := 2; let f3 := 3; let mask55 := 4; let mask33 := 5; let mask03 := 6; let mask0F := 7
  [mm256_set1_epi32 mask55 0x55555555,
   mm256_set1_epi32 mask33 0x33333333,
   mm256_set1_epi32 mask03 0x03030303,
   mm256_set1_epi32 mask0F 0x0F0F0F0F] ++
  (List.range 4).flatMap fun i =>
    [mm256_load_si256 f0 1 (32 * i),
     mm256_srli_epi16 f1 f0 1,
     mm256_and_si256 f0 mask55 f0,
     mm256_and_si256 f1 mask55 f1,
     mm256_add_epi8 f0 f0 f1,
     mm256_srli_epi16 f1 f0 2,
     mm256_and_si256 f0 mask33 f0,
     mm256_and_si256 f1 mask33 f1,
     mm256_add_epi8 f0 f0 mask33,
     mm256_sub_epi8 f0 f0 f1,
     mm256_srli_epi16 f1 f0 4,
     mm256_and_si256 f0 mask0F f0,
     mm256_and_si256 f1 mask0F f1,
     mm256_sub_epi8 f0 f0 mask03,
     mm256_sub_epi8 f1 f1 mask03,
     mm256_unpacklo_epi8 f2 f0 f1,
     mm256_unpackhi_epi8 f3 f0 f1,
     mm256_castsi256_si128 8 f2,
     mm256_cvtepi8_epi16 f0 8,
     mm256_extracti128_si256_1 9 f2,
     mm256_cvtepi8_epi16 f1 9,
     mm256_castsi256_si128 10 f3,
     mm256_cvtepi8_epi16 f2 10,
     mm256_extracti128_si256_1 11 f3,
     mm256_cvtepi8_epi16 f3 11,
     mm256_store_si256 0 (32 * (4 * i + 0)) f0,
     mm256_store_si256 0 (32 * (4 * i + 1)) f2,
     mm256_store_si256 0 (32 * (4 * i + 2)) f1,
     mm256_store_si256 0 (32 * (4 * i + 3)) f3]

/-- cbd.c:72-122. Object 0: r, 1: buf -/
def cbd3_prog : List I :=
  let f0 := 0; let f1 := 1; let f2 := 2; let f3 := 3; let mask249 := 4; let mask6DB := 5; let mask07 := 6; let mask70 := 7; let mask3 := 8
  let shufbidx := 9
  [mm256_set1_epi32 mask249 0x249249,
   mm256_set1_epi32 mask6DB 0x6DB6DB,
   mm256_set1_epi32 mask07 7,
   mm256_set1_epi32 mask70 (7 * 2 ^ 16),
   mm256_set1_epi16 mask3 3,
   mm256_set_epi8 shufbidx [-1,15,14,13,-1,12,11,10,-1,9,8,7,-1,6,5,4,-1,11,10,9,-1,8,7,6,-1,5,4,3,-1,2,1,0]] ++
  (List.range 8).flatMap fun i =>
    [mm256_loadu_si256 f0 1 (24 * i),
     mm256_permute4x64_epi64 f0 f0 0x94,
     mm256_shuffle_epi8 f0 f0 shufbidx,
     mm256_srli_epi32 f1 f0 1,
     mm256_srli_epi32 f2 f0 2,
     mm256_and_si256 f0 mask249 f0,
     mm256_and_si256 f1 mask249 f1,
     mm256_and_si256 f2 mask249 f2,
     mm256_add_epi32 f0 f0 f1,
     mm256_add_epi32 f0 f0 f2,
     mm256_srli_epi32 f1 f0 3,
     mm256_add_epi32 f0 f0 mask6DB,
     mm256_sub_epi32 f0 f0 f1,
     mm256_slli_epi32 f1 f0 10,
     mm256_srli_epi32 f2 f0 12,
     mm256_srli_epi32 f3 f0 2,
     mm256_and_si256 f0 f0 mask07,
     mm256_and_si256 f1 f1 mask70,
     mm256_and_si256 f2 f2 mask07,
     mm256_and_si256 f3 f3 mask70,
     mm256_add_epi16 f0 f0 f1,
     mm256_add_epi16 f1 f2 f3,
     mm256_sub_epi16 f0 f0 mask3,
     mm256_sub_epi16 f1 f1 mask3,
     mm256_unpacklo_epi32 f2 f0 f1,
     mm256_unpackhi_epi32 f3 f0 f1,
     mm256_permute2x128_si256 f0 f2 f3 0x20,
     mm256_permute2x128_si256 f1 f2 f3 0x31,
     mm256_store_si256 0 (32 * (2 * i + 0)) f0,
     mm256_store_si256 0 (32 * (2 * i + 1)) f1]

end Verif.Avx
