import Mathlib.Data.Nat.Digits.Defs
import Verif.Model.Params

/-! # External names of the programs and libraries

Which external names each source file defines, declares and uses once the macros `KYBER_NAMESPACE`, `FIPS202_NAMESPACE`, `FIPS202X4_NAMESPACE` (ref/params.h:10-16,
avx2/params.h:11-28, ref/fips202.h:12, avx2/fips202.h:12, avx2/fips202x4.h:8) and `cdecl` (avx2/consts.h:29-33) are expanded, and which files the two Makefiles put together.

* A name is its macro (`K`, `F`, `X` for the three above, `G` for a name used as it is written) and the argument of the macro, as a number with the character codes as digits.
* A declaration has the type written in the source after the adjustments of C11 6.7.6.3: array parameters are pointers, qualifiers of a parameter itself are dropped. `uint8_t` is
  `unsigned char`, and so on; `size_t` and `uint64_t` depend on the data model, which is a parameter.
* Functions with internal linkage (`static`) do not occur. Intrinsics are not references.
* `sys` lists the functions of the C library and of OpenSSL that a file calls; calls a compiler inserts on its own are not in it.
* Conditional compilation is as on Linux with `SYS_getrandom`, without `KYBER_90S` and without `USE_RDPMC`, as everywhere in this model. -/

set_option autoImplicit false

namespace Verif.Model.Link

open Verif.Model

/-- A string literal as a number: its character codes are the digits in base 256, the first character the least significant one. -/
macro "n! " s:str : term =>
  pure (Lean.Syntax.mkNumLit (toString (s.getString.toList.foldr (fun c v => c.toNat + 256 * v) 0)))

/-- The characters of such a number. -/
def chars (n : Nat) : List Nat := Nat.digits 256 n

/-- The data models of the usual platforms. -/
inductive Abi | lp64 | ilp32 | llp64
  deriving DecidableEq, Repr

/-- The C types that occur in external declarations. `ptr t` points to `t`, `cptr t` to `const t`. -/
inductive Ty
  | void | char | uchar | short | ushort | int | uint | ulong | ullong | m256i
  | named (n : Nat)
  | ptr (t : Ty)
  | cptr (t : Ty)
  | arr (n : Nat) (t : Ty)
  deriving DecidableEq, Repr

/-- `poly`, ref/poly.h:11-13, avx2/poly.h:8. -/
abbrev t_poly : Ty := .named (n! "poly")

/-- `polyvec`, ref/polyvec.h:8-10. -/
abbrev t_polyvec : Ty := .named (n! "polyvec")

/-- `keccak_state`, ref/fips202.h:14-17. -/
abbrev t_keccak_state : Ty := .named (n! "keccak_state")

/-- `keccakx4_state`, avx2/fips202x4.h:10-12. -/
abbrev t_keccakx4_state : Ty := .named (n! "keccakx4_state")

/-- `qdata_t`, avx2/consts.h:36-38. -/
abbrev t_qdata_t : Ty := .named (n! "qdata_t")

/-- `FILE`, stdio.h. -/
abbrev t_FILE : Ty := .named (n! "FILE")

/-- `AES_XOF_struct`, ref/nistkat/rng.h:18-24. -/
abbrev t_AES_XOF_struct : Ty := .named (n! "AES_XOF_struct")

/-- `AES256_CTR_DRBG_struct`, ref/nistkat/rng.h:26-30. -/
abbrev t_AES256_CTR_DRBG_struct : Ty := .named (n! "AES256_CTR_DRBG_struct")

/-- `size_t`. -/
def size : Abi → Ty | .lp64 => .ulong | .ilp32 => .uint | .llp64 => .ullong

/-- `uint64_t`. -/
def u64 : Abi → Ty | .lp64 => .ulong | .ilp32 => .ullong | .llp64 => .ullong

/-- What a declaration says of a name: a function, an object (`c`: const), or a label of an assembly file. -/
inductive Sig
  | fn (ret : Ty) (args : List Ty)
  | obj (c : Bool) (t : Ty)
  | asm
  deriving DecidableEq, Repr

/-- The macro around a name: `KYBER_NAMESPACE`, `FIPS202_NAMESPACE`, `FIPS202X4_NAMESPACE`, none. -/
inductive Tag | K | F | X | G
  deriving DecidableEq, Repr

structure Decl where
  tag : Tag
  base : Nat
  sig : Sig
  deriving DecidableEq, Repr

/-- The headers with external declarations. -/
inductive Header
  | ref_kem_h | ref_poly_h | ref_polyvec_h | ref_indcpa_h | ref_verify_h | ref_fips202_h | ref_symmetric_h | ref_randombytes_h | ref_ntt_h | ref_reduce_h | ref_cbd_h | ref_cpucycles_h | ref_speed_print_h | ref_rng_h | avx2_poly_h | avx2_polyvec_h | avx2_fips202_h | avx2_fips202x4_h | avx2_symmetric_h | avx2_ntt_h | avx2_cbd_h | avx2_rejsample_h | avx2_consts_h | avx2_reduce_h | avx2_SnP_h
  deriving DecidableEq, Repr

/-- One source file: its external definitions, its other external declarations, the headers it includes directly or indirectly, the external names it uses and does not define, and the
library functions. `statics` are the objects of internal linkage with static storage duration, in functions or outside, and whether they are `const`. -/
structure Source where
  defs : List Decl
  own : List Decl
  headers : List Header
  refs : List (Tag × Nat)
  statics : List (Nat × Bool) := []
  sys : List Nat

/-- Declarations of ref/kem.h:21-33. -/
def ref_kem_h : List Decl :=
  [
    ⟨.K, n! "keypair_derand", .fn .int [(.ptr .uchar), (.ptr .uchar), (.cptr .uchar)]⟩,
    ⟨.K, n! "keypair", .fn .int [(.ptr .uchar), (.ptr .uchar)]⟩,
    ⟨.K, n! "enc_derand", .fn .int [(.ptr .uchar), (.ptr .uchar), (.cptr .uchar), (.cptr .uchar)]⟩,
    ⟨.K, n! "enc", .fn .int [(.ptr .uchar), (.ptr .uchar), (.cptr .uchar)]⟩,
    ⟨.K, n! "dec", .fn .int [(.ptr .uchar), (.cptr .uchar), (.cptr .uchar)]⟩]

/-- Declarations of ref/poly.h:16-51. -/
def ref_poly_h : List Decl :=
  [
    ⟨.K, n! "poly_compress", .fn .void [(.ptr .uchar), (.cptr t_poly)]⟩,
    ⟨.K, n! "poly_decompress", .fn .void [(.ptr t_poly), (.cptr .uchar)]⟩,
    ⟨.K, n! "poly_tobytes", .fn .void [(.ptr .uchar), (.cptr t_poly)]⟩,
    ⟨.K, n! "poly_frombytes", .fn .void [(.ptr t_poly), (.cptr .uchar)]⟩,
    ⟨.K, n! "poly_frommsg", .fn .void [(.ptr t_poly), (.cptr .uchar)]⟩,
    ⟨.K, n! "poly_tomsg", .fn .void [(.ptr .uchar), (.cptr t_poly)]⟩,
    ⟨.K, n! "poly_getnoise_eta1", .fn .void [(.ptr t_poly), (.cptr .uchar), .uchar]⟩,
    ⟨.K, n! "poly_getnoise_eta2", .fn .void [(.ptr t_poly), (.cptr .uchar), .uchar]⟩,
    ⟨.K, n! "poly_ntt", .fn .void [(.ptr t_poly)]⟩,
    ⟨.K, n! "poly_invntt_tomont", .fn .void [(.ptr t_poly)]⟩,
    ⟨.K, n! "poly_basemul_montgomery", .fn .void [(.ptr t_poly), (.cptr t_poly), (.cptr t_poly)]⟩,
    ⟨.K, n! "poly_tomont", .fn .void [(.ptr t_poly)]⟩,
    ⟨.K, n! "poly_reduce", .fn .void [(.ptr t_poly)]⟩,
    ⟨.K, n! "poly_add", .fn .void [(.ptr t_poly), (.cptr t_poly), (.cptr t_poly)]⟩,
    ⟨.K, n! "poly_sub", .fn .void [(.ptr t_poly), (.cptr t_poly), (.cptr t_poly)]⟩]

/-- Declarations of ref/polyvec.h:13-34. -/
def ref_polyvec_h : List Decl :=
  [
    ⟨.K, n! "polyvec_compress", .fn .void [(.ptr .uchar), (.cptr t_polyvec)]⟩,
    ⟨.K, n! "polyvec_decompress", .fn .void [(.ptr t_polyvec), (.cptr .uchar)]⟩,
    ⟨.K, n! "polyvec_tobytes", .fn .void [(.ptr .uchar), (.cptr t_polyvec)]⟩,
    ⟨.K, n! "polyvec_frombytes", .fn .void [(.ptr t_polyvec), (.cptr .uchar)]⟩,
    ⟨.K, n! "polyvec_ntt", .fn .void [(.ptr t_polyvec)]⟩,
    ⟨.K, n! "polyvec_invntt_tomont", .fn .void [(.ptr t_polyvec)]⟩,
    ⟨.K, n! "polyvec_basemul_acc_montgomery", .fn .void [(.ptr t_poly), (.cptr t_polyvec), (.cptr t_polyvec)]⟩,
    ⟨.K, n! "polyvec_reduce", .fn .void [(.ptr t_polyvec)]⟩,
    ⟨.K, n! "polyvec_add", .fn .void [(.ptr t_polyvec), (.cptr t_polyvec), (.cptr t_polyvec)]⟩]

/-- Declarations of ref/indcpa.h:9-23. -/
def ref_indcpa_h : List Decl :=
  [
    ⟨.K, n! "gen_matrix", .fn .void [(.ptr t_polyvec), (.cptr .uchar), .int]⟩,
    ⟨.K, n! "indcpa_keypair_derand", .fn .void [(.ptr .uchar), (.ptr .uchar), (.cptr .uchar)]⟩,
    ⟨.K, n! "indcpa_enc", .fn .void [(.ptr .uchar), (.cptr .uchar), (.cptr .uchar), (.cptr .uchar)]⟩,
    ⟨.K, n! "indcpa_dec", .fn .void [(.ptr .uchar), (.cptr .uchar), (.cptr .uchar)]⟩]

/-- Declarations of ref/verify.h:9-15. -/
def ref_verify_h (a : Abi) : List Decl :=
  [
    ⟨.K, n! "verify", .fn .int [(.cptr .uchar), (.cptr .uchar), (size a)]⟩,
    ⟨.K, n! "cmov", .fn .void [(.ptr .uchar), (.cptr .uchar), (size a), .uchar]⟩,
    ⟨.K, n! "cmov_int16", .fn .void [(.ptr .short), .short, .ushort]⟩]

/-- Declarations of ref/fips202.h:20-52. -/
def ref_fips202_h (a : Abi) : List Decl :=
  [
    ⟨.F, n! "shake128_init", .fn .void [(.ptr t_keccak_state)]⟩,
    ⟨.F, n! "shake128_absorb", .fn .void [(.ptr t_keccak_state), (.cptr .uchar), (size a)]⟩,
    ⟨.F, n! "shake128_finalize", .fn .void [(.ptr t_keccak_state)]⟩,
    ⟨.F, n! "shake128_squeeze", .fn .void [(.ptr .uchar), (size a), (.ptr t_keccak_state)]⟩,
    ⟨.F, n! "shake128_absorb_once", .fn .void [(.ptr t_keccak_state), (.cptr .uchar), (size a)]⟩,
    ⟨.F, n! "shake128_squeezeblocks", .fn .void [(.ptr .uchar), (size a), (.ptr t_keccak_state)]⟩,
    ⟨.F, n! "shake256_init", .fn .void [(.ptr t_keccak_state)]⟩,
    ⟨.F, n! "shake256_absorb", .fn .void [(.ptr t_keccak_state), (.cptr .uchar), (size a)]⟩,
    ⟨.F, n! "shake256_finalize", .fn .void [(.ptr t_keccak_state)]⟩,
    ⟨.F, n! "shake256_squeeze", .fn .void [(.ptr .uchar), (size a), (.ptr t_keccak_state)]⟩,
    ⟨.F, n! "shake256_absorb_once", .fn .void [(.ptr t_keccak_state), (.cptr .uchar), (size a)]⟩,
    ⟨.F, n! "shake256_squeezeblocks", .fn .void [(.ptr .uchar), (size a), (.ptr t_keccak_state)]⟩,
    ⟨.F, n! "shake128", .fn .void [(.ptr .uchar), (size a), (.cptr .uchar), (size a)]⟩,
    ⟨.F, n! "shake256", .fn .void [(.ptr .uchar), (size a), (.cptr .uchar), (size a)]⟩,
    ⟨.F, n! "sha3_256", .fn .void [(.ptr .uchar), (.cptr .uchar), (size a)]⟩,
    ⟨.F, n! "sha3_512", .fn .void [(.ptr .uchar), (.cptr .uchar), (size a)]⟩]

/-- Declarations of ref/symmetric.h:13-22. -/
def ref_symmetric_h (a : Abi) : List Decl :=
  [
    ⟨.K, n! "kyber_shake128_absorb", .fn .void [(.ptr t_keccak_state), (.cptr .uchar), .uchar, .uchar]⟩,
    ⟨.K, n! "kyber_shake256_prf", .fn .void [(.ptr .uchar), (size a), (.cptr .uchar), .uchar]⟩,
    ⟨.K, n! "kyber_shake256_rkprf", .fn .void [(.ptr .uchar), (.cptr .uchar), (.cptr .uchar)]⟩]

/-- Declarations of ref/randombytes.h:7. -/
def ref_randombytes_h (a : Abi) : List Decl :=
  [
    ⟨.G, n! "randombytes", .fn .void [(.ptr .uchar), (size a)]⟩]

/-- Declarations of ref/ntt.h:8-17. -/
def ref_ntt_h : List Decl :=
  [
    ⟨.K, n! "zetas", .obj true (.arr 128 .short)⟩,
    ⟨.K, n! "ntt", .fn .void [(.ptr .short)]⟩,
    ⟨.K, n! "invntt", .fn .void [(.ptr .short)]⟩,
    ⟨.K, n! "basemul", .fn .void [(.ptr .short), (.cptr .short), (.cptr .short), .short]⟩]

/-- Declarations of ref/reduce.h:11-14. -/
def ref_reduce_h : List Decl :=
  [
    ⟨.K, n! "montgomery_reduce", .fn .short [.int]⟩,
    ⟨.K, n! "barrett_reduce", .fn .short [.short]⟩]

/-- Declarations of ref/cbd.h:9-12. -/
def ref_cbd_h : List Decl :=
  [
    ⟨.K, n! "poly_cbd_eta1", .fn .void [(.ptr t_poly), (.cptr .uchar)]⟩,
    ⟨.K, n! "poly_cbd_eta2", .fn .void [(.ptr t_poly), (.cptr .uchar)]⟩]

/-- Declarations of ref/test/cpucycles.h:31. -/
def ref_cpucycles_h (a : Abi) : List Decl :=
  [
    ⟨.G, n! "cpucycles_overhead", .fn (u64 a) []⟩]

/-- Declarations of ref/test/speed_print.h:7. -/
def ref_speed_print_h (a : Abi) : List Decl :=
  [
    ⟨.G, n! "print_results", .fn .void [(.cptr .char), (.ptr (u64 a)), (size a)]⟩]

/-- Declarations of ref/nistkat/rng.h:33-52. -/
def ref_rng_h : List Decl :=
  [
    ⟨.G, n! "AES256_CTR_DRBG_Update", .fn .void [(.ptr .uchar), (.ptr .uchar), (.ptr .uchar)]⟩,
    ⟨.G, n! "seedexpander_init", .fn .int [(.ptr t_AES_XOF_struct), (.ptr .uchar), (.ptr .uchar), .ulong]⟩,
    ⟨.G, n! "seedexpander", .fn .int [(.ptr t_AES_XOF_struct), (.ptr .uchar), .ulong]⟩,
    ⟨.G, n! "randombytes_init", .fn .void [(.ptr .uchar), (.ptr .uchar), .int]⟩,
    ⟨.G, n! "randombytes", .fn .int [(.ptr .uchar), .ullong]⟩]

/-- Declarations of avx2/poly.h:11-75. -/
def avx2_poly_h (p : ParamSet) : List Decl :=
  match p with
    | .k2 => [
    ⟨.K, n! "poly_compress", .fn .void [(.ptr .uchar), (.cptr t_poly)]⟩,
    ⟨.K, n! "poly_decompress", .fn .void [(.ptr t_poly), (.cptr .uchar)]⟩,
    ⟨.K, n! "poly_tobytes", .fn .void [(.ptr .uchar), (.cptr t_poly)]⟩,
    ⟨.K, n! "poly_frombytes", .fn .void [(.ptr t_poly), (.cptr .uchar)]⟩,
    ⟨.K, n! "poly_frommsg", .fn .void [(.ptr t_poly), (.cptr .uchar)]⟩,
    ⟨.K, n! "poly_tomsg", .fn .void [(.ptr .uchar), (.cptr t_poly)]⟩,
    ⟨.K, n! "poly_getnoise_eta1", .fn .void [(.ptr t_poly), (.cptr .uchar), .uchar]⟩,
    ⟨.K, n! "poly_getnoise_eta2", .fn .void [(.ptr t_poly), (.cptr .uchar), .uchar]⟩,
    ⟨.K, n! "poly_getnoise_eta2_4x", .fn .void [(.ptr t_poly), (.ptr t_poly), (.ptr t_poly), (.ptr t_poly), (.cptr .uchar), .uchar, .uchar, .uchar, .uchar]⟩,
    ⟨.K, n! "poly_getnoise_eta1122_4x", .fn .void [(.ptr t_poly), (.ptr t_poly), (.ptr t_poly), (.ptr t_poly), (.cptr .uchar), .uchar, .uchar, .uchar, .uchar]⟩,
    ⟨.K, n! "poly_ntt", .fn .void [(.ptr t_poly)]⟩,
    ⟨.K, n! "poly_invntt_tomont", .fn .void [(.ptr t_poly)]⟩,
    ⟨.K, n! "poly_nttunpack", .fn .void [(.ptr t_poly)]⟩,
    ⟨.K, n! "poly_basemul_montgomery", .fn .void [(.ptr t_poly), (.cptr t_poly), (.cptr t_poly)]⟩,
    ⟨.K, n! "poly_tomont", .fn .void [(.ptr t_poly)]⟩,
    ⟨.K, n! "poly_reduce", .fn .void [(.ptr t_poly)]⟩,
    ⟨.K, n! "poly_add", .fn .void [(.ptr t_poly), (.cptr t_poly), (.cptr t_poly)]⟩,
    ⟨.K, n! "poly_sub", .fn .void [(.ptr t_poly), (.cptr t_poly), (.cptr t_poly)]⟩]
    | _ => [
    ⟨.K, n! "poly_compress", .fn .void [(.ptr .uchar), (.cptr t_poly)]⟩,
    ⟨.K, n! "poly_decompress", .fn .void [(.ptr t_poly), (.cptr .uchar)]⟩,
    ⟨.K, n! "poly_tobytes", .fn .void [(.ptr .uchar), (.cptr t_poly)]⟩,
    ⟨.K, n! "poly_frombytes", .fn .void [(.ptr t_poly), (.cptr .uchar)]⟩,
    ⟨.K, n! "poly_frommsg", .fn .void [(.ptr t_poly), (.cptr .uchar)]⟩,
    ⟨.K, n! "poly_tomsg", .fn .void [(.ptr .uchar), (.cptr t_poly)]⟩,
    ⟨.K, n! "poly_getnoise_eta1", .fn .void [(.ptr t_poly), (.cptr .uchar), .uchar]⟩,
    ⟨.K, n! "poly_getnoise_eta2", .fn .void [(.ptr t_poly), (.cptr .uchar), .uchar]⟩,
    ⟨.K, n! "poly_getnoise_eta2_4x", .fn .void [(.ptr t_poly), (.ptr t_poly), (.ptr t_poly), (.ptr t_poly), (.cptr .uchar), .uchar, .uchar, .uchar, .uchar]⟩,
    ⟨.K, n! "poly_ntt", .fn .void [(.ptr t_poly)]⟩,
    ⟨.K, n! "poly_invntt_tomont", .fn .void [(.ptr t_poly)]⟩,
    ⟨.K, n! "poly_nttunpack", .fn .void [(.ptr t_poly)]⟩,
    ⟨.K, n! "poly_basemul_montgomery", .fn .void [(.ptr t_poly), (.cptr t_poly), (.cptr t_poly)]⟩,
    ⟨.K, n! "poly_tomont", .fn .void [(.ptr t_poly)]⟩,
    ⟨.K, n! "poly_reduce", .fn .void [(.ptr t_poly)]⟩,
    ⟨.K, n! "poly_add", .fn .void [(.ptr t_poly), (.cptr t_poly), (.cptr t_poly)]⟩,
    ⟨.K, n! "poly_sub", .fn .void [(.ptr t_poly), (.cptr t_poly), (.cptr t_poly)]⟩]

/-- Declarations of avx2/polyvec.h:13-34. -/
def avx2_polyvec_h : List Decl :=
  [
    ⟨.K, n! "polyvec_compress", .fn .void [(.ptr .uchar), (.cptr t_polyvec)]⟩,
    ⟨.K, n! "polyvec_decompress", .fn .void [(.ptr t_polyvec), (.cptr .uchar)]⟩,
    ⟨.K, n! "polyvec_tobytes", .fn .void [(.ptr .uchar), (.cptr t_polyvec)]⟩,
    ⟨.K, n! "polyvec_frombytes", .fn .void [(.ptr t_polyvec), (.cptr .uchar)]⟩,
    ⟨.K, n! "polyvec_ntt", .fn .void [(.ptr t_polyvec)]⟩,
    ⟨.K, n! "polyvec_invntt_tomont", .fn .void [(.ptr t_polyvec)]⟩,
    ⟨.K, n! "polyvec_basemul_acc_montgomery", .fn .void [(.ptr t_poly), (.cptr t_polyvec), (.cptr t_polyvec)]⟩,
    ⟨.K, n! "polyvec_reduce", .fn .void [(.ptr t_polyvec)]⟩,
    ⟨.K, n! "polyvec_add", .fn .void [(.ptr t_polyvec), (.cptr t_polyvec), (.cptr t_polyvec)]⟩]

/-- Declarations of avx2/fips202.h:20-52. -/
def avx2_fips202_h (a : Abi) : List Decl :=
  [
    ⟨.F, n! "shake128_init", .fn .void [(.ptr t_keccak_state)]⟩,
    ⟨.F, n! "shake128_absorb", .fn .void [(.ptr t_keccak_state), (.cptr .uchar), (size a)]⟩,
    ⟨.F, n! "shake128_finalize", .fn .void [(.ptr t_keccak_state)]⟩,
    ⟨.F, n! "shake128_squeeze", .fn .void [(.ptr .uchar), (size a), (.ptr t_keccak_state)]⟩,
    ⟨.F, n! "shake128_absorb_once", .fn .void [(.ptr t_keccak_state), (.cptr .uchar), (size a)]⟩,
    ⟨.F, n! "shake128_squeezeblocks", .fn .void [(.ptr .uchar), (size a), (.ptr t_keccak_state)]⟩,
    ⟨.F, n! "shake256_init", .fn .void [(.ptr t_keccak_state)]⟩,
    ⟨.F, n! "shake256_absorb", .fn .void [(.ptr t_keccak_state), (.cptr .uchar), (size a)]⟩,
    ⟨.F, n! "shake256_finalize", .fn .void [(.ptr t_keccak_state)]⟩,
    ⟨.F, n! "shake256_squeeze", .fn .void [(.ptr .uchar), (size a), (.ptr t_keccak_state)]⟩,
    ⟨.F, n! "shake256_absorb_once", .fn .void [(.ptr t_keccak_state), (.cptr .uchar), (size a)]⟩,
    ⟨.F, n! "shake256_squeezeblocks", .fn .void [(.ptr .uchar), (size a), (.ptr t_keccak_state)]⟩,
    ⟨.F, n! "shake128", .fn .void [(.ptr .uchar), (size a), (.cptr .uchar), (size a)]⟩,
    ⟨.F, n! "shake256", .fn .void [(.ptr .uchar), (size a), (.cptr .uchar), (size a)]⟩,
    ⟨.F, n! "sha3_256", .fn .void [(.ptr .uchar), (.cptr .uchar), (size a)]⟩,
    ⟨.F, n! "sha3_512", .fn .void [(.ptr .uchar), (.cptr .uchar), (size a)]⟩]

/-- Declarations of avx2/fips202x4.h:15-59. -/
def avx2_fips202x4_h (a : Abi) : List Decl :=
  [
    ⟨.X, n! "shake128x4_absorb_once", .fn .void [(.ptr t_keccakx4_state), (.cptr .uchar), (.cptr .uchar), (.cptr .uchar), (.cptr .uchar), (size a)]⟩,
    ⟨.X, n! "shake128x4_squeezeblocks", .fn .void [(.ptr .uchar), (.ptr .uchar), (.ptr .uchar), (.ptr .uchar), (size a), (.ptr t_keccakx4_state)]⟩,
    ⟨.X, n! "shake256x4_absorb_once", .fn .void [(.ptr t_keccakx4_state), (.cptr .uchar), (.cptr .uchar), (.cptr .uchar), (.cptr .uchar), (size a)]⟩,
    ⟨.X, n! "shake256x4_squeezeblocks", .fn .void [(.ptr .uchar), (.ptr .uchar), (.ptr .uchar), (.ptr .uchar), (size a), (.ptr t_keccakx4_state)]⟩,
    ⟨.X, n! "shake128x4", .fn .void [(.ptr .uchar), (.ptr .uchar), (.ptr .uchar), (.ptr .uchar), (size a), (.cptr .uchar), (.cptr .uchar), (.cptr .uchar), (.cptr .uchar), (size a)]⟩,
    ⟨.X, n! "shake256x4", .fn .void [(.ptr .uchar), (.ptr .uchar), (.ptr .uchar), (.ptr .uchar), (size a), (.cptr .uchar), (.cptr .uchar), (.cptr .uchar), (.cptr .uchar), (size a)]⟩]

/-- Declarations of avx2/symmetric.h:14-23. -/
def avx2_symmetric_h (a : Abi) : List Decl :=
  [
    ⟨.K, n! "kyber_shake128_absorb", .fn .void [(.ptr t_keccak_state), (.cptr .uchar), .uchar, .uchar]⟩,
    ⟨.K, n! "kyber_shake256_prf", .fn .void [(.ptr .uchar), (size a), (.cptr .uchar), .uchar]⟩,
    ⟨.K, n! "kyber_shake256_rkprf", .fn .void [(.ptr .uchar), (.cptr .uchar), (.cptr .uchar)]⟩]

/-- Declarations of avx2/ntt.h:8-26. -/
def avx2_ntt_h : List Decl :=
  [
    ⟨.K, n! "ntt_avx", .fn .void [(.ptr .m256i), (.cptr .m256i)]⟩,
    ⟨.K, n! "invntt_avx", .fn .void [(.ptr .m256i), (.cptr .m256i)]⟩,
    ⟨.K, n! "nttpack_avx", .fn .void [(.ptr .m256i), (.cptr .m256i)]⟩,
    ⟨.K, n! "nttunpack_avx", .fn .void [(.ptr .m256i), (.cptr .m256i)]⟩,
    ⟨.K, n! "basemul_avx", .fn .void [(.ptr .m256i), (.cptr .m256i), (.cptr .m256i), (.cptr .m256i)]⟩,
    ⟨.K, n! "ntttobytes_avx", .fn .void [(.ptr .uchar), (.cptr .m256i), (.cptr .m256i)]⟩,
    ⟨.K, n! "nttfrombytes_avx", .fn .void [(.ptr .m256i), (.cptr .uchar), (.cptr .m256i)]⟩]

/-- Declarations of avx2/cbd.h:10-13. -/
def avx2_cbd_h : List Decl :=
  [
    ⟨.K, n! "poly_cbd_eta1", .fn .void [(.ptr t_poly), (.cptr .m256i)]⟩,
    ⟨.K, n! "poly_cbd_eta2", .fn .void [(.ptr t_poly), (.cptr .m256i)]⟩]

/-- Declarations of avx2/rejsample.h:12. -/
def avx2_rejsample_h : List Decl :=
  [
    ⟨.K, n! "rej_uniform_avx", .fn .uint [(.ptr .short), (.cptr .uchar)]⟩]

/-- Declarations of avx2/consts.h:40. -/
def avx2_consts_h : List Decl :=
  [
    ⟨.K, n! "qdata", .obj true t_qdata_t⟩]

/-- Declarations of avx2/reduce.h:8-10. -/
def avx2_reduce_h : List Decl :=
  [
    ⟨.K, n! "reduce_avx", .fn .void [(.ptr .m256i), (.cptr .m256i)]⟩,
    ⟨.K, n! "tomont_avx", .fn .void [(.ptr .m256i), (.cptr .m256i)]⟩]

/-- Declarations of avx2/keccak4x/KeccakP-1600-times4-SnP.h:35-63. -/
def avx2_SnP_h (a : Abi) : List Decl :=
  [
    ⟨.X, n! "KeccakP1600times4_InitializeAll", .fn .void [(.ptr .void)]⟩,
    ⟨.X, n! "KeccakP1600times4_AddBytes", .fn .void [(.ptr .void), .uint, (.cptr .uchar), .uint, .uint]⟩,
    ⟨.X, n! "KeccakP1600times4_AddLanesAll", .fn .void [(.ptr .void), (.cptr .uchar), .uint, .uint]⟩,
    ⟨.X, n! "KeccakP1600times4_OverwriteBytes", .fn .void [(.ptr .void), .uint, (.cptr .uchar), .uint, .uint]⟩,
    ⟨.X, n! "KeccakP1600times4_OverwriteLanesAll", .fn .void [(.ptr .void), (.cptr .uchar), .uint, .uint]⟩,
    ⟨.X, n! "KeccakP1600times4_OverwriteWithZeroes", .fn .void [(.ptr .void), .uint, .uint]⟩,
    ⟨.X, n! "KeccakP1600times4_PermuteAll_12rounds", .fn .void [(.ptr .void)]⟩,
    ⟨.X, n! "KeccakP1600times4_PermuteAll_24rounds", .fn .void [(.ptr .void)]⟩,
    ⟨.X, n! "KeccakP1600times4_ExtractBytes", .fn .void [(.cptr .void), .uint, (.ptr .uchar), .uint, .uint]⟩,
    ⟨.X, n! "KeccakP1600times4_ExtractLanesAll", .fn .void [(.cptr .void), (.ptr .uchar), .uint, .uint]⟩,
    ⟨.X, n! "KeccakP1600times4_ExtractAndAddBytes", .fn .void [(.cptr .void), .uint, (.cptr .uchar), (.ptr .uchar), .uint, .uint]⟩,
    ⟨.X, n! "KeccakP1600times4_ExtractAndAddLanesAll", .fn .void [(.cptr .void), (.cptr .uchar), (.ptr .uchar), .uint, .uint]⟩,
    ⟨.X, n! "KeccakF1600times4_FastLoop_Absorb", .fn (size a) [(.ptr .void), .uint, .uint, .uint, (.cptr .uchar), (size a)]⟩,
    ⟨.X, n! "KeccakP1600times4_12rounds_FastLoop_Absorb", .fn (size a) [(.ptr .void), .uint, .uint, .uint, (.cptr .uchar), (size a)]⟩]

/-- The declarations of a header. -/
def Header.decls (a : Abi) (p : ParamSet) : Header → List Decl
  | .ref_kem_h => Link.ref_kem_h
  | .ref_poly_h => Link.ref_poly_h
  | .ref_polyvec_h => Link.ref_polyvec_h
  | .ref_indcpa_h => Link.ref_indcpa_h
  | .ref_verify_h => Link.ref_verify_h a
  | .ref_fips202_h => Link.ref_fips202_h a
  | .ref_symmetric_h => Link.ref_symmetric_h a
  | .ref_randombytes_h => Link.ref_randombytes_h a
  | .ref_ntt_h => Link.ref_ntt_h
  | .ref_reduce_h => Link.ref_reduce_h
  | .ref_cbd_h => Link.ref_cbd_h
  | .ref_cpucycles_h => Link.ref_cpucycles_h a
  | .ref_speed_print_h => Link.ref_speed_print_h a
  | .ref_rng_h => Link.ref_rng_h
  | .avx2_poly_h => Link.avx2_poly_h p
  | .avx2_polyvec_h => Link.avx2_polyvec_h
  | .avx2_fips202_h => Link.avx2_fips202_h a
  | .avx2_fips202x4_h => Link.avx2_fips202x4_h a
  | .avx2_symmetric_h => Link.avx2_symmetric_h a
  | .avx2_ntt_h => Link.avx2_ntt_h
  | .avx2_cbd_h => Link.avx2_cbd_h
  | .avx2_rejsample_h => Link.avx2_rejsample_h
  | .avx2_consts_h => Link.avx2_consts_h
  | .avx2_reduce_h => Link.avx2_reduce_h
  | .avx2_SnP_h => Link.avx2_SnP_h a

/-- ref/kem.c: external definitions at lines 25, 50, 76, 113, 140. -/
def ref_kem_c : Source where
  defs := [
    ⟨.K, n! "keypair_derand", .fn .int [(.ptr .uchar), (.ptr .uchar), (.cptr .uchar)]⟩,
    ⟨.K, n! "keypair", .fn .int [(.ptr .uchar), (.ptr .uchar)]⟩,
    ⟨.K, n! "enc_derand", .fn .int [(.ptr .uchar), (.ptr .uchar), (.cptr .uchar), (.cptr .uchar)]⟩,
    ⟨.K, n! "enc", .fn .int [(.ptr .uchar), (.ptr .uchar), (.cptr .uchar)]⟩,
    ⟨.K, n! "dec", .fn .int [(.ptr .uchar), (.cptr .uchar), (.cptr .uchar)]⟩]
  own := []
  headers := [.ref_kem_h, .ref_poly_h, .ref_polyvec_h, .ref_indcpa_h, .ref_verify_h, .ref_fips202_h, .ref_symmetric_h, .ref_randombytes_h]
  refs := [(.K, n! "indcpa_keypair_derand"), (.F, n! "sha3_256"), (.G, n! "randombytes"), (.F, n! "sha3_512"), (.K, n! "indcpa_enc"), (.K, n! "indcpa_dec"),
      (.K, n! "verify"), (.K, n! "kyber_shake256_rkprf"), (.K, n! "cmov")]
  sys := [n! "memcpy"]

/-- ref/indcpa.c: external definitions at lines 165, 205, 260, 314. -/
def ref_indcpa_c : Source where
  defs := [
    ⟨.K, n! "gen_matrix", .fn .void [(.ptr t_polyvec), (.cptr .uchar), .int]⟩,
    ⟨.K, n! "indcpa_keypair_derand", .fn .void [(.ptr .uchar), (.ptr .uchar), (.cptr .uchar)]⟩,
    ⟨.K, n! "indcpa_enc", .fn .void [(.ptr .uchar), (.cptr .uchar), (.cptr .uchar), (.cptr .uchar)]⟩,
    ⟨.K, n! "indcpa_dec", .fn .void [(.ptr .uchar), (.cptr .uchar), (.cptr .uchar)]⟩]
  own := []
  headers := [.ref_poly_h, .ref_polyvec_h, .ref_indcpa_h, .ref_ntt_h, .ref_fips202_h, .ref_symmetric_h, .ref_randombytes_h]
  refs := [(.K, n! "polyvec_tobytes"), (.K, n! "polyvec_frombytes"), (.K, n! "polyvec_compress"), (.K, n! "poly_compress"), (.K, n! "polyvec_decompress"),
      (.K, n! "poly_decompress"), (.K, n! "kyber_shake128_absorb"), (.F, n! "shake128_squeezeblocks"), (.F, n! "sha3_512"), (.K, n! "poly_getnoise_eta1"),
      (.K, n! "polyvec_ntt"), (.K, n! "polyvec_basemul_acc_montgomery"), (.K, n! "poly_tomont"), (.K, n! "polyvec_add"), (.K, n! "polyvec_reduce"),
      (.K, n! "poly_frommsg"), (.K, n! "poly_getnoise_eta2"), (.K, n! "polyvec_invntt_tomont"), (.K, n! "poly_invntt_tomont"), (.K, n! "poly_add"),
      (.K, n! "poly_reduce"), (.K, n! "poly_sub"), (.K, n! "poly_tomsg")]
  sys := [n! "memcpy"]

/-- ref/polyvec.c: external definitions at lines 15, 89, 139, 156, 170, 185, 202, 225, 241. -/
def ref_polyvec_c : Source where
  defs := [
    ⟨.K, n! "polyvec_compress", .fn .void [(.ptr .uchar), (.cptr t_polyvec)]⟩,
    ⟨.K, n! "polyvec_decompress", .fn .void [(.ptr t_polyvec), (.cptr .uchar)]⟩,
    ⟨.K, n! "polyvec_tobytes", .fn .void [(.ptr .uchar), (.cptr t_polyvec)]⟩,
    ⟨.K, n! "polyvec_frombytes", .fn .void [(.ptr t_polyvec), (.cptr .uchar)]⟩,
    ⟨.K, n! "polyvec_ntt", .fn .void [(.ptr t_polyvec)]⟩,
    ⟨.K, n! "polyvec_invntt_tomont", .fn .void [(.ptr t_polyvec)]⟩,
    ⟨.K, n! "polyvec_basemul_acc_montgomery", .fn .void [(.ptr t_poly), (.cptr t_polyvec), (.cptr t_polyvec)]⟩,
    ⟨.K, n! "polyvec_reduce", .fn .void [(.ptr t_polyvec)]⟩,
    ⟨.K, n! "polyvec_add", .fn .void [(.ptr t_polyvec), (.cptr t_polyvec), (.cptr t_polyvec)]⟩]
  own := []
  headers := [.ref_poly_h, .ref_polyvec_h]
  refs := [(.K, n! "poly_tobytes"), (.K, n! "poly_frombytes"), (.K, n! "poly_ntt"), (.K, n! "poly_invntt_tomont"), (.K, n! "poly_basemul_montgomery"),
      (.K, n! "poly_add"), (.K, n! "poly_reduce")]
  sys := []

/-- ref/poly.c: external definitions at lines 19, 83, 124, 151, 168, 192, 225, 244, 261, 276, 290, 307, 323, 339, 355. -/
def ref_poly_c : Source where
  defs := [
    ⟨.K, n! "poly_compress", .fn .void [(.ptr .uchar), (.cptr t_poly)]⟩,
    ⟨.K, n! "poly_decompress", .fn .void [(.ptr t_poly), (.cptr .uchar)]⟩,
    ⟨.K, n! "poly_tobytes", .fn .void [(.ptr .uchar), (.cptr t_poly)]⟩,
    ⟨.K, n! "poly_frombytes", .fn .void [(.ptr t_poly), (.cptr .uchar)]⟩,
    ⟨.K, n! "poly_frommsg", .fn .void [(.ptr t_poly), (.cptr .uchar)]⟩,
    ⟨.K, n! "poly_tomsg", .fn .void [(.ptr .uchar), (.cptr t_poly)]⟩,
    ⟨.K, n! "poly_getnoise_eta1", .fn .void [(.ptr t_poly), (.cptr .uchar), .uchar]⟩,
    ⟨.K, n! "poly_getnoise_eta2", .fn .void [(.ptr t_poly), (.cptr .uchar), .uchar]⟩,
    ⟨.K, n! "poly_ntt", .fn .void [(.ptr t_poly)]⟩,
    ⟨.K, n! "poly_invntt_tomont", .fn .void [(.ptr t_poly)]⟩,
    ⟨.K, n! "poly_basemul_montgomery", .fn .void [(.ptr t_poly), (.cptr t_poly), (.cptr t_poly)]⟩,
    ⟨.K, n! "poly_tomont", .fn .void [(.ptr t_poly)]⟩,
    ⟨.K, n! "poly_reduce", .fn .void [(.ptr t_poly)]⟩,
    ⟨.K, n! "poly_add", .fn .void [(.ptr t_poly), (.cptr t_poly), (.cptr t_poly)]⟩,
    ⟨.K, n! "poly_sub", .fn .void [(.ptr t_poly), (.cptr t_poly), (.cptr t_poly)]⟩]
  own := []
  headers := [.ref_poly_h, .ref_ntt_h, .ref_reduce_h, .ref_cbd_h, .ref_fips202_h, .ref_symmetric_h, .ref_verify_h]
  refs := [(.K, n! "cmov_int16"), (.K, n! "kyber_shake256_prf"), (.K, n! "poly_cbd_eta1"), (.K, n! "poly_cbd_eta2"), (.K, n! "ntt"), (.K, n! "invntt"),
      (.K, n! "basemul"), (.K, n! "zetas"), (.K, n! "montgomery_reduce"), (.K, n! "barrett_reduce")]
  sys := []

/-- ref/ntt.c: external definitions at lines 39, 80, 106, 139. -/
def ref_ntt_c : Source where
  defs := [
    ⟨.K, n! "zetas", .obj true (.arr 128 .short)⟩,
    ⟨.K, n! "ntt", .fn .void [(.ptr .short)]⟩,
    ⟨.K, n! "invntt", .fn .void [(.ptr .short)]⟩,
    ⟨.K, n! "basemul", .fn .void [(.ptr .short), (.cptr .short), (.cptr .short), .short]⟩]
  own := []
  headers := [.ref_ntt_h, .ref_reduce_h]
  refs := [(.K, n! "montgomery_reduce"), (.K, n! "barrett_reduce")]
  sys := []

/-- ref/cbd.c: external definitions at lines 110, 121. -/
def ref_cbd_c : Source where
  defs := [
    ⟨.K, n! "poly_cbd_eta1", .fn .void [(.ptr t_poly), (.cptr .uchar)]⟩,
    ⟨.K, n! "poly_cbd_eta2", .fn .void [(.ptr t_poly), (.cptr .uchar)]⟩]
  own := []
  headers := [.ref_poly_h, .ref_cbd_h]
  refs := []
  sys := []

/-- ref/reduce.c: external definitions at lines 16, 35. -/
def ref_reduce_c : Source where
  defs := [
    ⟨.K, n! "montgomery_reduce", .fn .short [.int]⟩,
    ⟨.K, n! "barrett_reduce", .fn .short [.short]⟩]
  own := []
  headers := [.ref_reduce_h]
  refs := []
  sys := []

/-- ref/verify.c: external definitions at lines 16, 40, 71. -/
def ref_verify_c (a : Abi) : Source where
  defs := [
    ⟨.K, n! "verify", .fn .int [(.cptr .uchar), (.cptr .uchar), (size a)]⟩,
    ⟨.K, n! "cmov", .fn .void [(.ptr .uchar), (.cptr .uchar), (size a), .uchar]⟩,
    ⟨.K, n! "cmov_int16", .fn .void [(.ptr .short), .short, .ushort]⟩]
  own := []
  headers := [.ref_verify_h]
  refs := []
  sys := []

/-- ref/fips202.c: external definitions at lines 523, 538, 550, 566, 580, 598, 610, 625, 637, 653, 667, 685, 700, 723, 745, 765. -/
def ref_fips202_c (a : Abi) : Source where
  defs := [
    ⟨.F, n! "shake128_init", .fn .void [(.ptr t_keccak_state)]⟩,
    ⟨.F, n! "shake128_absorb", .fn .void [(.ptr t_keccak_state), (.cptr .uchar), (size a)]⟩,
    ⟨.F, n! "shake128_finalize", .fn .void [(.ptr t_keccak_state)]⟩,
    ⟨.F, n! "shake128_squeeze", .fn .void [(.ptr .uchar), (size a), (.ptr t_keccak_state)]⟩,
    ⟨.F, n! "shake128_absorb_once", .fn .void [(.ptr t_keccak_state), (.cptr .uchar), (size a)]⟩,
    ⟨.F, n! "shake128_squeezeblocks", .fn .void [(.ptr .uchar), (size a), (.ptr t_keccak_state)]⟩,
    ⟨.F, n! "shake256_init", .fn .void [(.ptr t_keccak_state)]⟩,
    ⟨.F, n! "shake256_absorb", .fn .void [(.ptr t_keccak_state), (.cptr .uchar), (size a)]⟩,
    ⟨.F, n! "shake256_finalize", .fn .void [(.ptr t_keccak_state)]⟩,
    ⟨.F, n! "shake256_squeeze", .fn .void [(.ptr .uchar), (size a), (.ptr t_keccak_state)]⟩,
    ⟨.F, n! "shake256_absorb_once", .fn .void [(.ptr t_keccak_state), (.cptr .uchar), (size a)]⟩,
    ⟨.F, n! "shake256_squeezeblocks", .fn .void [(.ptr .uchar), (size a), (.ptr t_keccak_state)]⟩,
    ⟨.F, n! "shake128", .fn .void [(.ptr .uchar), (size a), (.cptr .uchar), (size a)]⟩,
    ⟨.F, n! "shake256", .fn .void [(.ptr .uchar), (size a), (.cptr .uchar), (size a)]⟩,
    ⟨.F, n! "sha3_256", .fn .void [(.ptr .uchar), (.cptr .uchar), (size a)]⟩,
    ⟨.F, n! "sha3_512", .fn .void [(.ptr .uchar), (.cptr .uchar), (size a)]⟩]
  own := []
  headers := [.ref_fips202_h]
  refs := []
  statics := [(n! "KeccakF_RoundConstants", true)]
  sys := []

/-- ref/symmetric-shake.c: external definitions at lines 18, 43, 64. -/
def ref_symmetric_shake_c (a : Abi) : Source where
  defs := [
    ⟨.K, n! "kyber_shake128_absorb", .fn .void [(.ptr t_keccak_state), (.cptr .uchar), .uchar, .uchar]⟩,
    ⟨.K, n! "kyber_shake256_prf", .fn .void [(.ptr .uchar), (size a), (.cptr .uchar), .uchar]⟩,
    ⟨.K, n! "kyber_shake256_rkprf", .fn .void [(.ptr .uchar), (.cptr .uchar), (.cptr .uchar)]⟩]
  own := []
  headers := [.ref_fips202_h, .ref_symmetric_h]
  refs := [(.F, n! "shake128_absorb_once"), (.F, n! "shake256"), (.F, n! "shake256_init"), (.F, n! "shake256_absorb"), (.F, n! "shake256_finalize"),
      (.F, n! "shake256_squeeze")]
  sys := [n! "memcpy"]

/-- ref/randombytes.c: external definitions at lines 44. -/
def ref_randombytes_c (a : Abi) : Source where
  defs := [
    ⟨.G, n! "randombytes", .fn .void [(.ptr .uchar), (size a)]⟩]
  own := []
  headers := [.ref_randombytes_h]
  refs := []
  sys := [n! "syscall", n! "abort"]

/-- ref/test/test_kyber.c: external definitions at lines 97. -/
def ref_test_kyber_c : Source where
  defs := [
    ⟨.G, n! "main", .fn .int []⟩]
  own := []
  headers := [.ref_kem_h, .ref_randombytes_h]
  refs := [(.K, n! "keypair"), (.K, n! "enc"), (.K, n! "dec"), (.G, n! "randombytes")]
  sys := [n! "memcmp", n! "printf"]

/-- ref/test/test_vectors.c: external definitions at lines 18, 23. -/
def ref_test_vectors_c (a : Abi) : Source where
  defs := [
    ⟨.G, n! "randombytes", .fn .void [(.ptr .uchar), (size a)]⟩,
    ⟨.G, n! "main", .fn .int []⟩]
  own := []
  headers := [.ref_kem_h, .ref_randombytes_h, .ref_fips202_h]
  refs := [(.F, n! "shake128_squeeze"), (.K, n! "keypair"), (.K, n! "enc"), (.K, n! "dec")]
  statics := [(n! "rngstate", false)]
  sys := [n! "printf", n! "fprintf"]

/-- ref/test/cpucycles.c: external definitions at lines 4. -/
def ref_cpucycles_c (a : Abi) : Source where
  defs := [
    ⟨.G, n! "cpucycles_overhead", .fn (u64 a) []⟩]
  own := []
  headers := [.ref_cpucycles_h]
  refs := []
  sys := []

/-- ref/test/speed_print.c: external definitions at lines 31. -/
def ref_speed_print_c (a : Abi) : Source where
  defs := [
    ⟨.G, n! "print_results", .fn .void [(.cptr .char), (.ptr (u64 a)), (size a)]⟩]
  own := []
  headers := [.ref_cpucycles_h, .ref_speed_print_h]
  refs := [(.G, n! "cpucycles_overhead")]
  statics := [(n! "overhead", false)]
  sys := [n! "qsort", n! "fprintf", n! "printf"]

/-- ref/test/test_speed.c: external definitions at lines 16, 17, 19. -/
def ref_test_speed_c (a : Abi) : Source where
  defs := [
    ⟨.G, n! "t", .obj false (.arr 1000 (u64 a))⟩,
    ⟨.G, n! "seed", .obj false (.arr 32 .uchar)⟩,
    ⟨.G, n! "main", .fn .int []⟩]
  own := []
  headers := [.ref_kem_h, .ref_poly_h, .ref_polyvec_h, .ref_indcpa_h, .ref_randombytes_h, .ref_cpucycles_h, .ref_speed_print_h]
  refs := [(.G, n! "randombytes"), (.K, n! "gen_matrix"), (.G, n! "print_results"), (.K, n! "poly_getnoise_eta1"), (.K, n! "poly_getnoise_eta2"),
      (.K, n! "poly_ntt"), (.K, n! "poly_invntt_tomont"), (.K, n! "polyvec_basemul_acc_montgomery"), (.K, n! "poly_tomsg"), (.K, n! "poly_frommsg"),
      (.K, n! "poly_compress"), (.K, n! "poly_decompress"), (.K, n! "polyvec_compress"), (.K, n! "polyvec_decompress"), (.K, n! "indcpa_keypair_derand"),
      (.K, n! "indcpa_enc"), (.K, n! "indcpa_dec"), (.K, n! "keypair_derand"), (.K, n! "keypair"), (.K, n! "enc_derand"), (.K, n! "enc"), (.K, n! "dec")]
  sys := []

/-- ref/nistkat/rng.c: external definitions at lines 14, 25, 60, 105, 115, 138, 155, 188. -/
def ref_rng_c : Source where
  defs := [
    ⟨.G, n! "DRBG_ctx", .obj false t_AES256_CTR_DRBG_struct⟩,
    ⟨.G, n! "seedexpander_init", .fn .int [(.ptr t_AES_XOF_struct), (.ptr .uchar), (.ptr .uchar), .ulong]⟩,
    ⟨.G, n! "seedexpander", .fn .int [(.ptr t_AES_XOF_struct), (.ptr .uchar), .ulong]⟩,
    ⟨.G, n! "handleErrors", .fn .void []⟩,
    ⟨.G, n! "AES256_ECB", .fn .void [(.ptr .uchar), (.ptr .uchar), (.ptr .uchar)]⟩,
    ⟨.G, n! "randombytes_init", .fn .void [(.ptr .uchar), (.ptr .uchar), .int]⟩,
    ⟨.G, n! "randombytes", .fn .int [(.ptr .uchar), .ullong]⟩,
    ⟨.G, n! "AES256_CTR_DRBG_Update", .fn .void [(.ptr .uchar), (.ptr .uchar), (.ptr .uchar)]⟩]
  own := [⟨.G, n! "AES256_ECB", .fn .void [(.ptr .uchar), (.ptr .uchar), (.ptr .uchar)]⟩]
  headers := [.ref_rng_h]
  refs := []
  sys := [n! "memcpy", n! "memset", n! "ERR_print_errors_fp", n! "abort", n! "EVP_CIPHER_CTX_new", n! "EVP_EncryptInit_ex", n! "EVP_aes_256_ecb", n! "EVP_EncryptUpdate", n! "EVP_CIPHER_CTX_free"]

/-- ref/nistkat/PQCgenKAT_kem.c: external definitions at lines 25, 133, 173, 217. -/
def ref_PQCgenKAT_kem_c : Source where
  defs := [
    ⟨.G, n! "main", .fn .int []⟩,
    ⟨.G, n! "FindMarker", .fn .int [(.ptr t_FILE), (.cptr .char)]⟩,
    ⟨.G, n! "ReadHex", .fn .int [(.ptr t_FILE), (.ptr .uchar), .int, (.ptr .char)]⟩,
    ⟨.G, n! "fprintBstr", .fn .void [(.ptr t_FILE), (.ptr .char), (.ptr .uchar), .ullong]⟩]
  own := [⟨.G, n! "FindMarker", .fn .int [(.ptr t_FILE), (.cptr .char)]⟩, ⟨.G, n! "ReadHex", .fn .int [(.ptr t_FILE), (.ptr .uchar), .int, (.ptr .char)]⟩, ⟨.G, n! "fprintBstr", .fn .void [(.ptr t_FILE), (.ptr .char), (.ptr .uchar), .ullong]⟩]
  headers := [.ref_rng_h, .ref_kem_h]
  refs := [(.G, n! "randombytes_init"), (.G, n! "randombytes"), (.K, n! "keypair"), (.K, n! "enc"), (.K, n! "dec")]
  sys := [n! "sprintf", n! "fopen", n! "printf", n! "fprintf", n! "fclose", n! "fscanf", n! "memcmp", n! "strlen", n! "fgetc", n! "strncmp", n! "memset", n! "isxdigit"]

/-- avx2/kem.c: external definitions at lines 25, 50, 76, 113, 140. The text is ref/kem.c through a symbolic link; its headers are those of avx2/. -/
def avx2_kem_c : Source where
  defs := [
    ⟨.K, n! "keypair_derand", .fn .int [(.ptr .uchar), (.ptr .uchar), (.cptr .uchar)]⟩,
    ⟨.K, n! "keypair", .fn .int [(.ptr .uchar), (.ptr .uchar)]⟩,
    ⟨.K, n! "enc_derand", .fn .int [(.ptr .uchar), (.ptr .uchar), (.cptr .uchar), (.cptr .uchar)]⟩,
    ⟨.K, n! "enc", .fn .int [(.ptr .uchar), (.ptr .uchar), (.cptr .uchar)]⟩,
    ⟨.K, n! "dec", .fn .int [(.ptr .uchar), (.cptr .uchar), (.cptr .uchar)]⟩]
  own := []
  headers := [.ref_kem_h, .avx2_poly_h, .avx2_polyvec_h, .ref_indcpa_h, .ref_verify_h, .avx2_fips202_h, .avx2_fips202x4_h, .avx2_symmetric_h, .ref_randombytes_h]
  refs := [(.K, n! "indcpa_keypair_derand"), (.F, n! "sha3_256"), (.G, n! "randombytes"), (.F, n! "sha3_512"), (.K, n! "indcpa_enc"), (.K, n! "indcpa_dec"),
      (.K, n! "verify"), (.K, n! "kyber_shake256_rkprf"), (.K, n! "cmov")]
  sys := [n! "memcpy"]

/-- avx2/indcpa.c: external definitions at lines 173, 424, 483, 541. -/
def avx2_indcpa_c (p : ParamSet) : Source where
  defs := [
    ⟨.K, n! "gen_matrix", .fn .void [(.ptr t_polyvec), (.cptr .uchar), .int]⟩,
    ⟨.K, n! "indcpa_keypair_derand", .fn .void [(.ptr .uchar), (.ptr .uchar), (.cptr .uchar)]⟩,
    ⟨.K, n! "indcpa_enc", .fn .void [(.ptr .uchar), (.cptr .uchar), (.cptr .uchar), (.cptr .uchar)]⟩,
    ⟨.K, n! "indcpa_dec", .fn .void [(.ptr .uchar), (.cptr .uchar), (.cptr .uchar)]⟩]
  own := []
  headers := [.avx2_poly_h, .avx2_polyvec_h, .ref_indcpa_h, .avx2_ntt_h, .avx2_cbd_h, .avx2_fips202_h, .avx2_fips202x4_h, .avx2_symmetric_h, .avx2_rejsample_h, .ref_randombytes_h]
  refs := match p with
    | .k2 => [(.K, n! "polyvec_tobytes"), (.K, n! "polyvec_frombytes"), (.K, n! "polyvec_compress"), (.K, n! "poly_compress"), (.K, n! "polyvec_decompress"),
      (.K, n! "poly_decompress"), (.X, n! "shake128x4_absorb_once"), (.X, n! "shake128x4_squeezeblocks"), (.K, n! "rej_uniform_avx"),
      (.K, n! "poly_nttunpack"), (.F, n! "sha3_512"), (.K, n! "poly_getnoise_eta2_4x"), (.K, n! "polyvec_ntt"), (.K, n! "polyvec_reduce"),
      (.K, n! "polyvec_basemul_acc_montgomery"), (.K, n! "poly_tomont"), (.K, n! "polyvec_add"), (.K, n! "poly_frommsg"),
      (.K, n! "poly_getnoise_eta1122_4x"), (.K, n! "poly_getnoise_eta2"), (.K, n! "polyvec_invntt_tomont"), (.K, n! "poly_invntt_tomont"),
      (.K, n! "poly_add"), (.K, n! "poly_reduce"), (.K, n! "poly_sub"), (.K, n! "poly_tomsg")]
    | .k3 => [(.K, n! "polyvec_tobytes"), (.K, n! "polyvec_frombytes"), (.K, n! "polyvec_compress"), (.K, n! "poly_compress"), (.K, n! "polyvec_decompress"),
      (.K, n! "poly_decompress"), (.X, n! "shake128x4_absorb_once"), (.X, n! "shake128x4_squeezeblocks"), (.K, n! "rej_uniform_avx"),
      (.K, n! "poly_nttunpack"), (.F, n! "shake128_absorb_once"), (.F, n! "shake128_squeezeblocks"), (.F, n! "sha3_512"), (.K, n! "poly_getnoise_eta2_4x"),
      (.K, n! "polyvec_ntt"), (.K, n! "polyvec_reduce"), (.K, n! "polyvec_basemul_acc_montgomery"), (.K, n! "poly_tomont"), (.K, n! "polyvec_add"),
      (.K, n! "poly_frommsg"), (.K, n! "polyvec_invntt_tomont"), (.K, n! "poly_invntt_tomont"), (.K, n! "poly_add"), (.K, n! "poly_reduce"),
      (.K, n! "poly_sub"), (.K, n! "poly_tomsg")]
    | .k4 => [(.K, n! "polyvec_tobytes"), (.K, n! "polyvec_frombytes"), (.K, n! "polyvec_compress"), (.K, n! "poly_compress"), (.K, n! "polyvec_decompress"),
      (.K, n! "poly_decompress"), (.X, n! "shake128x4_absorb_once"), (.X, n! "shake128x4_squeezeblocks"), (.K, n! "rej_uniform_avx"),
      (.K, n! "poly_nttunpack"), (.F, n! "sha3_512"), (.K, n! "poly_getnoise_eta2_4x"), (.K, n! "polyvec_ntt"), (.K, n! "polyvec_reduce"),
      (.K, n! "polyvec_basemul_acc_montgomery"), (.K, n! "poly_tomont"), (.K, n! "polyvec_add"), (.K, n! "poly_frommsg"), (.K, n! "poly_getnoise_eta2"),
      (.K, n! "polyvec_invntt_tomont"), (.K, n! "poly_invntt_tomont"), (.K, n! "poly_add"), (.K, n! "poly_reduce"), (.K, n! "poly_sub"),
      (.K, n! "poly_tomsg")]
  sys := [n! "memcpy"]

/-- avx2/polyvec.c: external definitions at lines 157, 180, 202, 219, 233, 248, 265, 286, 302. -/
def avx2_polyvec_c (p : ParamSet) : Source where
  defs := [
    ⟨.K, n! "polyvec_compress", .fn .void [(.ptr .uchar), (.cptr t_polyvec)]⟩,
    ⟨.K, n! "polyvec_decompress", .fn .void [(.ptr t_polyvec), (.cptr .uchar)]⟩,
    ⟨.K, n! "polyvec_tobytes", .fn .void [(.ptr .uchar), (.cptr t_polyvec)]⟩,
    ⟨.K, n! "polyvec_frombytes", .fn .void [(.ptr t_polyvec), (.cptr .uchar)]⟩,
    ⟨.K, n! "polyvec_ntt", .fn .void [(.ptr t_polyvec)]⟩,
    ⟨.K, n! "polyvec_invntt_tomont", .fn .void [(.ptr t_polyvec)]⟩,
    ⟨.K, n! "polyvec_basemul_acc_montgomery", .fn .void [(.ptr t_poly), (.cptr t_polyvec), (.cptr t_polyvec)]⟩,
    ⟨.K, n! "polyvec_reduce", .fn .void [(.ptr t_polyvec)]⟩,
    ⟨.K, n! "polyvec_add", .fn .void [(.ptr t_polyvec), (.cptr t_polyvec), (.cptr t_polyvec)]⟩]
  own := []
  headers := [.avx2_poly_h, .avx2_polyvec_h, .avx2_ntt_h, .avx2_consts_h]
  refs := [(.K, n! "qdata"), (.K, n! "poly_tobytes"), (.K, n! "poly_frombytes"), (.K, n! "poly_ntt"), (.K, n! "poly_invntt_tomont"),
      (.K, n! "poly_basemul_montgomery"), (.K, n! "poly_add"), (.K, n! "poly_reduce")]
  sys := match p with
    | .k2 => [n! "memcpy"]
    | .k3 => [n! "memcpy"]
    | .k4 => []

/-- avx2/poly.c: external definitions at lines 26, 63, 166, 181, 194, 250, 288, 307, 316, 351, 400, 417, 422, 439, 452, 465, 480, 503. -/
def avx2_poly_c (p : ParamSet) : Source where
  defs := match p with
    | .k2 => [
    ⟨.K, n! "poly_compress", .fn .void [(.ptr .uchar), (.cptr t_poly)]⟩,
    ⟨.K, n! "poly_decompress", .fn .void [(.ptr t_poly), (.cptr .uchar)]⟩,
    ⟨.K, n! "poly_tobytes", .fn .void [(.ptr .uchar), (.cptr t_poly)]⟩,
    ⟨.K, n! "poly_frombytes", .fn .void [(.ptr t_poly), (.cptr .uchar)]⟩,
    ⟨.K, n! "poly_frommsg", .fn .void [(.ptr t_poly), (.cptr .uchar)]⟩,
    ⟨.K, n! "poly_tomsg", .fn .void [(.ptr .uchar), (.cptr t_poly)]⟩,
    ⟨.K, n! "poly_getnoise_eta1", .fn .void [(.ptr t_poly), (.cptr .uchar), .uchar]⟩,
    ⟨.K, n! "poly_getnoise_eta2", .fn .void [(.ptr t_poly), (.cptr .uchar), .uchar]⟩,
    ⟨.K, n! "poly_getnoise_eta2_4x", .fn .void [(.ptr t_poly), (.ptr t_poly), (.ptr t_poly), (.ptr t_poly), (.cptr .uchar), .uchar, .uchar, .uchar, .uchar]⟩,
    ⟨.K, n! "poly_getnoise_eta1122_4x", .fn .void [(.ptr t_poly), (.ptr t_poly), (.ptr t_poly), (.ptr t_poly), (.cptr .uchar), .uchar, .uchar, .uchar, .uchar]⟩,
    ⟨.K, n! "poly_ntt", .fn .void [(.ptr t_poly)]⟩,
    ⟨.K, n! "poly_invntt_tomont", .fn .void [(.ptr t_poly)]⟩,
    ⟨.K, n! "poly_nttunpack", .fn .void [(.ptr t_poly)]⟩,
    ⟨.K, n! "poly_basemul_montgomery", .fn .void [(.ptr t_poly), (.cptr t_poly), (.cptr t_poly)]⟩,
    ⟨.K, n! "poly_tomont", .fn .void [(.ptr t_poly)]⟩,
    ⟨.K, n! "poly_reduce", .fn .void [(.ptr t_poly)]⟩,
    ⟨.K, n! "poly_add", .fn .void [(.ptr t_poly), (.cptr t_poly), (.cptr t_poly)]⟩,
    ⟨.K, n! "poly_sub", .fn .void [(.ptr t_poly), (.cptr t_poly), (.cptr t_poly)]⟩]
    | _ => [
    ⟨.K, n! "poly_compress", .fn .void [(.ptr .uchar), (.cptr t_poly)]⟩,
    ⟨.K, n! "poly_decompress", .fn .void [(.ptr t_poly), (.cptr .uchar)]⟩,
    ⟨.K, n! "poly_tobytes", .fn .void [(.ptr .uchar), (.cptr t_poly)]⟩,
    ⟨.K, n! "poly_frombytes", .fn .void [(.ptr t_poly), (.cptr .uchar)]⟩,
    ⟨.K, n! "poly_frommsg", .fn .void [(.ptr t_poly), (.cptr .uchar)]⟩,
    ⟨.K, n! "poly_tomsg", .fn .void [(.ptr .uchar), (.cptr t_poly)]⟩,
    ⟨.K, n! "poly_getnoise_eta1", .fn .void [(.ptr t_poly), (.cptr .uchar), .uchar]⟩,
    ⟨.K, n! "poly_getnoise_eta2", .fn .void [(.ptr t_poly), (.cptr .uchar), .uchar]⟩,
    ⟨.K, n! "poly_getnoise_eta2_4x", .fn .void [(.ptr t_poly), (.ptr t_poly), (.ptr t_poly), (.ptr t_poly), (.cptr .uchar), .uchar, .uchar, .uchar, .uchar]⟩,
    ⟨.K, n! "poly_ntt", .fn .void [(.ptr t_poly)]⟩,
    ⟨.K, n! "poly_invntt_tomont", .fn .void [(.ptr t_poly)]⟩,
    ⟨.K, n! "poly_nttunpack", .fn .void [(.ptr t_poly)]⟩,
    ⟨.K, n! "poly_basemul_montgomery", .fn .void [(.ptr t_poly), (.cptr t_poly), (.cptr t_poly)]⟩,
    ⟨.K, n! "poly_tomont", .fn .void [(.ptr t_poly)]⟩,
    ⟨.K, n! "poly_reduce", .fn .void [(.ptr t_poly)]⟩,
    ⟨.K, n! "poly_add", .fn .void [(.ptr t_poly), (.cptr t_poly), (.cptr t_poly)]⟩,
    ⟨.K, n! "poly_sub", .fn .void [(.ptr t_poly), (.cptr t_poly), (.cptr t_poly)]⟩]
  own := []
  headers := [.avx2_poly_h, .avx2_ntt_h, .avx2_consts_h, .avx2_reduce_h, .avx2_cbd_h, .avx2_fips202_h, .avx2_fips202x4_h, .avx2_symmetric_h]
  refs := [(.K, n! "qdata"), (.K, n! "ntttobytes_avx"), (.K, n! "nttfrombytes_avx"), (.K, n! "kyber_shake256_prf"), (.K, n! "poly_cbd_eta1"),
      (.K, n! "poly_cbd_eta2"), (.X, n! "shake256x4_absorb_once"), (.X, n! "shake256x4_squeezeblocks"), (.K, n! "ntt_avx"), (.K, n! "invntt_avx"),
      (.K, n! "nttunpack_avx"), (.K, n! "basemul_avx"), (.K, n! "tomont_avx"), (.K, n! "reduce_avx")]
  sys := [n! "memcpy"]

/-- avx2/consts.c: external definitions at lines 16. -/
def avx2_consts_c : Source where
  defs := [
    ⟨.K, n! "qdata", .obj true t_qdata_t⟩]
  own := []
  headers := [.avx2_consts_h]
  refs := []
  sys := []

/-- avx2/rejsample.c: external definitions at lines 274. -/
def avx2_rejsample_c : Source where
  defs := [
    ⟨.K, n! "rej_uniform_avx", .fn .uint [(.ptr .short), (.cptr .uchar)]⟩]
  own := []
  headers := [.avx2_consts_h, .avx2_fips202_h, .avx2_fips202x4_h, .avx2_symmetric_h, .avx2_rejsample_h]
  refs := [(.K, n! "qdata")]
  statics := [(n! "idx", true)]
  sys := []

/-- avx2/cbd.c: external definitions at lines 126, 137. -/
def avx2_cbd_c : Source where
  defs := [
    ⟨.K, n! "poly_cbd_eta1", .fn .void [(.ptr t_poly), (.cptr .m256i)]⟩,
    ⟨.K, n! "poly_cbd_eta2", .fn .void [(.ptr t_poly), (.cptr .m256i)]⟩]
  own := []
  headers := [.avx2_poly_h, .avx2_cbd_h]
  refs := []
  sys := []

/-- avx2/verify.c: external definitions at lines 17, 55. -/
def avx2_verify_c (a : Abi) : Source where
  defs := [
    ⟨.K, n! "verify", .fn .int [(.cptr .uchar), (.cptr .uchar), (size a)]⟩,
    ⟨.K, n! "cmov", .fn .void [(.ptr .uchar), (.cptr .uchar), (size a), .uchar]⟩]
  own := []
  headers := [.ref_verify_h]
  refs := []
  sys := []

/-- avx2/fips202.c: external definitions at lines 523, 538, 550, 566, 580, 598, 610, 625, 637, 653, 667, 685, 700, 723, 745, 765. The text is ref/fips202.c through a symbolic link; its headers are those of avx2/. -/
def avx2_fips202_c (a : Abi) : Source where
  defs := [
    ⟨.F, n! "shake128_init", .fn .void [(.ptr t_keccak_state)]⟩,
    ⟨.F, n! "shake128_absorb", .fn .void [(.ptr t_keccak_state), (.cptr .uchar), (size a)]⟩,
    ⟨.F, n! "shake128_finalize", .fn .void [(.ptr t_keccak_state)]⟩,
    ⟨.F, n! "shake128_squeeze", .fn .void [(.ptr .uchar), (size a), (.ptr t_keccak_state)]⟩,
    ⟨.F, n! "shake128_absorb_once", .fn .void [(.ptr t_keccak_state), (.cptr .uchar), (size a)]⟩,
    ⟨.F, n! "shake128_squeezeblocks", .fn .void [(.ptr .uchar), (size a), (.ptr t_keccak_state)]⟩,
    ⟨.F, n! "shake256_init", .fn .void [(.ptr t_keccak_state)]⟩,
    ⟨.F, n! "shake256_absorb", .fn .void [(.ptr t_keccak_state), (.cptr .uchar), (size a)]⟩,
    ⟨.F, n! "shake256_finalize", .fn .void [(.ptr t_keccak_state)]⟩,
    ⟨.F, n! "shake256_squeeze", .fn .void [(.ptr .uchar), (size a), (.ptr t_keccak_state)]⟩,
    ⟨.F, n! "shake256_absorb_once", .fn .void [(.ptr t_keccak_state), (.cptr .uchar), (size a)]⟩,
    ⟨.F, n! "shake256_squeezeblocks", .fn .void [(.ptr .uchar), (size a), (.ptr t_keccak_state)]⟩,
    ⟨.F, n! "shake128", .fn .void [(.ptr .uchar), (size a), (.cptr .uchar), (size a)]⟩,
    ⟨.F, n! "shake256", .fn .void [(.ptr .uchar), (size a), (.cptr .uchar), (size a)]⟩,
    ⟨.F, n! "sha3_256", .fn .void [(.ptr .uchar), (.cptr .uchar), (size a)]⟩,
    ⟨.F, n! "sha3_512", .fn .void [(.ptr .uchar), (.cptr .uchar), (size a)]⟩]
  own := []
  headers := [.avx2_fips202_h]
  refs := []
  statics := [(n! "KeccakF_RoundConstants", true)]
  sys := []

/-- avx2/fips202x4.c: external definitions at lines 90, 100, 110, 120, 130, 166. -/
def avx2_fips202x4_c (a : Abi) : Source where
  defs := [
    ⟨.X, n! "shake128x4_absorb_once", .fn .void [(.ptr t_keccakx4_state), (.cptr .uchar), (.cptr .uchar), (.cptr .uchar), (.cptr .uchar), (size a)]⟩,
    ⟨.X, n! "shake128x4_squeezeblocks", .fn .void [(.ptr .uchar), (.ptr .uchar), (.ptr .uchar), (.ptr .uchar), (size a), (.ptr t_keccakx4_state)]⟩,
    ⟨.X, n! "shake256x4_absorb_once", .fn .void [(.ptr t_keccakx4_state), (.cptr .uchar), (.cptr .uchar), (.cptr .uchar), (.cptr .uchar), (size a)]⟩,
    ⟨.X, n! "shake256x4_squeezeblocks", .fn .void [(.ptr .uchar), (.ptr .uchar), (.ptr .uchar), (.ptr .uchar), (size a), (.ptr t_keccakx4_state)]⟩,
    ⟨.X, n! "shake128x4", .fn .void [(.ptr .uchar), (.ptr .uchar), (.ptr .uchar), (.ptr .uchar), (size a), (.cptr .uchar), (.cptr .uchar), (.cptr .uchar), (.cptr .uchar), (size a)]⟩,
    ⟨.X, n! "shake256x4", .fn .void [(.ptr .uchar), (.ptr .uchar), (.ptr .uchar), (.ptr .uchar), (size a), (.cptr .uchar), (.cptr .uchar), (.cptr .uchar), (.cptr .uchar), (size a)]⟩]
  own := [⟨.X, n! "KeccakP1600times4_PermuteAll_24rounds", .fn .void [(.ptr .m256i)]⟩]
  headers := [.avx2_fips202_h, .avx2_fips202x4_h]
  refs := [(.X, n! "KeccakP1600times4_PermuteAll_24rounds")]
  sys := []

/-- avx2/symmetric-shake.c: external definitions at lines 18, 43, 64. The text is ref/symmetric-shake.c through a symbolic link; its headers are those of avx2/. -/
def avx2_symmetric_shake_c (a : Abi) : Source where
  defs := [
    ⟨.K, n! "kyber_shake128_absorb", .fn .void [(.ptr t_keccak_state), (.cptr .uchar), .uchar, .uchar]⟩,
    ⟨.K, n! "kyber_shake256_prf", .fn .void [(.ptr .uchar), (size a), (.cptr .uchar), .uchar]⟩,
    ⟨.K, n! "kyber_shake256_rkprf", .fn .void [(.ptr .uchar), (.cptr .uchar), (.cptr .uchar)]⟩]
  own := []
  headers := [.avx2_fips202_h, .avx2_fips202x4_h, .avx2_symmetric_h]
  refs := [(.F, n! "shake128_absorb_once"), (.F, n! "shake256"), (.F, n! "shake256_init"), (.F, n! "shake256_absorb"), (.F, n! "shake256_finalize"),
      (.F, n! "shake256_squeeze")]
  sys := [n! "memcpy"]

/-- avx2/keccak4x/KeccakP-1600-times4-SIMD256.c: external definitions at lines 83, 88, 123, 168, 199, 244, 261, 291, 341, 380, 802, 815, 828, 930. -/
def avx2_SIMD256_c (a : Abi) : Source where
  defs := [
    ⟨.X, n! "KeccakP1600times4_InitializeAll", .fn .void [(.ptr .void)]⟩,
    ⟨.X, n! "KeccakP1600times4_AddBytes", .fn .void [(.ptr .void), .uint, (.cptr .uchar), .uint, .uint]⟩,
    ⟨.X, n! "KeccakP1600times4_AddLanesAll", .fn .void [(.ptr .void), (.cptr .uchar), .uint, .uint]⟩,
    ⟨.X, n! "KeccakP1600times4_OverwriteBytes", .fn .void [(.ptr .void), .uint, (.cptr .uchar), .uint, .uint]⟩,
    ⟨.X, n! "KeccakP1600times4_OverwriteLanesAll", .fn .void [(.ptr .void), (.cptr .uchar), .uint, .uint]⟩,
    ⟨.X, n! "KeccakP1600times4_OverwriteWithZeroes", .fn .void [(.ptr .void), .uint, .uint]⟩,
    ⟨.X, n! "KeccakP1600times4_ExtractBytes", .fn .void [(.cptr .void), .uint, (.ptr .uchar), .uint, .uint]⟩,
    ⟨.X, n! "KeccakP1600times4_ExtractLanesAll", .fn .void [(.cptr .void), (.ptr .uchar), .uint, .uint]⟩,
    ⟨.X, n! "KeccakP1600times4_ExtractAndAddBytes", .fn .void [(.cptr .void), .uint, (.cptr .uchar), (.ptr .uchar), .uint, .uint]⟩,
    ⟨.X, n! "KeccakP1600times4_ExtractAndAddLanesAll", .fn .void [(.cptr .void), (.cptr .uchar), (.ptr .uchar), .uint, .uint]⟩,
    ⟨.X, n! "KeccakP1600times4_PermuteAll_24rounds", .fn .void [(.ptr .void)]⟩,
    ⟨.X, n! "KeccakP1600times4_PermuteAll_12rounds", .fn .void [(.ptr .void)]⟩,
    ⟨.X, n! "KeccakF1600times4_FastLoop_Absorb", .fn (size a) [(.ptr .void), .uint, .uint, .uint, (.cptr .uchar), (size a)]⟩,
    ⟨.X, n! "KeccakP1600times4_12rounds_FastLoop_Absorb", .fn (size a) [(.ptr .void), .uint, .uint, .uint, (.cptr .uchar), (size a)]⟩]
  own := []
  headers := [.avx2_fips202x4_h, .avx2_SnP_h]
  refs := []
  statics := [(n! "rho8", true), (n! "rho56", true), (n! "KeccakF1600RoundConstants", true)]
  sys := [n! "memset", n! "memcpy"]

/-- avx2/randombytes.c: external definitions at lines 44. The text is ref/randombytes.c through a symbolic link; its headers are those of avx2/. -/
def avx2_randombytes_c (a : Abi) : Source where
  defs := [
    ⟨.G, n! "randombytes", .fn .void [(.ptr .uchar), (size a)]⟩]
  own := []
  headers := [.ref_randombytes_h]
  refs := []
  sys := [n! "syscall", n! "abort"]

/-- avx2/test/test_kyber.c: external definitions at lines 97. The text is ref/test/test_kyber.c through a symbolic link; its headers are those of avx2/. -/
def avx2_test_kyber_c : Source where
  defs := [
    ⟨.G, n! "main", .fn .int []⟩]
  own := []
  headers := [.ref_kem_h, .ref_randombytes_h]
  refs := [(.K, n! "keypair"), (.K, n! "enc"), (.K, n! "dec"), (.G, n! "randombytes")]
  sys := [n! "memcmp", n! "printf"]

/-- avx2/test/test_vectors.c: external definitions at lines 18, 23. The text is ref/test/test_vectors.c through a symbolic link; its headers are those of avx2/. -/
def avx2_test_vectors_c (a : Abi) : Source where
  defs := [
    ⟨.G, n! "randombytes", .fn .void [(.ptr .uchar), (size a)]⟩,
    ⟨.G, n! "main", .fn .int []⟩]
  own := []
  headers := [.ref_kem_h, .ref_randombytes_h, .avx2_fips202_h]
  refs := [(.F, n! "shake128_squeeze"), (.K, n! "keypair"), (.K, n! "enc"), (.K, n! "dec")]
  statics := [(n! "rngstate", false)]
  sys := [n! "printf", n! "fprintf"]

/-- avx2/test/cpucycles.c: external definitions at lines 4. The text is ref/test/cpucycles.c through a symbolic link; its headers are those of avx2/. -/
def avx2_cpucycles_c (a : Abi) : Source where
  defs := [
    ⟨.G, n! "cpucycles_overhead", .fn (u64 a) []⟩]
  own := []
  headers := [.ref_cpucycles_h]
  refs := []
  sys := []

/-- avx2/test/speed_print.c: external definitions at lines 31. The text is ref/test/speed_print.c through a symbolic link; its headers are those of avx2/. -/
def avx2_speed_print_c (a : Abi) : Source where
  defs := [
    ⟨.G, n! "print_results", .fn .void [(.cptr .char), (.ptr (u64 a)), (size a)]⟩]
  own := []
  headers := [.ref_cpucycles_h, .ref_speed_print_h]
  refs := [(.G, n! "cpucycles_overhead")]
  statics := [(n! "overhead", false)]
  sys := [n! "qsort", n! "fprintf", n! "printf"]

/-- avx2/test/test_speed.c: external definitions at lines 16, 17, 19. The text is ref/test/test_speed.c through a symbolic link; its headers are those of avx2/. -/
def avx2_test_speed_c (a : Abi) : Source where
  defs := [
    ⟨.G, n! "t", .obj false (.arr 1000 (u64 a))⟩,
    ⟨.G, n! "seed", .obj false (.arr 32 .uchar)⟩,
    ⟨.G, n! "main", .fn .int []⟩]
  own := []
  headers := [.ref_kem_h, .avx2_poly_h, .avx2_polyvec_h, .ref_indcpa_h, .ref_randombytes_h, .ref_cpucycles_h, .ref_speed_print_h]
  refs := [(.G, n! "randombytes"), (.K, n! "gen_matrix"), (.G, n! "print_results"), (.K, n! "poly_getnoise_eta1"), (.K, n! "poly_getnoise_eta2"),
      (.K, n! "poly_ntt"), (.K, n! "poly_invntt_tomont"), (.K, n! "polyvec_basemul_acc_montgomery"), (.K, n! "poly_tomsg"), (.K, n! "poly_frommsg"),
      (.K, n! "poly_compress"), (.K, n! "poly_decompress"), (.K, n! "polyvec_compress"), (.K, n! "polyvec_decompress"), (.K, n! "indcpa_keypair_derand"),
      (.K, n! "indcpa_enc"), (.K, n! "indcpa_dec"), (.K, n! "keypair_derand"), (.K, n! "keypair"), (.K, n! "enc_derand"), (.K, n! "enc"), (.K, n! "dec")]
  sys := []

/-- avx2/fq.S: `.global` at lines 37, 79. -/
def avx2_fq_S : Source where
  defs := [⟨.K, n! "reduce_avx", .asm⟩, ⟨.K, n! "tomont_avx", .asm⟩]
  own := []
  headers := []
  refs := []
  sys := []

/-- avx2/shuffle.S: `.global` at lines 94, 171, 247. -/
def avx2_shuffle_S : Source where
  defs := [⟨.K, n! "nttunpack_avx", .asm⟩, ⟨.K, n! "ntttobytes_avx", .asm⟩, ⟨.K, n! "nttfrombytes_avx", .asm⟩]
  own := []
  headers := []
  refs := []
  sys := []

/-- avx2/ntt.S: `.global` at lines 179. -/
def avx2_ntt_S : Source where
  defs := [⟨.K, n! "ntt_avx", .asm⟩]
  own := []
  headers := []
  refs := []
  sys := []

/-- avx2/invntt.S: `.global` at lines 184. -/
def avx2_invntt_S : Source where
  defs := [⟨.K, n! "invntt_avx", .asm⟩]
  own := []
  headers := []
  refs := []
  sys := []

/-- avx2/basemul.S: `.global` at lines 86. -/
def avx2_basemul_S : Source where
  defs := [⟨.K, n! "basemul_avx", .asm⟩]
  own := []
  headers := []
  refs := []
  sys := []

/-- The two builds. -/
inductive Build | ref | avx2
  deriving DecidableEq, Repr

/-- A namespace after expansion. -/
inductive Ns
  | kem (b : Build) (p : ParamSet)
  | fips (b : Build)
  | fips4
  | plain
  deriving DecidableEq, Repr

/-- The text a namespace macro puts before a name. -/
def Ns.pre : Ns → Nat
  | .kem .ref .k2 => n! "pqcrystals_kyber512_ref_"
  | .kem .ref .k3 => n! "pqcrystals_kyber768_ref_"
  | .kem .ref .k4 => n! "pqcrystals_kyber1024_ref_"
  | .kem .avx2 .k2 => n! "pqcrystals_kyber512_avx2_"
  | .kem .avx2 .k3 => n! "pqcrystals_kyber768_avx2_"
  | .kem .avx2 .k4 => n! "pqcrystals_kyber1024_avx2_"
  | .fips .ref => n! "pqcrystals_kyber_fips202_ref_"
  | .fips .avx2 => n! "pqcrystals_kyber_fips202_avx2_"
  | .fips4 => n! "pqcrystals_kyber_fips202x4_avx2_"
  | .plain => 0

/-- The macro of a file of build `b` compiled with the `KYBER_K` of `p`. `FIPS202X4_NAMESPACE` exists in avx2/ only. -/
def Tag.ns (b : Build) (p : ParamSet) : Tag → Ns
  | .K => .kem b p
  | .F => .fips b
  | .X => .fips4
  | .G => .plain

/-- A name as the linker sees it. -/
abbrev Sym := Ns × Nat

/-- Its spelling. -/
def spell (s : Sym) : List Nat := chars s.1.pre ++ chars s.2

/-- A linked file: an executable or a shared library. -/
structure Image where
  build : Build
  p : ParamSet
  files : List Source

def Image.sym (i : Image) (t : Tag) (n : Nat) : Sym := (t.ns i.build i.p, n)

/-- Definitions of an image. -/
def Image.defs (i : Image) : List (Sym × Sig) := i.files.flatMap fun f => f.defs.map fun d => (i.sym d.tag d.base, d.sig)

/-- Declarations in the files of an image. -/
def Image.decls (a : Abi) (i : Image) : List (Sym × Sig) :=
  i.files.flatMap fun f => (f.own ++ f.headers.flatMap (Header.decls a i.p)).map fun d => (i.sym d.tag d.base, d.sig)

/-- Names used in a file of an image and not defined in that file. -/
def Image.refs (i : Image) : List Sym := i.files.flatMap fun f => f.refs.map fun r => i.sym r.1 r.2

/-- Library functions an image calls. -/
def Image.sys (i : Image) : List Nat := i.files.flatMap (·.sys)

/-- The objects of static storage duration in an image that can be written. -/
def Image.writable (i : Image) : List Nat :=
  i.files.flatMap fun f => (f.statics.filter fun s => !s.2).map (·.1) ++ f.defs.filterMap fun d => match d.sig with
    | .obj false _ => some d.base
    | _ => none

/-- `SOURCES` of ref/Makefile:7 and avx2/Makefile:9-10. -/
def sources (a : Abi) (p : ParamSet) : Build → List Source
  | .ref => [ref_kem_c, ref_indcpa_c, ref_polyvec_c, ref_poly_c, ref_ntt_c, ref_cbd_c, ref_reduce_c, ref_verify_c a]
  | .avx2 => [avx2_kem_c, avx2_indcpa_c p, avx2_polyvec_c p, avx2_poly_c p, avx2_fq_S, avx2_shuffle_S, avx2_ntt_S, avx2_invntt_S, avx2_basemul_S, avx2_consts_c,
      avx2_rejsample_c, avx2_cbd_c, avx2_verify_c a]

/-- `SOURCESKECCAK` of ref/Makefile:8 and avx2/Makefile:11-12. -/
def sourcesKeccak (a : Abi) (p : ParamSet) : Build → List Source
  | .ref => sources a p .ref ++ [ref_fips202_c a, ref_symmetric_shake_c a]
  | .avx2 => sources a p .avx2 ++ [avx2_fips202_c a, avx2_fips202x4_c a, avx2_symmetric_shake_c a, avx2_SIMD256_c a]

/-- The executables of the Makefiles. -/
inductive Exe | test_kyber | test_vectors | test_speed | nistkat
  deriving DecidableEq, Repr

/-- ref/Makefile:57-98, avx2/Makefile:72-97: the files behind each executable. avx2/Makefile has no nistkat target. -/
def exe (a : Abi) (p : ParamSet) : Build → Exe → Option Image
  | .ref, .test_kyber => some ⟨.ref, p, sourcesKeccak a p .ref ++ [ref_randombytes_c a, ref_test_kyber_c]⟩
  | .ref, .test_vectors => some ⟨.ref, p, sourcesKeccak a p .ref ++ [ref_test_vectors_c a]⟩
  | .ref, .test_speed => some ⟨.ref, p, sourcesKeccak a p .ref ++ [ref_randombytes_c a, ref_cpucycles_c a, ref_speed_print_c a, ref_test_speed_c a]⟩
  | .ref, .nistkat => some ⟨.ref, p, sourcesKeccak a p .ref ++ [ref_rng_c, ref_PQCgenKAT_kem_c]⟩
  | .avx2, .test_kyber => some ⟨.avx2, p, sourcesKeccak a p .avx2 ++ [avx2_randombytes_c a, avx2_test_kyber_c]⟩
  | .avx2, .test_vectors => some ⟨.avx2, p, sourcesKeccak a p .avx2 ++ [avx2_test_vectors_c a]⟩
  | .avx2, .test_speed => some ⟨.avx2, p, sourcesKeccak a p .avx2 ++ [avx2_randombytes_c a, avx2_cpucycles_c a, avx2_speed_print_c a, avx2_test_speed_c a]⟩
  | .avx2, .nistkat => none

/-- The shared libraries of the Makefiles. -/
inductive Lib
  | kem (b : Build) (p : ParamSet)
  | fips (b : Build)
  | fips4
  deriving DecidableEq, Repr

/-- The files behind each library: ref/Makefile:40-54, avx2/Makefile:47-70. The libraries of the hash functions are compiled without `KYBER_K`, which params.h then takes as 3. -/
def lib (a : Abi) : Lib → Image
  | .kem .ref p => ⟨.ref, p, sources a p .ref ++ [ref_symmetric_shake_c a]⟩
  | .kem .avx2 p => ⟨.avx2, p, sources a p .avx2 ++ [avx2_symmetric_shake_c a]⟩
  | .fips .ref => ⟨.ref, .k3, [ref_fips202_c a]⟩
  | .fips .avx2 => ⟨.avx2, .k3, [avx2_fips202_c a]⟩
  | .fips4 => ⟨.avx2, .k3, [avx2_fips202x4_c a, avx2_SIMD256_c a]⟩

/-- The name of the file a library is written to, without the directory: ref/Makefile:28-31, avx2/Makefile:32-36. -/
def Lib.file : Lib → Nat
  | .kem .ref .k2 => n! "libpqcrystals_kyber512_ref.so"
  | .kem .ref .k3 => n! "libpqcrystals_kyber768_ref.so"
  | .kem .ref .k4 => n! "libpqcrystals_kyber1024_ref.so"
  | .kem .avx2 .k2 => n! "libpqcrystals_kyber512_avx2.so"
  | .kem .avx2 .k3 => n! "libpqcrystals_kyber768_avx2.so"
  | .kem .avx2 .k4 => n! "libpqcrystals_kyber1024_avx2.so"
  | .fips .ref => n! "libpqcrystals_fips202_ref.so"
  | .fips .avx2 => n! "libpqcrystals_fips202_ref.so"
  | .fips4 => n! "libpqcrystals_fips202x4_avx2.so"

/-- The declarations of ref/api.h:20-24, 40-44, 60-64 and avx2/api.h, same lines, where the names are written in full: name and type. -/
def api : Build → ParamSet → List (Nat × Sig)
  | .ref, .k2 => [
    (n! "pqcrystals_kyber512_ref_keypair_derand", .fn .int [.ptr .uchar, .ptr .uchar, .cptr .uchar]),
    (n! "pqcrystals_kyber512_ref_keypair", .fn .int [.ptr .uchar, .ptr .uchar]),
    (n! "pqcrystals_kyber512_ref_enc_derand", .fn .int [.ptr .uchar, .ptr .uchar, .cptr .uchar, .cptr .uchar]),
    (n! "pqcrystals_kyber512_ref_enc", .fn .int [.ptr .uchar, .ptr .uchar, .cptr .uchar]),
    (n! "pqcrystals_kyber512_ref_dec", .fn .int [.ptr .uchar, .cptr .uchar, .cptr .uchar])]
  | .ref, .k3 => [
    (n! "pqcrystals_kyber768_ref_keypair_derand", .fn .int [.ptr .uchar, .ptr .uchar, .cptr .uchar]),
    (n! "pqcrystals_kyber768_ref_keypair", .fn .int [.ptr .uchar, .ptr .uchar]),
    (n! "pqcrystals_kyber768_ref_enc_derand", .fn .int [.ptr .uchar, .ptr .uchar, .cptr .uchar, .cptr .uchar]),
    (n! "pqcrystals_kyber768_ref_enc", .fn .int [.ptr .uchar, .ptr .uchar, .cptr .uchar]),
    (n! "pqcrystals_kyber768_ref_dec", .fn .int [.ptr .uchar, .cptr .uchar, .cptr .uchar])]
  | .ref, .k4 => [
    (n! "pqcrystals_kyber1024_ref_keypair_derand", .fn .int [.ptr .uchar, .ptr .uchar, .cptr .uchar]),
    (n! "pqcrystals_kyber1024_ref_keypair", .fn .int [.ptr .uchar, .ptr .uchar]),
    (n! "pqcrystals_kyber1024_ref_enc_derand", .fn .int [.ptr .uchar, .ptr .uchar, .cptr .uchar, .cptr .uchar]),
    (n! "pqcrystals_kyber1024_ref_enc", .fn .int [.ptr .uchar, .ptr .uchar, .cptr .uchar]),
    (n! "pqcrystals_kyber1024_ref_dec", .fn .int [.ptr .uchar, .cptr .uchar, .cptr .uchar])]
  | .avx2, .k2 => [
    (n! "pqcrystals_kyber512_avx2_keypair_derand", .fn .int [.ptr .uchar, .ptr .uchar, .cptr .uchar]),
    (n! "pqcrystals_kyber512_avx2_keypair", .fn .int [.ptr .uchar, .ptr .uchar]),
    (n! "pqcrystals_kyber512_avx2_enc_derand", .fn .int [.ptr .uchar, .ptr .uchar, .cptr .uchar, .cptr .uchar]),
    (n! "pqcrystals_kyber512_avx2_enc", .fn .int [.ptr .uchar, .ptr .uchar, .cptr .uchar]),
    (n! "pqcrystals_kyber512_avx2_dec", .fn .int [.ptr .uchar, .cptr .uchar, .cptr .uchar])]
  | .avx2, .k3 => [
    (n! "pqcrystals_kyber768_avx2_keypair_derand", .fn .int [.ptr .uchar, .ptr .uchar, .cptr .uchar]),
    (n! "pqcrystals_kyber768_avx2_keypair", .fn .int [.ptr .uchar, .ptr .uchar]),
    (n! "pqcrystals_kyber768_avx2_enc_derand", .fn .int [.ptr .uchar, .ptr .uchar, .cptr .uchar, .cptr .uchar]),
    (n! "pqcrystals_kyber768_avx2_enc", .fn .int [.ptr .uchar, .ptr .uchar, .cptr .uchar]),
    (n! "pqcrystals_kyber768_avx2_dec", .fn .int [.ptr .uchar, .cptr .uchar, .cptr .uchar])]
  | .avx2, .k4 => [
    (n! "pqcrystals_kyber1024_avx2_keypair_derand", .fn .int [.ptr .uchar, .ptr .uchar, .cptr .uchar]),
    (n! "pqcrystals_kyber1024_avx2_keypair", .fn .int [.ptr .uchar, .ptr .uchar]),
    (n! "pqcrystals_kyber1024_avx2_enc_derand", .fn .int [.ptr .uchar, .ptr .uchar, .cptr .uchar, .cptr .uchar]),
    (n! "pqcrystals_kyber1024_avx2_enc", .fn .int [.ptr .uchar, .ptr .uchar, .cptr .uchar]),
    (n! "pqcrystals_kyber1024_avx2_dec", .fn .int [.ptr .uchar, .cptr .uchar, .cptr .uchar])]

end Verif.Model.Link
