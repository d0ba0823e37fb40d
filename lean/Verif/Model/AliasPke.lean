import Verif.Model.Alias
import Verif.Avx.Alias

/-! # indcpa.c, the hash functions and `cmov` with all arguments in one memory

Verif/Model/Alias.lean has the KEM calls with arguments that share memory. Here are the functions below them that take bytes and give bytes. All arguments are offsets into one memory `X`, and a write through one pointer
is seen by later reads through the others. -/

set_option autoImplicit false

namespace Verif.Model

/-- ref/indcpa.c:205-241, avx2/indcpa.c:424-465 `indcpa_keypair_derand` with `pk`, `sk`, `coins` pointing to offsets of `X`. -/
def indcpa_keypair_in (P : Pke) (X : Mem UInt8) (pk sk coins : Nat) : C (Mem UInt8) := do
  let (skpv, pkpv, buf) ← P.keypair (tail X coins)
  let X ← onTail X sk fun r => P.pack_sk r skpv
  onTail X pk fun r => P.pack_pk r pkpv buf

/-- ref/indcpa.c:260-299, avx2/indcpa.c:483-526 `indcpa_enc` with `c`, `m`, `pk`, `coins` pointing to offsets of `X`. -/
def indcpa_enc_in (P : Pke) (X : Mem UInt8) (c m pk coins : Nat) : C (Mem UInt8) := do
  let (b, v) ← P.enc X m X pk X coins
  onTail X c fun r => P.pack_ciphertext r b v

/-- ref/indcpa.c:314-332 `indcpa_dec` with `m`, `c`, `sk` pointing to offsets of `X`. -/
def indcpa_dec_in (p : ParamSet) (X : Mem UInt8) (m c sk : Nat) : C (Mem UInt8) := do
  let (b, v) ← unpack_ciphertext p (Polyvec.uninit p) Poly.uninit (tail X c)
  let skpv ← unpack_sk p (Polyvec.uninit p) (tail X sk)
  let b ← polyvec_ntt p b
  let mp ← polyvec_basemul_acc_montgomery p Poly.uninit skpv b
  let mp ← poly_invntt_tomont mp
  let mp ← poly_sub mp v mp
  let mp ← poly_reduce mp
  poly_tomsg X m mp

/-- ref/fips202.c:700-711 `shake128` with `out`, `in` pointing to offsets of `X`. -/
def shake128_in (X : Mem UInt8) (out outlen inp inlen : Nat) : C (Mem UInt8) := do
  let st ← shake128_absorb_once KeccakState.uninit X inp inlen
  let nblocks := outlen / SHAKE128_RATE
  let (X, st) ← shake128_squeezeblocks X out nblocks st
  let (X, _) ← shake128_squeeze X (out + nblocks * SHAKE128_RATE) (outlen - nblocks * SHAKE128_RATE) st
  pure X

/-- ref/fips202.c:723-734 `shake256` with `out`, `in` pointing to offsets of `X`. -/
def shake256_in (X : Mem UInt8) (out outlen inp inlen : Nat) : C (Mem UInt8) := do
  let st ← shake256_absorb_once KeccakState.uninit X inp inlen
  let nblocks := outlen / SHAKE256_RATE
  let (X, st) ← shake256_squeezeblocks X out nblocks st
  let (X, _) ← shake256_squeeze X (out + nblocks * SHAKE256_RATE) (outlen - nblocks * SHAKE256_RATE) st
  pure X

/-- ref/fips202.c:745-754 `sha3_256` with `h`, `in` pointing to offsets of `X`. -/
def sha3_256_in (X : Mem UInt8) (h inp inlen : Nat) : C (Mem UInt8) := do
  let s ← keccak_absorb_once (Mem.uninit UInt64 25) SHA3_256_RATE X inp inlen 0x06
  let s ← KeccakF1600_StatePermute s
  cfor 0 4 X fun i X => do
    let x ← rd s i
    store64 X (h + 8 * i) x

/-- ref/fips202.c:765-774 `sha3_512` with `h`, `in` pointing to offsets of `X`. -/
def sha3_512_in (X : Mem UInt8) (h inp inlen : Nat) : C (Mem UInt8) := do
  let s ← keccak_absorb_once (Mem.uninit UInt64 25) SHA3_512_RATE X inp inlen 0x06
  let s ← KeccakF1600_StatePermute s
  cfor 0 8 X fun i X => do
    let x ← rd s i
    store64 X (h + 8 * i) x

/-- ref/symmetric-shake.c:43-51 `kyber_shake256_prf` with `out`, `key` pointing to offsets of `X`. -/
def prf_in (X : Mem UInt8) (out outlen key : Nat) (nonce : UInt8) : C (Mem UInt8) := do
  let extkey ← memcpy (Mem.uninit UInt8 (KYBER_SYMBYTES + 1)) 0 X key KYBER_SYMBYTES
  let extkey ← wr extkey KYBER_SYMBYTES nonce
  shake256 X out outlen extkey 0 (KYBER_SYMBYTES + 1)

/-- ref/symmetric-shake.c:64-73 `kyber_shake256_rkprf` with `out`, `key`, `input` pointing to offsets of `X`. -/
def rkprf_in (p : ParamSet) (X : Mem UInt8) (out key input : Nat) : C (Mem UInt8) := do
  let s ← shake256_init KeccakState.uninit
  let s ← shake256_absorb s X key KYBER_SYMBYTES
  let s ← shake256_absorb s X input (KYBER_CIPHERTEXTBYTES p)
  let s ← shake256_finalize s
  let (X, _) ← shake256_squeeze X out KYBER_SSBYTES s
  pure X

/-- ref/verify.c:40-57 `cmov` with `r`, `x` pointing to offsets of `X`. -/
def cmov_in (X : Mem UInt8) (r x len : Nat) (b : UInt8) : C (Mem UInt8) := do
  let b := -b
  cfor 0 len X fun i X => do
    let ri ← rd X (r + i)
    let xi ← rd X (x + i)
    wr X (r + i) (ri ^^^ (b &&& (ri ^^^ xi)))

end Verif.Model

namespace Verif.Avx
open Verif.Model

/-- avx2/indcpa.c:541-559 `indcpa_dec` with `m`, `c`, `sk` pointing to offsets of `X`. -/
def indcpa_dec_in (p : ParamSet) (X : Mem UInt8) (m c sk : Nat) : C (Mem UInt8) := do
  let (b, v) ← unpack_ciphertext p (Polyvec.uninit p) Poly.uninit (tail X c)
  let skpv ← polyvec_frombytes p (Polyvec.uninit p) (tail X sk) 0
  let b ← polyvec_ntt p b
  let mp ← polyvec_basemul_acc_montgomery p Poly.uninit skpv b
  let mp ← poly_invntt_tomont mp
  let mp ← poly_sub mp v
  let mp ← poly_reduce mp
  poly_tomsg X m mp

/-- avx2/verify.c:55-83 `cmov` with `r`, `x` pointing to offsets of `X`. Here `r` is declared `restrict`, and all bytes of `r` are written and all bytes of `x` are read, so a byte in common is undefined behaviour
(C11 6.7.3.1). -/
def cmov_in (X : Mem UInt8) (r x len : Nat) (b : UInt8) : C (Mem UInt8) :=
  if r < x + len ∧ x < r + len then .ub .alias else cmov X r X x len b

end Verif.Avx
