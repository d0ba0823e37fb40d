import Verif.Avx.GenW
import Verif.Avx.RejBmi
import Verif.Avx.Kem

/-! # The AVX2 calls with any vectorised rejection sampling

The definitions of Verif/Avx/Indcpa.lean and Verif/Avx/Kem.lean that reach `rej_uniform_avx`, with this function as a parameter. With `rej_uniform_avx_bmi` they are the calls of a
build with `BMI` defined (avx2/rejsample.c:274-398). -/

namespace Verif.Avx
open Verif.Model (ParamSet KYBER_K KYBER_SYMBYTES KYBER_INDCPA_SECRETKEYBYTES KYBER_PUBLICKEYBYTES KYBER_SECRETKEYBYTES KYBER_CIPHERTEXTBYTES hash_h hash_g rkprf Poly Polyvec
  Poly.uninit Polyvec.uninit Matrix.uninit)

/-- avx2/indcpa.c:424-465 `indcpa_keypair_derand`. -/
def indcpa_keypair_derandW (rej : Rej) (p : ParamSet) (junk : Nat → Fin 4 → Nat → UInt8) (fuel : Nat) (pk sk : Mem UInt8) (coins : Mem UInt8) :
    C (Mem UInt8 × Mem UInt8) := do
  let buf := Mem.uninit UInt8 (2 * KYBER_SYMBYTES)
  let publicseed := 0
  let noiseseed := KYBER_SYMBYTES
  let buf ← memcpy buf 0 coins 0 KYBER_SYMBYTES
  let buf ← wr buf KYBER_SYMBYTES (UInt8.ofNat (KYBER_K p))
  let buf ← hash_g buf 0 buf 0 (KYBER_SYMBYTES + 1)
  let a ← gen_matrixW rej p (junk 0) fuel (Matrix.uninit p) buf publicseed false
  let (skpv, e, pkpv) ← keypair_noise p junk buf noiseseed (Polyvec.uninit p) (Polyvec.uninit p) (Polyvec.uninit p)
  let skpv ← polyvec_ntt p skpv
  let skpv ← polyvec_reduce p skpv
  let e ← polyvec_ntt p e
  let pkpv ← cfor 0 (KYBER_K p) pkpv fun i pkpv => do
    let pkpv ← put' pkpv i (← polyvec_basemul_acc_montgomery p (← at' pkpv i) (← at' a i) skpv)
    put' pkpv i (← poly_tomont (← at' pkpv i))
  let pkpv ← polyvec_add p pkpv e
  let pkpv ← polyvec_reduce p pkpv
  let sk ← polyvec_tobytes p sk 0 skpv
  let pk ← pack_pk p pk pkpv buf publicseed
  pure (pk, sk)

/-- avx2/indcpa.c:483-526 `indcpa_enc`. `m`, `pk`, `coins` point to the given offsets. -/
def indcpa_encW (rej : Rej) (p : ParamSet) (junk : Nat → Fin 4 → Nat → UInt8) (fuel : Nat) (c : Mem UInt8) (m : Mem UInt8) (mo : Nat) (pk : Mem UInt8) (po : Nat)
    (coins : Mem UInt8) (co : Nat) : C (Mem UInt8) := do
  let seed := Mem.uninit UInt8 KYBER_SYMBYTES
  let (pkpv, seed) ← unpack_pk p (Polyvec.uninit p) seed pk po
  let k ← poly_frommsg Poly.uninit m mo
  let at_ ← gen_matrixW rej p (junk 0) fuel (Matrix.uninit p) seed 0 true
  let (sp, ep, b, epp) ← enc_noise p junk coins co (Polyvec.uninit p) (Polyvec.uninit p) (Polyvec.uninit p) Poly.uninit
  let sp ← polyvec_ntt p sp
  let b ← cfor 0 (KYBER_K p) b fun i b => do
    put' b i (← polyvec_basemul_acc_montgomery p (← at' b i) (← at' at_ i) sp)
  let v ← polyvec_basemul_acc_montgomery p Poly.uninit pkpv sp
  let b ← polyvec_invntt_tomont p b
  let v ← poly_invntt_tomont v
  let b ← polyvec_add p b ep
  let v ← poly_add v epp
  let v ← poly_add v k
  let b ← polyvec_reduce p b
  let v ← poly_reduce v
  pack_ciphertext p c b v

/-- avx2/kem.c:25-35 `crypto_kem_keypair_derand`. Returns `(pk, sk, return value)`. -/
def crypto_kem_keypair_derandW (rej : Rej) (p : ParamSet) (junk : Nat → Fin 4 → Nat → UInt8) (fuel : Nat) (pk sk : Mem UInt8) (coins : Mem UInt8) :
    C (Mem UInt8 × Mem UInt8 × Int) := do
  let (pk, sk) ← indcpa_keypair_derandW rej p junk fuel pk sk coins
  let sk ← memcpy sk (KYBER_INDCPA_SECRETKEYBYTES p) pk 0 (KYBER_PUBLICKEYBYTES p)
  let sk ← hash_h sk (KYBER_SECRETKEYBYTES p - 2 * KYBER_SYMBYTES) pk 0 (KYBER_PUBLICKEYBYTES p)
  let sk ← memcpy sk (KYBER_SECRETKEYBYTES p - KYBER_SYMBYTES) coins KYBER_SYMBYTES KYBER_SYMBYTES
  pure (pk, sk, 0)

/-- avx2/kem.c:76-96 `crypto_kem_enc_derand`. Returns `(ct, ss, return value)`. -/
def crypto_kem_enc_derandW (rej : Rej) (p : ParamSet) (junk : Nat → Fin 4 → Nat → UInt8) (fuel : Nat) (ct ss : Mem UInt8) (pk coins : Mem UInt8) :
    C (Mem UInt8 × Mem UInt8 × Int) := do
  let buf := Mem.uninit UInt8 (2 * KYBER_SYMBYTES)
  let kr := Mem.uninit UInt8 (2 * KYBER_SYMBYTES)
  let buf ← memcpy buf 0 coins 0 KYBER_SYMBYTES
  let buf ← hash_h buf KYBER_SYMBYTES pk 0 (KYBER_PUBLICKEYBYTES p)
  let kr ← hash_g kr 0 buf 0 (2 * KYBER_SYMBYTES)
  let ct ← indcpa_encW rej p junk fuel ct buf 0 pk 0 kr KYBER_SYMBYTES
  let ss ← memcpy ss 0 kr 0 KYBER_SYMBYTES
  pure (ct, ss, 0)

/-- avx2/kem.c:140-170 `crypto_kem_dec`. Returns `(ss, return value)`. `!fail` is 1 if `fail` is 0 and 0 otherwise (no branch). -/
def crypto_kem_decW (rej : Rej) (p : ParamSet) (junk : Nat → Fin 4 → Nat → UInt8) (fuel : Nat) (ss : Mem UInt8) (ct sk : Mem UInt8) :
    C (Mem UInt8 × Int) := do
  let buf := Mem.uninit UInt8 (2 * KYBER_SYMBYTES)
  let kr := Mem.uninit UInt8 (2 * KYBER_SYMBYTES)
  let cmp := Mem.uninit UInt8 (KYBER_CIPHERTEXTBYTES p)
  let pk := KYBER_INDCPA_SECRETKEYBYTES p
  let buf ← indcpa_dec p buf 0 ct sk
  let buf ← memcpy buf KYBER_SYMBYTES sk (KYBER_SECRETKEYBYTES p - 2 * KYBER_SYMBYTES) KYBER_SYMBYTES
  let kr ← hash_g kr 0 buf 0 (2 * KYBER_SYMBYTES)
  let cmp ← indcpa_encW rej p junk fuel cmp buf 0 sk pk kr KYBER_SYMBYTES
  let fail ← verify ct 0 cmp 0 (KYBER_CIPHERTEXTBYTES p)
  let ss ← rkprf p ss 0 sk (KYBER_SECRETKEYBYTES p - KYBER_SYMBYTES) ct 0
  let ss ← cmov ss 0 kr 0 KYBER_SYMBYTES (if fail = 0 then 1 else 0)
  pure (ss, 0)

theorem indcpa_keypair_derandW_avx : indcpa_keypair_derandW rej_uniform_avx = indcpa_keypair_derand := rfl
theorem indcpa_encW_avx : indcpa_encW rej_uniform_avx = indcpa_enc := rfl
theorem crypto_kem_keypair_derandW_avx : crypto_kem_keypair_derandW rej_uniform_avx = crypto_kem_keypair_derand := rfl
theorem crypto_kem_enc_derandW_avx : crypto_kem_enc_derandW rej_uniform_avx = crypto_kem_enc_derand := rfl
theorem crypto_kem_decW_avx : crypto_kem_decW rej_uniform_avx = crypto_kem_dec := rfl

end Verif.Avx
