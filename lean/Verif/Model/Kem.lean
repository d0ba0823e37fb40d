import Verif.Model.Indcpa

/-! # Model of ref/kem.c (derandomised API)

Output buffers are passed in and returned updated, together with the `int` return value. `fuel` bounds the rejection sampling
loops of `gen_matrix`. -/

namespace Verif.Model

/-- ref/kem.c:25-35 `crypto_kem_keypair_derand`. Returns `(pk, sk, return value)`. -/
def crypto_kem_keypair_derand (p : ParamSet) (fuel : Nat) (pk sk : Mem UInt8) (coins : Mem UInt8) :
    C (Mem UInt8 × Mem UInt8 × Int) := do
  let (pk, sk) ← indcpa_keypair_derand p fuel pk sk coins
  let sk ← memcpy sk (KYBER_INDCPA_SECRETKEYBYTES p) pk 0 (KYBER_PUBLICKEYBYTES p)
  let sk ← hash_h sk (KYBER_SECRETKEYBYTES p - 2 * KYBER_SYMBYTES) pk 0 (KYBER_PUBLICKEYBYTES p)
  let sk ← memcpy sk (KYBER_SECRETKEYBYTES p - KYBER_SYMBYTES) coins KYBER_SYMBYTES KYBER_SYMBYTES
  pure (pk, sk, 0)

/-- ref/kem.c:76-96 `crypto_kem_enc_derand`. Returns `(ct, ss, return value)`. -/
def crypto_kem_enc_derand (p : ParamSet) (fuel : Nat) (ct ss : Mem UInt8) (pk coins : Mem UInt8) :
    C (Mem UInt8 × Mem UInt8 × Int) := do
  let buf := Mem.uninit UInt8 (2 * KYBER_SYMBYTES)
  let kr := Mem.uninit UInt8 (2 * KYBER_SYMBYTES)
  let buf ← memcpy buf 0 coins 0 KYBER_SYMBYTES
  let buf ← hash_h buf KYBER_SYMBYTES pk 0 (KYBER_PUBLICKEYBYTES p)
  let kr ← hash_g kr 0 buf 0 (2 * KYBER_SYMBYTES)
  let ct ← indcpa_enc p fuel ct buf 0 pk 0 kr KYBER_SYMBYTES
  let ss ← memcpy ss 0 kr 0 KYBER_SYMBYTES
  pure (ct, ss, 0)

/-- ref/kem.c:140-170 `crypto_kem_dec`. Returns `(ss, return value)`. `!fail` is 1 if `fail` is 0 and 0 otherwise (no branch). -/
def crypto_kem_dec (p : ParamSet) (fuel : Nat) (ss : Mem UInt8) (ct sk : Mem UInt8) :
    C (Mem UInt8 × Int) := do
  let buf := Mem.uninit UInt8 (2 * KYBER_SYMBYTES)
  let kr := Mem.uninit UInt8 (2 * KYBER_SYMBYTES)
  let cmp := Mem.uninit UInt8 (KYBER_CIPHERTEXTBYTES p)
  let pk := KYBER_INDCPA_SECRETKEYBYTES p
  let buf ← indcpa_dec p buf 0 ct sk
  let buf ← memcpy buf KYBER_SYMBYTES sk (KYBER_SECRETKEYBYTES p - 2 * KYBER_SYMBYTES) KYBER_SYMBYTES
  let kr ← hash_g kr 0 buf 0 (2 * KYBER_SYMBYTES)
  let cmp ← indcpa_enc p fuel cmp buf 0 sk pk kr KYBER_SYMBYTES
  let fail ← verify ct 0 cmp 0 (KYBER_CIPHERTEXTBYTES p)
  let ss ← rkprf p ss 0 sk (KYBER_SECRETKEYBYTES p - KYBER_SYMBYTES) ct 0
  let ss ← cmov ss 0 kr 0 KYBER_SYMBYTES (if fail = 0 then 1 else 0)
  pure (ss, 0)

end Verif.Model
