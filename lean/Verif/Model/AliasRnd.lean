import Verif.Model.Alias
import Verif.Model.Randombytes

/-! # The randomised calls of ref/kem.c with all arguments in one memory

As in Verif/Model/Alias.lean the arguments are offsets into one memory `X`. The coins are a local array of the randomised call and so an object of their own: a `memcpy` out of
them never overlaps its destination, and no write to an argument changes them. kem.c is shared by the two builds. -/

set_option autoImplicit false

namespace Verif.Model

/-- ref/kem.c:25-35 `crypto_kem_keypair_derand` with `pk`, `sk` pointing to offsets of `X` and `coins` to the start of another object. -/
def kem_keypair_from (P : Pke) (p : ParamSet) (X : Mem UInt8) (pk sk : Nat) (coins : Mem UInt8) : C (Mem UInt8 × Int) := do
  let (skpv, pkpv, buf) ← P.keypair coins
  let X ← onTail X sk fun r => P.pack_sk r skpv
  let X ← onTail X pk fun r => P.pack_pk r pkpv buf
  let X ← memcpyIn X (sk + KYBER_INDCPA_SECRETKEYBYTES p) pk (KYBER_PUBLICKEYBYTES p)
  let X ← hash_h X (sk + (KYBER_SECRETKEYBYTES p - 2 * KYBER_SYMBYTES)) X pk (KYBER_PUBLICKEYBYTES p)
  let X ← memcpy X (sk + (KYBER_SECRETKEYBYTES p - KYBER_SYMBYTES)) coins KYBER_SYMBYTES KYBER_SYMBYTES
  pure (X, 0)

/-- ref/kem.c:76-96 `crypto_kem_enc_derand` with `ct`, `ss`, `pk` pointing to offsets of `X` and `coins` to the start of another object. -/
def kem_enc_from (P : Pke) (p : ParamSet) (X : Mem UInt8) (ct ss pk : Nat) (coins : Mem UInt8) : C (Mem UInt8 × Int) := do
  let buf := Mem.uninit UInt8 (2 * KYBER_SYMBYTES)
  let kr := Mem.uninit UInt8 (2 * KYBER_SYMBYTES)
  let buf ← memcpy buf 0 coins 0 KYBER_SYMBYTES
  let buf ← hash_h buf KYBER_SYMBYTES X pk (KYBER_PUBLICKEYBYTES p)
  let kr ← hash_g kr 0 buf 0 (2 * KYBER_SYMBYTES)
  let (b, v) ← P.enc buf 0 X pk kr KYBER_SYMBYTES
  let X ← onTail X ct fun r => P.pack_ciphertext r b v
  let X ← memcpy X ss kr 0 KYBER_SYMBYTES
  pure (X, 0)

/-- ref/kem.c:50-57 `crypto_kem_keypair` with `pk`, `sk` pointing to offsets of `X`; `none` if `randombytes` aborts. -/
def crypto_kem_keypair_in (P : Pke) (p : ParamSet) (os : OS) (X : Mem UInt8) (pk sk : Nat) : C (Option (Mem UInt8 × Int × OS)) := do
  let coins := Mem.uninit UInt8 (2 * KYBER_SYMBYTES)
  let r ← randombytes os coins 0 (2 * KYBER_SYMBYTES)
  match r with
  | none => pure none
  | some (coins, os) => do
    let (X, _) ← kem_keypair_from P p X pk sk coins
    pure (some (X, 0, os))

/-- ref/kem.c:113-121 `crypto_kem_enc` with `ct`, `ss`, `pk` pointing to offsets of `X`; `none` if `randombytes` aborts. -/
def crypto_kem_enc_in (P : Pke) (p : ParamSet) (os : OS) (X : Mem UInt8) (ct ss pk : Nat) : C (Option (Mem UInt8 × Int × OS)) := do
  let coins := Mem.uninit UInt8 KYBER_SYMBYTES
  let r ← randombytes os coins 0 KYBER_SYMBYTES
  match r with
  | none => pure none
  | some (coins, os) => do
    let (X, _) ← kem_enc_from P p X ct ss pk coins
    pure (some (X, 0, os))

end Verif.Model
