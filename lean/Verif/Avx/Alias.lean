import Verif.Avx.Kem
import Verif.Model.Alias

/-! # The parts of avx2/indcpa.c before the first write to an argument

For the KEM calls in one memory (Verif/Model/Alias.lean). -/

namespace Verif.Avx
open Verif.Model (ParamSet KYBER_K KYBER_N KYBER_Q KYBER_ETA1 KYBER_ETA2 KYBER_SYMBYTES Poly Polyvec Poly.uninit Polyvec.uninit Matrix.uninit SHAKE128_RATE
  SHAKE256_RATE KYBER_POLYVECBYTES KYBER_POLYVECCOMPRESSEDBYTES KeccakState KeccakState.uninit shake128_absorb_once shake128_squeezeblocks hash_g prf)

/-- avx2/indcpa.c:424-463 `indcpa_keypair_derand` up to `pack_sk`. -/
def indcpa_keypair_vecs (p : ParamSet) (junk : Nat → Fin 4 → Nat → UInt8) (fuel : Nat) (coins : Mem UInt8) : C (Polyvec × Polyvec × Mem UInt8) := do
  let buf := Mem.uninit UInt8 (2 * KYBER_SYMBYTES)
  let publicseed := 0
  let noiseseed := KYBER_SYMBYTES
  let buf ← memcpy buf 0 coins 0 KYBER_SYMBYTES
  let buf ← wr buf KYBER_SYMBYTES (UInt8.ofNat (KYBER_K p))
  let buf ← hash_g buf 0 buf 0 (KYBER_SYMBYTES + 1)
  let a ← gen_matrix p (junk 0) fuel (Matrix.uninit p) buf publicseed false
  let (skpv, e, pkpv) ← keypair_noise p junk buf noiseseed (Polyvec.uninit p) (Polyvec.uninit p) (Polyvec.uninit p)
  let skpv ← polyvec_ntt p skpv
  let skpv ← polyvec_reduce p skpv
  let e ← polyvec_ntt p e
  let pkpv ← cfor 0 (KYBER_K p) pkpv fun i pkpv => do
    let pkpv ← put' pkpv i (← polyvec_basemul_acc_montgomery p (← at' pkpv i) (← at' a i) skpv)
    put' pkpv i (← poly_tomont (← at' pkpv i))
  let pkpv ← polyvec_add p pkpv e
  let pkpv ← polyvec_reduce p pkpv
  pure (skpv, pkpv, buf)

/-- avx2/indcpa.c:483-524 `indcpa_enc` up to `pack_ciphertext`. -/
def indcpa_enc_uv (p : ParamSet) (junk : Nat → Fin 4 → Nat → UInt8) (fuel : Nat) (m : Mem UInt8) (mo : Nat) (pk : Mem UInt8) (po : Nat)
    (coins : Mem UInt8) (co : Nat) : C (Polyvec × Poly) := do
  let seed := Mem.uninit UInt8 KYBER_SYMBYTES
  let (pkpv, seed) ← unpack_pk p (Polyvec.uninit p) seed pk po
  let k ← poly_frommsg Poly.uninit m mo
  let at_ ← gen_matrix p (junk 0) fuel (Matrix.uninit p) seed 0 true
  let (sp, ep, b, epp) ← enc_noise p junk coins co (Polyvec.uninit p) (Polyvec.uninit p) (Polyvec.uninit p) Poly.uninit
  let sp ← polyvec_ntt p sp
  let b ← cfor 0 (KYBER_K p) b fun i b => do
    put' b i (← polyvec_basemul_acc_montgomery p (← at' b i) (← at' at_ i) sp)
  let v ← polyvec_basemul_acc_montgomery p Poly.uninit pkpv sp
  let b ← polyvec_invntt_tomont p b
  let v ← poly_invntt_tomont v
  let b ← polyvec_add p b ep
  let v ← poly_add v epp
  let v ← poly_add v k
  let b ← polyvec_reduce p b
  let v ← poly_reduce v
  pure (b, v)

/-- The functions of the AVX2 build. -/
def avxPke (p : ParamSet) (junk : Nat → Fin 4 → Nat → UInt8) (fuel : Nat) : Verif.Model.Pke where
  keypair := indcpa_keypair_vecs p junk fuel
  pack_sk r a := polyvec_tobytes p r 0 a
  pack_pk r a buf := Verif.Avx.pack_pk p r a buf 0
  enc := indcpa_enc_uv p junk fuel
  pack_ciphertext r b v := Verif.Avx.pack_ciphertext p r b v
  dec := indcpa_dec p
  verify := Verif.Avx.verify
  cmov := Verif.Avx.cmov

end Verif.Avx
