import Verif.Model.Kem

/-! # ref/kem.c with all arguments in one memory

Verif/Model/Kem.lean takes every argument of a KEM call as an object of its own. A caller may pass pointers into one buffer, for instance the shared secret on top of the ciphertext.
Here all arguments of a call are offsets into one memory `X`, and a write through one pointer is seen by later reads through the others. Local arrays stay objects of their own.

Functions that first read all their input and then write (`hash_h`, `rkprf`) get `X` as source and as destination. `indcpa_keypair_derand` and `indcpa_enc` are cut before their first
write to an argument; what they compute up to there depends on the memory at the time of the call, and the packing functions then run on the memory itself.

kem.c is shared by the two builds, so the calls are written once over `Pke`, the functions that differ. -/

namespace Verif.Model

/-- The functions kem.c calls that differ between the builds. The parts of `indcpa_keypair_derand` and `indcpa_enc` before their first write to an argument are `keypair` (secret
vector, public vector, seed buffer) and `enc` (`b`, `v`). -/
structure Pke where
  keypair : (coins : Mem UInt8) → C (Polyvec × Polyvec × Mem UInt8)
  pack_sk : Mem UInt8 → Polyvec → C (Mem UInt8)
  pack_pk : Mem UInt8 → Polyvec → Mem UInt8 → C (Mem UInt8)
  enc : (m : Mem UInt8) → (mo : Nat) → (pk : Mem UInt8) → (po : Nat) → (coins : Mem UInt8) → (co : Nat) → C (Polyvec × Poly)
  pack_ciphertext : Mem UInt8 → Polyvec → Poly → C (Mem UInt8)
  dec : (m : Mem UInt8) → (mo : Nat) → (c sk : Mem UInt8) → C (Mem UInt8)
  verify : Mem UInt8 → Nat → Mem UInt8 → Nat → Nat → C Int
  cmov : Mem UInt8 → Nat → Mem UInt8 → Nat → Nat → UInt8 → C (Mem UInt8)

/-- The memory seen through a pointer to offset `o`, for callees without an offset argument. None of the callees uses negative indices. -/
def tail (X : Mem UInt8) (o : Nat) : Mem UInt8 := X.extract o X.size

/-- Run a callee that writes through a pointer to offset `o`. -/
def onTail (X : Mem UInt8) (o : Nat) (f : Mem UInt8 → C (Mem UInt8)) : C (Mem UInt8) := do
  let r ← f (tail X o)
  pure (X.extract 0 o ++ r)

/-- `memcpy` inside one memory. Overlapping regions are undefined behaviour (C11 7.24.2.1). -/
def memcpyIn (X : Mem UInt8) (d s n : Nat) : C (Mem UInt8) :=
  if d < s + n ∧ s < d + n then .ub .alias else memcpy X d X s n

/-- ref/kem.c:25-35 `crypto_kem_keypair_derand` with `pk`, `sk`, `coins` pointing to offsets of `X`. -/
def kem_keypair_in (P : Pke) (p : ParamSet) (X : Mem UInt8) (pk sk coins : Nat) : C (Mem UInt8 × Int) := do
  let (skpv, pkpv, buf) ← P.keypair (tail X coins)
  let X ← onTail X sk fun r => P.pack_sk r skpv
  let X ← onTail X pk fun r => P.pack_pk r pkpv buf
  let X ← memcpyIn X (sk + KYBER_INDCPA_SECRETKEYBYTES p) pk (KYBER_PUBLICKEYBYTES p)
  let X ← hash_h X (sk + (KYBER_SECRETKEYBYTES p - 2 * KYBER_SYMBYTES)) X pk (KYBER_PUBLICKEYBYTES p)
  let X ← memcpyIn X (sk + (KYBER_SECRETKEYBYTES p - KYBER_SYMBYTES)) (coins + KYBER_SYMBYTES) KYBER_SYMBYTES
  pure (X, 0)

/-- ref/kem.c:76-96 `crypto_kem_enc_derand` with `ct`, `ss`, `pk`, `coins` pointing to offsets of `X`. -/
def kem_enc_in (P : Pke) (p : ParamSet) (X : Mem UInt8) (ct ss pk coins : Nat) : C (Mem UInt8 × Int) := do
  let buf := Mem.uninit UInt8 (2 * KYBER_SYMBYTES)
  let kr := Mem.uninit UInt8 (2 * KYBER_SYMBYTES)
  let buf ← memcpy buf 0 X coins KYBER_SYMBYTES
  let buf ← hash_h buf KYBER_SYMBYTES X pk (KYBER_PUBLICKEYBYTES p)
  let kr ← hash_g kr 0 buf 0 (2 * KYBER_SYMBYTES)
  let (b, v) ← P.enc buf 0 X pk kr KYBER_SYMBYTES
  let X ← onTail X ct fun r => P.pack_ciphertext r b v
  let X ← memcpy X ss kr 0 KYBER_SYMBYTES
  pure (X, 0)

/-- ref/kem.c:140-170 `crypto_kem_dec` with `ss`, `ct`, `sk` pointing to offsets of `X`. -/
def kem_dec_in (P : Pke) (p : ParamSet) (X : Mem UInt8) (ss ct sk : Nat) : C (Mem UInt8 × Int) := do
  let buf := Mem.uninit UInt8 (2 * KYBER_SYMBYTES)
  let kr := Mem.uninit UInt8 (2 * KYBER_SYMBYTES)
  let cmp := Mem.uninit UInt8 (KYBER_CIPHERTEXTBYTES p)
  let buf ← P.dec buf 0 (tail X ct) (tail X sk)
  let buf ← memcpy buf KYBER_SYMBYTES X (sk + (KYBER_SECRETKEYBYTES p - 2 * KYBER_SYMBYTES)) KYBER_SYMBYTES
  let kr ← hash_g kr 0 buf 0 (2 * KYBER_SYMBYTES)
  let (b, v) ← P.enc buf 0 X (sk + KYBER_INDCPA_SECRETKEYBYTES p) kr KYBER_SYMBYTES
  let cmp ← P.pack_ciphertext cmp b v
  let fail ← P.verify X ct cmp 0 (KYBER_CIPHERTEXTBYTES p)
  let X ← rkprf p X ss X (sk + (KYBER_SECRETKEYBYTES p - KYBER_SYMBYTES)) X ct
  let X ← P.cmov X ss kr 0 KYBER_SYMBYTES (if fail = 0 then 1 else 0)
  pure (X, 0)

/-- ref/indcpa.c:205-238 `indcpa_keypair_derand` up to `pack_sk`. -/
def indcpa_keypair_vecs (p : ParamSet) (fuel : Nat) (coins : Mem UInt8) : C (Polyvec × Polyvec × Mem UInt8) := do
  let buf := Mem.uninit UInt8 (2 * KYBER_SYMBYTES)
  let publicseed := 0
  let noiseseed := KYBER_SYMBYTES
  let nonce : UInt8 := 0
  let buf ← memcpy buf 0 coins 0 KYBER_SYMBYTES
  let buf ← wr buf KYBER_SYMBYTES (UInt8.ofNat (KYBER_K p))
  let buf ← hash_g buf 0 buf 0 (KYBER_SYMBYTES + 1)
  let a ← gen_matrix p fuel (Matrix.uninit p) buf publicseed false
  let (skpv, nonce) ← cfor 0 (KYBER_K p) (Polyvec.uninit p, nonce) fun i (skpv, nonce) => do
    let skpv ← put' skpv i (← poly_getnoise_eta1 p (← at' skpv i) buf noiseseed nonce)
    pure (skpv, nonce + 1)
  let (e, _) ← cfor 0 (KYBER_K p) (Polyvec.uninit p, nonce) fun i (e, nonce) => do
    let e ← put' e i (← poly_getnoise_eta1 p (← at' e i) buf noiseseed nonce)
    pure (e, nonce + 1)
  let skpv ← polyvec_ntt p skpv
  let e ← polyvec_ntt p e
  let pkpv ← cfor 0 (KYBER_K p) (Polyvec.uninit p) fun i pkpv => do
    let pkpv ← put' pkpv i (← polyvec_basemul_acc_montgomery p (← at' pkpv i) (← at' a i) skpv)
    put' pkpv i (← poly_tomont (← at' pkpv i))
  let pkpv ← polyvec_add p pkpv pkpv e
  let pkpv ← polyvec_reduce p pkpv
  pure (skpv, pkpv, buf)

/-- ref/indcpa.c:260-297 `indcpa_enc` up to `pack_ciphertext`. -/
def indcpa_enc_uv (p : ParamSet) (fuel : Nat) (m : Mem UInt8) (mo : Nat) (pk : Mem UInt8) (po : Nat) (coins : Mem UInt8) (co : Nat) : C (Polyvec × Poly) := do
  let seed := Mem.uninit UInt8 KYBER_SYMBYTES
  let nonce : UInt8 := 0
  let (pkpv, seed) ← unpack_pk p (Polyvec.uninit p) seed pk po
  let k ← poly_frommsg Poly.uninit m mo
  let at_ ← gen_matrix p fuel (Matrix.uninit p) seed 0 true
  let (sp, nonce) ← cfor 0 (KYBER_K p) (Polyvec.uninit p, nonce) fun i (sp, nonce) => do
    let sp ← put' sp i (← poly_getnoise_eta1 p (← at' sp i) coins co nonce)
    pure (sp, nonce + 1)
  let (ep, nonce) ← cfor 0 (KYBER_K p) (Polyvec.uninit p, nonce) fun i (ep, nonce) => do
    let ep ← put' ep i (← poly_getnoise_eta2 (← at' ep i) coins co nonce)
    pure (ep, nonce + 1)
  let epp ← poly_getnoise_eta2 Poly.uninit coins co nonce
  let sp ← polyvec_ntt p sp
  let b ← cfor 0 (KYBER_K p) (Polyvec.uninit p) fun i b => do
    put' b i (← polyvec_basemul_acc_montgomery p (← at' b i) (← at' at_ i) sp)
  let v ← polyvec_basemul_acc_montgomery p Poly.uninit pkpv sp
  let b ← polyvec_invntt_tomont p b
  let v ← poly_invntt_tomont v
  let b ← polyvec_add p b b ep
  let v ← poly_add v v epp
  let v ← poly_add v v k
  let b ← polyvec_reduce p b
  let v ← poly_reduce v
  pure (b, v)

/-- The functions of the ref build. -/
def refPke (p : ParamSet) (fuel : Nat) : Pke where
  keypair := indcpa_keypair_vecs p fuel
  pack_sk r a := Verif.Model.pack_sk p r a
  pack_pk r a buf := Verif.Model.pack_pk p r a buf 0
  enc := indcpa_enc_uv p fuel
  pack_ciphertext r b v := Verif.Model.pack_ciphertext p r b v
  dec := indcpa_dec p
  verify := Verif.Model.verify
  cmov := Verif.Model.cmov

end Verif.Model
