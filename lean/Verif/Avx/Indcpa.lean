import Verif.Avx.Pack
import Verif.Avx.Fips202x4
import Verif.Avx.RejSample
import Verif.Model.Indcpa

/-! # Model of avx2/indcpa.c and of the noise sampling of avx2/poly.c

Four polynomials that are sampled in parallel are taken out of the vectors they belong to, sampled, and put back; they are distinct objects in all calls.
Four statements that differ only in the number 0..3 of the polynomial or buffer are written with `each4`. `junk c` gives the arbitrary bytes that the
gather instructions read from the uninitialised part of the buffers in call number `c` (see `Verif.Avx.Fips202x4`); the calls are numbered in the order of
the text. -/

namespace Verif.Avx
open Verif.Model (ParamSet KYBER_K KYBER_N KYBER_Q KYBER_ETA1 KYBER_ETA2 KYBER_SYMBYTES Poly Polyvec Poly.uninit Polyvec.uninit Matrix.uninit SHAKE128_RATE
  SHAKE256_RATE KYBER_POLYVECBYTES KYBER_POLYVECCOMPRESSEDBYTES KeccakState KeccakState.uninit shake128_absorb_once shake128_squeezeblocks hash_g prf)

/-- The values for 0, 1, 2, 3. -/
def q4 {α : Type} (a b c d : α) : Fin 4 → α
  | 0 => a | 1 => b | 2 => c | 3 => d

/-- Four statements, one after the other. -/
def each4 {α : Type} (f : Fin 4 → C α) : C (Fin 4 → α) := do
  let a ← f 0
  let b ← f 1
  let c ← f 2
  let d ← f 3
  pure (q4 a b c d)

/-- avx2/indcpa.c:134-155 `rej_uniform`. Same as in ref/indcpa.c except for the test `pos <= buflen - 3` (unsigned, 32 bits). -/
def rej_uniform (r : Poly) (ro len : Nat) (buf : Mem UInt8) (buflen : Nat) : C (Poly × Nat) := do
  let s ← cwhile (buflen + 1)
    (fun (s : Poly × Nat × Nat) => decide (s.2.1 < len) && decide (s.2.2 ≤ (buflen + 2 ^ 32 - 3) % 2 ^ 32))
    (fun (r, ctr, pos) => do
      let val0 := UInt16.ofNat ((((← rd buf (pos + 0)).toNat >>> 0) ||| ((← rd buf (pos + 1)).toNat <<< 8)) &&& 0xFFF)
      let val1 := UInt16.ofNat ((((← rd buf (pos + 1)).toNat >>> 4) ||| ((← rd buf (pos + 2)).toNat <<< 4)) &&& 0xFFF)
      let pos := pos + 3
      let (r, ctr) ← cif (decide (val0.toNat < KYBER_Q))
        (do let r ← wr r (ro + ctr) (i16 val0.toNat); pure (r, ctr + 1))
        (pure (r, ctr))
      let (r, ctr) ← cif (decide (ctr < len) && decide (val1.toNat < KYBER_Q))
        (do let r ← wr r (ro + ctr) (i16 val1.toNat); pure (r, ctr + 1))
        (pure (r, ctr))
      pure (r, ctr, pos))
    (r, 0, 0)
  pure (s.1, s.2.1)

/-- `a[i].vec[j]` and assignment to it. -/
def getM (a : Array Polyvec) (ij : Nat × Nat) : C Poly := do at' (← at' a ij.1) ij.2
def putM (a : Array Polyvec) (ij : Nat × Nat) (q : Poly) : C (Array Polyvec) := do
  let ai ← at' a ij.1
  let ai ← put' ai ij.2 q
  put' a ij.1 ai

/-- One group of four matrix entries `pos`, e.g. avx2/indcpa.c:180-227 for K = 2. The last two bytes of the four seeds are `tt` if `transposed`, else `nt`.
`fuel` bounds the number of tests of the `while` loop. -/
def gen_batch (junk : Fin 4 → Nat → UInt8) (fuel : Nat) (transposed : Bool) (s : Array Polyvec × M4 × Mem V4) (seed : Mem UInt8) (so : Nat)
    (pos : Fin 4 → Nat × Nat) (tt nt : Fin 4 → UInt8 × UInt8) : C (Array Polyvec × M4 × Mem V4) := do
  let (a, buf, state) := s
  let f ← loadu seed so
  let buf ← each4 fun j => storeu (buf j) 0 f
  let buf ← cif transposed
    (each4 fun j => do
      let b ← wr (buf j) 32 (tt j).1
      wr b 33 (tt j).2)
    (each4 fun j => do
      let b ← wr (buf j) 32 (nt j).1
      wr b 33 (nt j).2)
  let state ← shake128x4_absorb_once junk state buf 34
  let (buf, state) ← shake128x4_squeezeblocks buf 0 REJ_UNIFORM_AVX_NBLOCKS state
  let r ← each4 fun j => do rej_uniform_avx (← getM a (pos j)) (buf j)
  let (r, buf, state) ← cwhile fuel
    (fun (s : (Fin 4 → Poly × Nat) × M4 × Mem V4) =>
      decide ((s.1 0).2 < KYBER_N) || decide ((s.1 1).2 < KYBER_N) || decide ((s.1 2).2 < KYBER_N) || decide ((s.1 3).2 < KYBER_N))
    (fun (r, buf, state) => do
      let (buf, state) ← shake128x4_squeezeblocks buf 0 1 state
      let r ← each4 fun j => do
        let (q, n) ← rej_uniform (r j).1 (r j).2 (KYBER_N - (r j).2) (buf j) SHAKE128_RATE
        pure (q, (r j).2 + n)
      pure (r, buf, state))
    (r, buf, state)
  let q ← each4 fun j => poly_nttunpack (r j).1
  let a ← putM a (pos 0) (q 0)
  let a ← putM a (pos 1) (q 1)
  let a ← putM a (pos 2) (q 2)
  let a ← putM a (pos 3) (q 3)
  pure (a, buf, state)

/-- The last entry for K = 3, avx2/indcpa.c:335-348. -/
def gen_last (fuel : Nat) (a : Array Polyvec) (buf0 : Mem UInt8) (seed : Mem UInt8) (so : Nat) : C (Array Polyvec) := do
  let f ← loadu seed so
  let buf0 ← storeu buf0 0 f
  let buf0 ← wr buf0 32 2
  let buf0 ← wr buf0 33 2
  let state1x ← shake128_absorb_once KeccakState.uninit buf0 0 34
  let (buf0, state1x) ← shake128_squeezeblocks buf0 0 REJ_UNIFORM_AVX_NBLOCKS state1x
  let (q, ctr0) ← rej_uniform_avx (← getM a (2, 2)) buf0
  let s ← cwhile fuel
    (fun (s : Poly × Nat × Mem UInt8 × KeccakState) => decide (s.2.1 < KYBER_N))
    (fun (q, ctr0, buf0, state1x) => do
      let (buf0, state1x) ← shake128_squeezeblocks buf0 0 1 state1x
      let (q, n) ← rej_uniform q ctr0 (KYBER_N - ctr0) buf0 SHAKE128_RATE
      pure (q, ctr0 + n, buf0, state1x))
    (q, ctr0, buf0, state1x)
  let q ← poly_nttunpack s.1
  putM a (2, 2) q

/-- avx2/indcpa.c:173-228 (K = 2), 230-349 (K = 3), 351-408 (K = 4) `gen_matrix`. -/
def gen_matrix (p : ParamSet) (junk : Fin 4 → Nat → UInt8) (fuel : Nat) (a : Array Polyvec) (seed : Mem UInt8) (so : Nat) (transposed : Bool) :
    C (Array Polyvec) := do
  let s := (a, (fun _ => Mem.uninit UInt8 (REJ_UNIFORM_AVX_NBLOCKS * SHAKE128_RATE) : M4), Mem.uninit V4 25)
  match p with
  | .k2 => do
    let s ← gen_batch junk fuel transposed s seed so (q4 (0, 0) (0, 1) (1, 0) (1, 1))
      (q4 (0, 0) (0, 1) (1, 0) (1, 1)) (q4 (0, 0) (1, 0) (0, 1) (1, 1))
    pure s.1
  | .k3 => do
    let s ← gen_batch junk fuel transposed s seed so (q4 (0, 0) (0, 1) (0, 2) (1, 0))
      (q4 (0, 0) (0, 1) (0, 2) (1, 0)) (q4 (0, 0) (1, 0) (2, 0) (0, 1))
    let s ← gen_batch junk fuel transposed s seed so (q4 (1, 1) (1, 2) (2, 0) (2, 1))
      (q4 (1, 1) (1, 2) (2, 0) (2, 1)) (q4 (1, 1) (2, 1) (0, 2) (1, 2))
    gen_last fuel s.1 (s.2.1 0) seed so
  | .k4 => do
    let s ← cfor 0 4 s fun i s =>
      gen_batch junk fuel transposed s seed so (q4 (i, 0) (i, 1) (i, 2) (i, 3))
        (q4 (UInt8.ofNat i, 0) (UInt8.ofNat i, 1) (UInt8.ofNat i, 2) (UInt8.ofNat i, 3))
        (q4 (0, UInt8.ofNat i) (1, UInt8.ofNat i) (2, UInt8.ofNat i) (3, UInt8.ofNat i))
    pure s.1

/-- avx2/poly.c:315 `NOISE_NBLOCKS`. -/
def NOISE_NBLOCKS (p : ParamSet) : Nat := (KYBER_ETA1 p * KYBER_N / 4 + SHAKE256_RATE - 1) / SHAKE256_RATE

/-- avx2/poly.c:326-342 and 361-377: the four buffers of noise. -/
def noise4 (p : ParamSet) (junk : Fin 4 → Nat → UInt8) (seed : Mem UInt8) (so : Nat) (nonce : Fin 4 → UInt8) : C M4 := do
  let buf : M4 := fun _ => Mem.uninit UInt8 (NOISE_NBLOCKS p * SHAKE256_RATE)
  let f ← loadu seed so
  let buf ← each4 fun j => storeu (buf j) 0 f
  let buf ← each4 fun j => wr (buf j) 32 (nonce j)
  let state ← shake256x4_absorb_once junk (Mem.uninit V4 25) buf 33
  let (buf, _) ← shake256x4_squeezeblocks buf 0 (NOISE_NBLOCKS p) state
  pure buf

/-- avx2/poly.c:316-348 `poly_getnoise_eta1_4x`. -/
def poly_getnoise_eta1_4x (p : ParamSet) (junk : Fin 4 → Nat → UInt8) (r : Fin 4 → Poly) (seed : Mem UInt8) (so : Nat) (nonce : Fin 4 → UInt8) :
    C (Fin 4 → Poly) := do
  let buf ← noise4 p junk seed so nonce
  each4 fun j => poly_cbd_eta1 p (r j) (buf j)

/-- avx2/poly.c:351-383 `poly_getnoise_eta1122_4x`, only compiled for K = 2. -/
def poly_getnoise_eta1122_4x (p : ParamSet) (junk : Fin 4 → Nat → UInt8) (r : Fin 4 → Poly) (seed : Mem UInt8) (so : Nat) (nonce : Fin 4 → UInt8) :
    C (Fin 4 → Poly) := do
  let buf ← noise4 p junk seed so nonce
  let r0 ← poly_cbd_eta1 p (r 0) (buf 0)
  let r1 ← poly_cbd_eta1 p (r 1) (buf 1)
  let r2 ← poly_cbd_eta2 (r 2) (buf 2)
  let r3 ← poly_cbd_eta2 (r 3) (buf 3)
  pure (q4 r0 r1 r2 r3)

/-- avx2/poly.c:307-312 `poly_getnoise_eta2`. -/
def poly_getnoise_eta2 (r : Poly) (seed : Mem UInt8) (so : Nat) (nonce : UInt8) : C Poly := do
  let buf := Mem.uninit UInt8 (KYBER_ETA2 * KYBER_N / 4)
  let buf ← prf buf 0 (KYBER_ETA2 * KYBER_N / 4) seed so nonce
  poly_cbd_eta2 r buf

/-- avx2/poly.c:288-293 `poly_getnoise_eta1`. Called only by test_speed.c. -/
def poly_getnoise_eta1 (p : ParamSet) (r : Poly) (seed : Mem UInt8) (so : Nat) (nonce : UInt8) : C Poly := do
  let buf := Mem.uninit UInt8 (KYBER_ETA1 p * KYBER_N / 4 + 32)
  let buf ← prf buf 0 (KYBER_ETA1 p * KYBER_N / 4) seed so nonce
  poly_cbd_eta1 p r buf

/-- avx2/indcpa.c:30-36 `pack_pk`. -/
def pack_pk (p : ParamSet) (r : Mem UInt8) (pk : Polyvec) (seed : Mem UInt8) (so : Nat) : C (Mem UInt8) := do
  let r ← polyvec_tobytes p r 0 pk
  memcpy r (KYBER_POLYVECBYTES p) seed so KYBER_SYMBYTES

/-- avx2/indcpa.c:48-54 `unpack_pk`. -/
def unpack_pk (p : ParamSet) (pk : Polyvec) (seed : Mem UInt8) (packedpk : Mem UInt8) (po : Nat) : C (Polyvec × Mem UInt8) := do
  let pk ← polyvec_frombytes p pk packedpk po
  let seed ← memcpy seed 0 packedpk (po + KYBER_POLYVECBYTES p) KYBER_SYMBYTES
  pure (pk, seed)

/-- avx2/indcpa.c:99-103 `pack_ciphertext`. -/
def pack_ciphertext (p : ParamSet) (r : Mem UInt8) (b : Polyvec) (v : Poly) : C (Mem UInt8) := do
  let r ← polyvec_compress p r 0 b
  poly_compress p r (KYBER_POLYVECCOMPRESSEDBYTES p) v

/-- avx2/indcpa.c:115-119 `unpack_ciphertext`. -/
def unpack_ciphertext (p : ParamSet) (b : Polyvec) (v : Poly) (c : Mem UInt8) : C (Polyvec × Poly) := do
  let b ← polyvec_decompress p b c 0
  let v ← poly_decompress p v c (KYBER_POLYVECCOMPRESSEDBYTES p)
  pure (b, v)

/-- avx2/indcpa.c:440-448: the secret and error vectors of key generation; `pkpv` is used as scratch for K = 3. -/
def keypair_noise (p : ParamSet) (junk : Nat → Fin 4 → Nat → UInt8) (seed : Mem UInt8) (so : Nat) (skpv e pkpv : Polyvec) :
    C (Polyvec × Polyvec × Polyvec) :=
  match p with
  | .k2 => do
    let r ← poly_getnoise_eta1_4x .k2 (junk 1) (q4 (← at' skpv 0) (← at' skpv 1) (← at' e 0) (← at' e 1)) seed so (q4 0 1 2 3)
    pure (← put' (← put' skpv 0 (r 0)) 1 (r 1), ← put' (← put' e 0 (r 2)) 1 (r 3), pkpv)
  | .k3 => do
    let r ← poly_getnoise_eta1_4x .k3 (junk 1) (q4 (← at' skpv 0) (← at' skpv 1) (← at' skpv 2) (← at' e 0)) seed so (q4 0 1 2 3)
    let skpv ← put' (← put' (← put' skpv 0 (r 0)) 1 (r 1)) 2 (r 2)
    let e ← put' e 0 (r 3)
    let r ← poly_getnoise_eta1_4x .k3 (junk 2) (q4 (← at' e 1) (← at' e 2) (← at' pkpv 0) (← at' pkpv 1)) seed so (q4 4 5 6 7)
    let e ← put' (← put' e 1 (r 0)) 2 (r 1)
    pure (skpv, e, ← put' (← put' pkpv 0 (r 2)) 1 (r 3))
  | .k4 => do
    let r ← poly_getnoise_eta1_4x .k4 (junk 1) (q4 (← at' skpv 0) (← at' skpv 1) (← at' skpv 2) (← at' skpv 3)) seed so (q4 0 1 2 3)
    let skpv ← put' (← put' (← put' (← put' skpv 0 (r 0)) 1 (r 1)) 2 (r 2)) 3 (r 3)
    let r ← poly_getnoise_eta1_4x .k4 (junk 2) (q4 (← at' e 0) (← at' e 1) (← at' e 2) (← at' e 3)) seed so (q4 4 5 6 7)
    let e ← put' (← put' (← put' (← put' e 0 (r 0)) 1 (r 1)) 2 (r 2)) 3 (r 3)
    pure (skpv, e, pkpv)

/-- avx2/indcpa.c:424-465 `indcpa_keypair_derand`. -/
def indcpa_keypair_derand (p : ParamSet) (junk : Nat → Fin 4 → Nat → UInt8) (fuel : Nat) (pk sk : Mem UInt8) (coins : Mem UInt8) :
    C (Mem UInt8 × Mem UInt8) := do
  let buf := Mem.uninit UInt8 (2 * KYBER_SYMBYTES)
  let publicseed := 0
  let noiseseed := KYBER_SYMBYTES
  let buf ← memcpy buf 0 coins 0 KYBER_SYMBYTES
  let buf ← wr buf KYBER_SYMBYTES (UInt8.ofNat (KYBER_K p))
  let buf ← hash_g buf 0 buf 0 (KYBER_SYMBYTES + 1)
  let a ← gen_matrix p (junk 0) fuel (Matrix.uninit p) buf publicseed false
  let (skpv, e, pkpv) ← keypair_noise p junk buf noiseseed (Polyvec.uninit p) (Polyvec.uninit p) (Polyvec.uninit p)
  let skpv ← polyvec_ntt p skpv
  let skpv ← polyvec_reduce p skpv
  let e ← polyvec_ntt p e
  let pkpv ← cfor 0 (KYBER_K p) pkpv fun i pkpv => do
    let pkpv ← put' pkpv i (← polyvec_basemul_acc_montgomery p (← at' pkpv i) (← at' a i) skpv)
    put' pkpv i (← poly_tomont (← at' pkpv i))
  let pkpv ← polyvec_add p pkpv e
  let pkpv ← polyvec_reduce p pkpv
  let sk ← polyvec_tobytes p sk 0 skpv
  let pk ← pack_pk p pk pkpv buf publicseed
  pure (pk, sk)

/-- avx2/indcpa.c:497-507: the vectors and the polynomial of noise of encryption; `b` is used as scratch for K = 3. -/
def enc_noise (p : ParamSet) (junk : Nat → Fin 4 → Nat → UInt8) (coins : Mem UInt8) (co : Nat) (sp ep b : Polyvec) (epp : Poly) :
    C (Polyvec × Polyvec × Polyvec × Poly) :=
  match p with
  | .k2 => do
    let r ← poly_getnoise_eta1122_4x .k2 (junk 1) (q4 (← at' sp 0) (← at' sp 1) (← at' ep 0) (← at' ep 1)) coins co (q4 0 1 2 3)
    let sp ← put' (← put' sp 0 (r 0)) 1 (r 1)
    let ep ← put' (← put' ep 0 (r 2)) 1 (r 3)
    let epp ← poly_getnoise_eta2 epp coins co 4
    pure (sp, ep, b, epp)
  | .k3 => do
    let r ← poly_getnoise_eta1_4x .k3 (junk 1) (q4 (← at' sp 0) (← at' sp 1) (← at' sp 2) (← at' ep 0)) coins co (q4 0 1 2 3)
    let sp ← put' (← put' (← put' sp 0 (r 0)) 1 (r 1)) 2 (r 2)
    let ep ← put' ep 0 (r 3)
    let r ← poly_getnoise_eta1_4x .k3 (junk 2) (q4 (← at' ep 1) (← at' ep 2) epp (← at' b 0)) coins co (q4 4 5 6 7)
    let ep ← put' (← put' ep 1 (r 0)) 2 (r 1)
    pure (sp, ep, ← put' b 0 (r 3), r 2)
  | .k4 => do
    let r ← poly_getnoise_eta1_4x .k4 (junk 1) (q4 (← at' sp 0) (← at' sp 1) (← at' sp 2) (← at' sp 3)) coins co (q4 0 1 2 3)
    let sp ← put' (← put' (← put' (← put' sp 0 (r 0)) 1 (r 1)) 2 (r 2)) 3 (r 3)
    let r ← poly_getnoise_eta1_4x .k4 (junk 2) (q4 (← at' ep 0) (← at' ep 1) (← at' ep 2) (← at' ep 3)) coins co (q4 4 5 6 7)
    let ep ← put' (← put' (← put' (← put' ep 0 (r 0)) 1 (r 1)) 2 (r 2)) 3 (r 3)
    let epp ← poly_getnoise_eta2 epp coins co 8
    pure (sp, ep, b, epp)

/-- avx2/indcpa.c:483-526 `indcpa_enc`. `m`, `pk`, `coins` point to the given offsets. -/
def indcpa_enc (p : ParamSet) (junk : Nat → Fin 4 → Nat → UInt8) (fuel : Nat) (c : Mem UInt8) (m : Mem UInt8) (mo : Nat) (pk : Mem UInt8) (po : Nat)
    (coins : Mem UInt8) (co : Nat) : C (Mem UInt8) := do
  let seed := Mem.uninit UInt8 KYBER_SYMBYTES
  let (pkpv, seed) ← unpack_pk p (Polyvec.uninit p) seed pk po
  let k ← poly_frommsg Poly.uninit m mo
  let at_ ← gen_matrix p (junk 0) fuel (Matrix.uninit p) seed 0 true
  let (sp, ep, b, epp) ← enc_noise p junk coins co (Polyvec.uninit p) (Polyvec.uninit p) (Polyvec.uninit p) Poly.uninit
  let sp ← polyvec_ntt p sp
  let b ← cfor 0 (KYBER_K p) b fun i b => do
    put' b i (← polyvec_basemul_acc_montgomery p (← at' b i) (← at' at_ i) sp)
  let v ← polyvec_basemul_acc_montgomery p Poly.uninit pkpv sp
  let b ← polyvec_invntt_tomont p b
  let v ← poly_invntt_tomont v
  let b ← polyvec_add p b ep
  let v ← poly_add v epp
  let v ← poly_add v k
  let b ← polyvec_reduce p b
  let v ← poly_reduce v
  pack_ciphertext p c b v

/-- avx2/indcpa.c:541-559 `indcpa_dec`. -/
def indcpa_dec (p : ParamSet) (m : Mem UInt8) (mo : Nat) (c : Mem UInt8) (sk : Mem UInt8) : C (Mem UInt8) := do
  let (b, v) ← unpack_ciphertext p (Polyvec.uninit p) Poly.uninit c
  let skpv ← polyvec_frombytes p (Polyvec.uninit p) sk 0
  let b ← polyvec_ntt p b
  let mp ← polyvec_basemul_acc_montgomery p Poly.uninit skpv b
  let mp ← poly_invntt_tomont mp
  let mp ← poly_sub mp v
  let mp ← poly_reduce mp
  poly_tomsg m mo mp

end Verif.Avx
