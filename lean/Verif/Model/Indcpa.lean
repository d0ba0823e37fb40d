import Verif.Model.Polyvec

/-! # Model of ref/indcpa.c -/

namespace Verif.Model

/-- ref/indcpa.c:23-29 `pack_pk`. -/
def pack_pk (p : ParamSet) (r : Mem UInt8) (pk : Polyvec) (seed : Mem UInt8) (so : Nat) : C (Mem UInt8) := do
  let r ← polyvec_tobytes p r 0 pk
  memcpy r (KYBER_POLYVECBYTES p) seed so KYBER_SYMBYTES

/-- ref/indcpa.c:41-47 `unpack_pk`. -/
def unpack_pk (p : ParamSet) (pk : Polyvec) (seed : Mem UInt8) (packedpk : Mem UInt8) (po : Nat) :
    C (Polyvec × Mem UInt8) := do
  let pk ← polyvec_frombytes p pk packedpk po
  let seed ← memcpy seed 0 packedpk (po + KYBER_POLYVECBYTES p) KYBER_SYMBYTES
  pure (pk, seed)

/-- ref/indcpa.c:57-60 `pack_sk`. -/
def pack_sk (p : ParamSet) (r : Mem UInt8) (sk : Polyvec) : C (Mem UInt8) := polyvec_tobytes p r 0 sk

/-- ref/indcpa.c:70-73 `unpack_sk`. -/
def unpack_sk (p : ParamSet) (sk : Polyvec) (packedsk : Mem UInt8) : C Polyvec :=
  polyvec_frombytes p sk packedsk 0

/-- ref/indcpa.c:86-90 `pack_ciphertext`. -/
def pack_ciphertext (p : ParamSet) (r : Mem UInt8) (b : Polyvec) (v : Poly) : C (Mem UInt8) := do
  let r ← polyvec_compress p r 0 b
  poly_compress p r (KYBER_POLYVECCOMPRESSEDBYTES p) v

/-- ref/indcpa.c:102-106 `unpack_ciphertext`. -/
def unpack_ciphertext (p : ParamSet) (b : Polyvec) (v : Poly) (c : Mem UInt8) : C (Polyvec × Poly) := do
  let b ← polyvec_decompress p b c 0
  let v ← poly_decompress p v c (KYBER_POLYVECCOMPRESSEDBYTES p)
  pure (b, v)

/-- ref/indcpa.c:121-142 `rej_uniform`: `r` points to offset `ro`. Loop state `(r, ctr, pos)`. Each iteration advances `pos` by 3,
so `buflen + 1` tests of the condition suffice. -/
def rej_uniform (r : Poly) (ro len : Nat) (buf : Mem UInt8) (buflen : Nat) : C (Poly × Nat) := do
  let s ← cwhile (buflen + 1)
    (fun (s : Poly × Nat × Nat) => decide (s.2.1 < len) && decide (s.2.2 + 3 ≤ buflen))
    (fun (r, ctr, pos) => do
      let val0 := UInt16.ofNat ((((← rd buf (pos + 0)).toNat >>> 0) ||| ((← rd buf (pos + 1)).toNat <<< 8)) &&& 0xFFF)
      let val1 := UInt16.ofNat ((((← rd buf (pos + 1)).toNat >>> 4) ||| ((← rd buf (pos + 2)).toNat <<< 4)) &&& 0xFFF)
      let pos := pos + 3
      let (r, ctr) ← cif (decide (val0.toNat < KYBER_Q))
        (do let r ← wr r (ro + ctr) (i16 val0.toNat); pure (r, ctr + 1))
        (pure (r, ctr))
      let (r, ctr) ← cif (decide (ctr < len) && decide (val1.toNat < KYBER_Q))
        (do let r ← wr r (ro + ctr) (i16 val1.toNat); pure (r, ctr + 1))
        (pure (r, ctr))
      pure (r, ctr, pos))
    (r, 0, 0)
  pure (s.1, s.2.1)

/-- ref/indcpa.c:163 `GEN_MATRIX_NBLOCKS`. -/
def GEN_MATRIX_NBLOCKS : Nat := (12 * KYBER_N / 8 * (1 <<< 12) / KYBER_Q + XOF_BLOCKBYTES) / XOF_BLOCKBYTES

/-- ref/indcpa.c:178-187, the body of the inner loop of `gen_matrix` after `xof_absorb`: fill one polynomial from the XOF state.
`fuel` bounds the number of tests of `while(ctr < KYBER_N)`. Returns the polynomial and the (reused) buffer and state. -/
def gen_entry (fuel : Nat) (a : Poly) (buf : Mem UInt8) (state : KeccakState) :
    C (Poly × Mem UInt8 × KeccakState) := do
  let (buf, state) ← xof_squeezeblocks buf 0 GEN_MATRIX_NBLOCKS state
  let buflen := GEN_MATRIX_NBLOCKS * XOF_BLOCKBYTES
  let (a, ctr) ← rej_uniform a 0 KYBER_N buf buflen
  let s ← cwhile fuel
    (fun (s : Poly × Nat × Mem UInt8 × KeccakState) => decide (s.2.1 < KYBER_N))
    (fun (a, ctr, buf, state) => do
      let (buf, state) ← xof_squeezeblocks buf 0 1 state
      let buflen := XOF_BLOCKBYTES
      let (a, n) ← rej_uniform a ctr (KYBER_N - ctr) buf buflen
      pure (a, ctr + n, buf, state))
    (a, ctr, buf, state)
  pure (s.1, s.2.2)

/-- ref/indcpa.c:165-190 `gen_matrix`. The matrix is an array of `KYBER_K` polyvecs. -/
def gen_matrix (p : ParamSet) (fuel : Nat) (a : Array Polyvec) (seed : Mem UInt8) (so : Nat) (transposed : Bool) :
    C (Array Polyvec) := do
  let s ← cfor 0 (KYBER_K p)
    (a, Mem.uninit UInt8 (GEN_MATRIX_NBLOCKS * XOF_BLOCKBYTES), KeccakState.uninit) fun i s =>
    cfor 0 (KYBER_K p) s fun j (a, buf, state) => do
      let state ← cif transposed
        (xof_absorb state seed so (UInt8.ofNat i) (UInt8.ofNat j))
        (xof_absorb state seed so (UInt8.ofNat j) (UInt8.ofNat i))
      let ai ← at' a i
      let aij ← at' ai j
      let (aij, buf, state) ← gen_entry fuel aij buf state
      let ai ← put' ai j aij
      let a ← put' a i ai
      pure (a, buf, state)
  pure s.1

/-- `polyvec a[KYBER_K]` on the stack. -/
def Matrix.uninit (p : ParamSet) : Array Polyvec := Array.replicate (KYBER_K p) (Polyvec.uninit p)

/-- ref/indcpa.c:205-241 `indcpa_keypair_derand`. -/
def indcpa_keypair_derand (p : ParamSet) (fuel : Nat) (pk sk : Mem UInt8) (coins : Mem UInt8) :
    C (Mem UInt8 × Mem UInt8) := do
  let buf := Mem.uninit UInt8 (2 * KYBER_SYMBYTES)
  let publicseed := 0
  let noiseseed := KYBER_SYMBYTES
  let nonce : UInt8 := 0
  let buf ← memcpy buf 0 coins 0 KYBER_SYMBYTES
  let buf ← wr buf KYBER_SYMBYTES (UInt8.ofNat (KYBER_K p))
  let buf ← hash_g buf 0 buf 0 (KYBER_SYMBYTES + 1)
  let a ← gen_matrix p fuel (Matrix.uninit p) buf publicseed false
  let (skpv, nonce) ← cfor 0 (KYBER_K p) (Polyvec.uninit p, nonce) fun i (skpv, nonce) => do
    let skpv ← put' skpv i (← poly_getnoise_eta1 p (← at' skpv i) buf noiseseed nonce)
    pure (skpv, nonce + 1)
  let (e, _) ← cfor 0 (KYBER_K p) (Polyvec.uninit p, nonce) fun i (e, nonce) => do
    let e ← put' e i (← poly_getnoise_eta1 p (← at' e i) buf noiseseed nonce)
    pure (e, nonce + 1)
  let skpv ← polyvec_ntt p skpv
  let e ← polyvec_ntt p e
  let pkpv ← cfor 0 (KYBER_K p) (Polyvec.uninit p) fun i pkpv => do
    let pkpv ← put' pkpv i (← polyvec_basemul_acc_montgomery p (← at' pkpv i) (← at' a i) skpv)
    put' pkpv i (← poly_tomont (← at' pkpv i))
  let pkpv ← polyvec_add p pkpv pkpv e
  let pkpv ← polyvec_reduce p pkpv
  let sk ← pack_sk p sk skpv
  let pk ← pack_pk p pk pkpv buf publicseed
  pure (pk, sk)

/-- ref/indcpa.c:260-299 `indcpa_enc`. `m`, `pk`, `coins` point to the given offsets. -/
def indcpa_enc (p : ParamSet) (fuel : Nat) (c : Mem UInt8) (m : Mem UInt8) (mo : Nat) (pk : Mem UInt8) (po : Nat)
    (coins : Mem UInt8) (co : Nat) : C (Mem UInt8) := do
  let seed := Mem.uninit UInt8 KYBER_SYMBYTES
  let nonce : UInt8 := 0
  let (pkpv, seed) ← unpack_pk p (Polyvec.uninit p) seed pk po
  let k ← poly_frommsg Poly.uninit m mo
  let at_ ← gen_matrix p fuel (Matrix.uninit p) seed 0 true
  let (sp, nonce) ← cfor 0 (KYBER_K p) (Polyvec.uninit p, nonce) fun i (sp, nonce) => do
    let sp ← put' sp i (← poly_getnoise_eta1 p (← at' sp i) coins co nonce)
    pure (sp, nonce + 1)
  let (ep, nonce) ← cfor 0 (KYBER_K p) (Polyvec.uninit p, nonce) fun i (ep, nonce) => do
    let ep ← put' ep i (← poly_getnoise_eta2 (← at' ep i) coins co nonce)
    pure (ep, nonce + 1)
  let epp ← poly_getnoise_eta2 Poly.uninit coins co nonce
  let sp ← polyvec_ntt p sp
  let b ← cfor 0 (KYBER_K p) (Polyvec.uninit p) fun i b => do
    put' b i (← polyvec_basemul_acc_montgomery p (← at' b i) (← at' at_ i) sp)
  let v ← polyvec_basemul_acc_montgomery p Poly.uninit pkpv sp
  let b ← polyvec_invntt_tomont p b
  let v ← poly_invntt_tomont v
  let b ← polyvec_add p b b ep
  let v ← poly_add v v epp
  let v ← poly_add v v k
  let b ← polyvec_reduce p b
  let v ← poly_reduce v
  pack_ciphertext p c b v

/-- ref/indcpa.c:314-332 `indcpa_dec`. -/
def indcpa_dec (p : ParamSet) (m : Mem UInt8) (mo : Nat) (c : Mem UInt8) (sk : Mem UInt8) : C (Mem UInt8) := do
  let (b, v) ← unpack_ciphertext p (Polyvec.uninit p) Poly.uninit c
  let skpv ← unpack_sk p (Polyvec.uninit p) sk
  let b ← polyvec_ntt p b
  let mp ← polyvec_basemul_acc_montgomery p Poly.uninit skpv b
  let mp ← poly_invntt_tomont mp
  let mp ← poly_sub mp v mp
  let mp ← poly_reduce mp
  poly_tomsg m mo mp

end Verif.Model
