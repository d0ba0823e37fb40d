import Verif.Model.TestVectors
import Verif.Model.Speed
import Verif.Avx.Api

/-! # Model of ref/test/test_speed.c (avx2/test/test_speed.c is the same file)

The program is linked against either build, whose functions are parameters (`SpeedApi`), and against `randombytes`; the time stamp counter and `qsort` are parameters as in Model/Speed. -/

namespace Verif.Model

/-- The functions that test_speed.c calls, with the arguments it does not vary (offset 0, nonce 0, `transposed` 0) left out. Output buffers are passed and returned. -/
structure SpeedApi where
  gen_matrix : Array Polyvec → Mem UInt8 → C (Array Polyvec)
  getnoise_eta1 : Poly → Mem UInt8 → C Poly
  getnoise_eta2 : Poly → Mem UInt8 → C Poly
  ntt : Poly → C Poly
  invntt : Poly → C Poly
  basemul_acc : Poly → Polyvec → Polyvec → C Poly
  tomsg : Mem UInt8 → Poly → C (Mem UInt8)
  frommsg : Poly → Mem UInt8 → C Poly
  compress : Mem UInt8 → Poly → C (Mem UInt8)
  decompress : Poly → Mem UInt8 → C Poly
  pv_compress : Mem UInt8 → Polyvec → C (Mem UInt8)
  pv_decompress : Polyvec → Mem UInt8 → C Polyvec
  cpa_keypair : Mem UInt8 → Mem UInt8 → Mem UInt8 → C (Mem UInt8 × Mem UInt8)
  cpa_enc : Mem UInt8 → Mem UInt8 → Mem UInt8 → Mem UInt8 → C (Mem UInt8)
  cpa_dec : Mem UInt8 → Mem UInt8 → Mem UInt8 → C (Mem UInt8)
  kem : KemApi

/-- The reference build. -/
def refSpeed (p : ParamSet) (fuel : Nat) : SpeedApi where
  gen_matrix a seed := gen_matrix p fuel a seed 0 false
  getnoise_eta1 r seed := poly_getnoise_eta1 p r seed 0 0
  getnoise_eta2 r seed := poly_getnoise_eta2 r seed 0 0
  ntt := poly_ntt
  invntt := poly_invntt_tomont
  basemul_acc := polyvec_basemul_acc_montgomery p
  tomsg m a := poly_tomsg m 0 a
  frommsg r m := poly_frommsg r m 0
  compress r a := poly_compress p r 0 a
  decompress r a := poly_decompress p r a 0
  pv_compress r a := polyvec_compress p r 0 a
  pv_decompress r a := polyvec_decompress p r a 0
  cpa_keypair := indcpa_keypair_derand p fuel
  cpa_enc c m pk coins := indcpa_enc p fuel c m 0 pk 0 coins 0
  cpa_dec m c sk := indcpa_dec p m 0 c sk
  kem := refApi p fuel

/-- The AVX2 build; `junk` and `junk'` are what its four-way hashing finds in uninitialised buffers. -/
def avxSpeed (p : ParamSet) (junk : Nat → Fin 4 → Nat → UInt8) (junk' : Fin 4 → Nat → UInt8) (fuel : Nat) : SpeedApi where
  gen_matrix a seed := Avx.gen_matrix p junk' fuel a seed 0 false
  getnoise_eta1 r seed := Avx.poly_getnoise_eta1 p r seed 0 0
  getnoise_eta2 r seed := Avx.poly_getnoise_eta2 r seed 0 0
  ntt := Avx.poly_ntt
  invntt := Avx.poly_invntt_tomont
  basemul_acc := Avx.polyvec_basemul_acc_montgomery p
  tomsg m a := Avx.poly_tomsg m 0 a
  frommsg r m := Avx.poly_frommsg r m 0
  compress r a := Avx.poly_compress p r 0 a
  decompress r a := Avx.poly_decompress p r a 0
  pv_compress r a := Avx.polyvec_compress p r 0 a
  pv_decompress r a := Avx.polyvec_decompress p r a 0
  cpa_keypair := Avx.indcpa_keypair_derand p junk fuel
  cpa_enc c m pk coins := Avx.indcpa_enc p junk fuel c m 0 pk 0 coins 0
  cpa_dec m c sk := Avx.indcpa_dec p m 0 c sk
  kem := Avx.avxApi p junk fuel

variable {σ : Type}

/-- The buffers of `main` that the measured calls write, and the generator. -/
structure SpBufs (σ : Type) where
  rng : σ
  pk : Mem UInt8
  sk : Mem UInt8
  ct : Mem UInt8
  key : Mem UInt8
  mat : Array Polyvec
  ap : Poly

/-- The state: the buffers, the array `t`, and what `print_results` works on. -/
structure SpSt (σ : Type) where
  b : SpBufs σ
  t : Mem UInt64
  pr : PrintSt

/-- What the program runs on: the counter, `qsort`, the rounds of `cpucycles_overhead` (100000) and NTESTS (1000). -/
structure SpEnv where
  clk : Nat → UInt64
  qs : Qsort
  N : Nat
  nt : Nat

/-- `for(i=0;i<NTESTS;i++) { t[i] = cpucycles(); call; } print_results(title, t, NTESTS);`; the call may depend on the iteration. -/
def timed (E : SpEnv) (title : String) (call : Nat → SpBufs σ → C (SpBufs σ)) (s : SpSt σ) : C (SpSt σ) := do
  let s ← cfor 0 E.nt s fun i s => do
    let t ← wr s.t i (E.clk s.pr.pos)
    let b ← call i s.b
    pure ⟨b, t, { s.pr with pos := s.pr.pos + 1 }⟩
  let (t, pr) ← print_results E.clk E.qs E.N s.pr title s.t E.nt
  pure ⟨s.b, t, pr⟩

/-- test_speed.c:17 `seed`. -/
def speedSeed : Mem UInt8 := Mem.ofList (List.replicate 32 0)

/-- One measurement: title and call; the call may depend on the iteration. -/
abbrev SpTest (σ : Type) := String × (Nat → SpBufs σ → C (SpBufs σ))

/-- test_speed.c:34-98, the measurements of functions of the lower layers. `A n i` are the functions at the `i`-th call of the `n`-th measurement. -/
def polyTests (A : Nat → Nat → SpeedApi) : List (SpTest σ) := [
  ("gen_a: ", fun i b => do
    let mat ← (A 0 i).gen_matrix b.mat speedSeed
    pure { b with mat := mat }),
  ("poly_getnoise_eta1: ", fun i b => do
    let ap ← (A 1 i).getnoise_eta1 b.ap speedSeed
    pure { b with ap := ap }),
  ("poly_getnoise_eta2: ", fun i b => do
    let ap ← (A 2 i).getnoise_eta2 b.ap speedSeed
    pure { b with ap := ap }),
  ("NTT: ", fun i b => do
    let ap ← (A 3 i).ntt b.ap
    pure { b with ap := ap }),
  ("INVNTT: ", fun i b => do
    let ap ← (A 4 i).invntt b.ap
    pure { b with ap := ap }),
  ("polyvec_basemul_acc_montgomery: ", fun i b => do
    let ap ← (A 5 i).basemul_acc b.ap (← at' b.mat 0) (← at' b.mat 1)
    pure { b with ap := ap }),
  ("poly_tomsg: ", fun i b => do
    let ct ← (A 6 i).tomsg b.ct b.ap
    pure { b with ct := ct }),
  ("poly_frommsg: ", fun i b => do
    let ap ← (A 7 i).frommsg b.ap b.ct
    pure { b with ap := ap }),
  ("poly_compress: ", fun i b => do
    let ct ← (A 8 i).compress b.ct b.ap
    pure { b with ct := ct }),
  ("poly_decompress: ", fun i b => do
    let ap ← (A 9 i).decompress b.ap b.ct
    pure { b with ap := ap }),
  ("polyvec_compress: ", fun i b => do
    let ct ← (A 10 i).pv_compress b.ct (← at' b.mat 0)
    pure { b with ct := ct })]

/-- test_speed.c:100-104 -/
def decTest (A : Nat → Nat → SpeedApi) : SpTest σ :=
  ("polyvec_decompress: ", fun i b => do
    let v ← (A 11 i).pv_decompress (← at' b.mat 0) b.ct
    let mat ← put' b.mat 0 v
    pure { b with mat := mat })

/-- test_speed.c:106-110 -/
def keypairTest (A : Nat → Nat → SpeedApi) (coins32 : Mem UInt8) : SpTest σ :=
  ("indcpa_keypair: ", fun i b => do
    let (pk, sk) ← (A 12 i).cpa_keypair b.pk b.sk coins32
    pure { b with pk := pk, sk := sk })

/-- test_speed.c:112-116; the message is the buffer `key`. -/
def encTest (A : Nat → Nat → SpeedApi) : SpTest σ :=
  ("indcpa_enc: ", fun i b => do
    let ct ← (A 13 i).cpa_enc b.ct b.key b.pk speedSeed
    pure { b with ct := ct })

/-- test_speed.c:118-152 -/
def kemTests (A : Nat → Nat → SpeedApi) (rb : Rng σ) (coins32 coins64 : Mem UInt8) : List (SpTest σ) := [
  ("indcpa_dec: ", fun i b => do
    let key ← (A 14 i).cpa_dec b.key b.ct b.sk
    pure { b with key := key }),
  ("kyber_keypair_derand: ", fun i b => do
    let (pk, sk, _) ← (A 15 i).kem.keypair_derand b.pk b.sk coins64
    pure { b with pk := pk, sk := sk }),
  ("kyber_keypair: ", fun i b => do
    let (pk, sk, _, rng) ← kemKeypair (A 16 i).kem rb b.rng b.pk b.sk
    pure { b with pk := pk, sk := sk, rng := rng }),
  ("kyber_encaps_derand: ", fun i b => do
    let (ct, key, _) ← (A 17 i).kem.enc_derand b.ct b.key b.pk coins32
    pure { b with ct := ct, key := key }),
  ("kyber_encaps: ", fun i b => do
    let (ct, key, _, rng) ← kemEnc (A 18 i).kem rb b.rng b.ct b.key b.pk
    pure { b with ct := ct, key := key, rng := rng }),
  ("kyber_decaps: ", fun i b => do
    let (key, _) ← (A 19 i).kem.dec b.key b.ct b.sk
    pure { b with key := key })]

/-- One measurement after the other. -/
def timedAll (E : SpEnv) : List (SpTest σ) → SpSt σ → C (SpSt σ)
  | [], s => pure s
  | t :: l, s => do
    let s ← timed E t.1 t.2 s
    timedAll E l s

/-- test_speed.c:19-155 `main`, for given contents of `ct` and `key` at its start. Returns what was written to stdout and stderr and the return value. -/
def speedMain (p : ParamSet) (E : SpEnv) (A : Nat → Nat → SpeedApi) (rb : Rng σ) (st : σ) (ct key : Mem UInt8) : C (List Char × List Char × Int) := do
  let (coins32, st) ← rb st (Mem.uninit UInt8 32) 0 KYBER_SYMBYTES
  let (coins64, st) ← rb st (Mem.uninit UInt8 64) 0 (2 * KYBER_SYMBYTES)
  let s ← timedAll E (polyTests A ++ decTest A :: keypairTest A coins32 :: encTest A :: kemTests A rb coins32 coins64) ⟨⟨st, Mem.uninit UInt8 (KYBER_PUBLICKEYBYTES p), Mem.uninit UInt8 (KYBER_SECRETKEYBYTES p), ct, key, Matrix.uninit p, Poly.uninit⟩,
    Mem.ofList (List.replicate E.nt 0), printSt0⟩
  pure (s.pr.out, s.pr.err, 0)

end Verif.Model
