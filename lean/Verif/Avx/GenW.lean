import Verif.Avx.Indcpa

/-! # The expansion of the matrix with any vectorised rejection sampling

`gen_matrix` and its parts with the function `rej_uniform_avx` as a parameter: the `#ifdef BMI` variant of rejsample.c takes its place in `Verif.Avx.RejBmi`. The theorems at the end say that with
`rej_uniform_avx` these are the functions of `Verif.Avx.Indcpa`, which cite the source. -/

namespace Verif.Avx
open Verif.Model (ParamSet KYBER_K KYBER_N Poly Polyvec SHAKE128_RATE KeccakState KeccakState.uninit shake128_absorb_once shake128_squeezeblocks)

/-- The type of `rej_uniform_avx`. -/
abbrev Rej := Poly → Mem UInt8 → C (Poly × Nat)

def gen_batchW (rej : Rej) (junk : Fin 4 → Nat → UInt8) (fuel : Nat) (transposed : Bool) (s : Array Polyvec × M4 × Mem V4) (seed : Mem UInt8) (so : Nat)
    (pos : Fin 4 → Nat × Nat) (tt nt : Fin 4 → UInt8 × UInt8) : C (Array Polyvec × M4 × Mem V4) := do
  let (a, buf, state) := s
  let f ← loadu seed so
  let buf ← each4 fun j => storeu (buf j) 0 f
  let buf ← cif transposed
    (each4 fun j => do
      let b ← wr (buf j) 32 (tt j).1
      wr b 33 (tt j).2)
    (each4 fun j => do
      let b ← wr (buf j) 32 (nt j).1
      wr b 33 (nt j).2)
  let state ← shake128x4_absorb_once junk state buf 34
  let (buf, state) ← shake128x4_squeezeblocks buf 0 REJ_UNIFORM_AVX_NBLOCKS state
  let r ← each4 fun j => do rej (← getM a (pos j)) (buf j)
  let (r, buf, state) ← cwhile fuel
    (fun (s : (Fin 4 → Poly × Nat) × M4 × Mem V4) =>
      decide ((s.1 0).2 < KYBER_N) || decide ((s.1 1).2 < KYBER_N) || decide ((s.1 2).2 < KYBER_N) || decide ((s.1 3).2 < KYBER_N))
    (fun (r, buf, state) => do
      let (buf, state) ← shake128x4_squeezeblocks buf 0 1 state
      let r ← each4 fun j => do
        let (q, n) ← rej_uniform (r j).1 (r j).2 (KYBER_N - (r j).2) (buf j) SHAKE128_RATE
        pure (q, (r j).2 + n)
      pure (r, buf, state))
    (r, buf, state)
  let q ← each4 fun j => poly_nttunpack (r j).1
  let a ← putM a (pos 0) (q 0)
  let a ← putM a (pos 1) (q 1)
  let a ← putM a (pos 2) (q 2)
  let a ← putM a (pos 3) (q 3)
  pure (a, buf, state)

def gen_lastW (rej : Rej) (fuel : Nat) (a : Array Polyvec) (buf0 : Mem UInt8) (seed : Mem UInt8) (so : Nat) : C (Array Polyvec) := do
  let f ← loadu seed so
  let buf0 ← storeu buf0 0 f
  let buf0 ← wr buf0 32 2
  let buf0 ← wr buf0 33 2
  let state1x ← shake128_absorb_once KeccakState.uninit buf0 0 34
  let (buf0, state1x) ← shake128_squeezeblocks buf0 0 REJ_UNIFORM_AVX_NBLOCKS state1x
  let (q, ctr0) ← rej (← getM a (2, 2)) buf0
  let s ← cwhile fuel
    (fun (s : Poly × Nat × Mem UInt8 × KeccakState) => decide (s.2.1 < KYBER_N))
    (fun (q, ctr0, buf0, state1x) => do
      let (buf0, state1x) ← shake128_squeezeblocks buf0 0 1 state1x
      let (q, n) ← rej_uniform q ctr0 (KYBER_N - ctr0) buf0 SHAKE128_RATE
      pure (q, ctr0 + n, buf0, state1x))
    (q, ctr0, buf0, state1x)
  let q ← poly_nttunpack s.1
  putM a (2, 2) q

def gen_matrixW (rej : Rej) (p : ParamSet) (junk : Fin 4 → Nat → UInt8) (fuel : Nat) (a : Array Polyvec) (seed : Mem UInt8) (so : Nat) (transposed : Bool) :
    C (Array Polyvec) := do
  let s := (a, (fun _ => Mem.uninit UInt8 (REJ_UNIFORM_AVX_NBLOCKS * SHAKE128_RATE) : M4), Mem.uninit V4 25)
  match p with
  | .k2 => do
    let s ← gen_batchW rej junk fuel transposed s seed so (q4 (0, 0) (0, 1) (1, 0) (1, 1))
      (q4 (0, 0) (0, 1) (1, 0) (1, 1)) (q4 (0, 0) (1, 0) (0, 1) (1, 1))
    pure s.1
  | .k3 => do
    let s ← gen_batchW rej junk fuel transposed s seed so (q4 (0, 0) (0, 1) (0, 2) (1, 0))
      (q4 (0, 0) (0, 1) (0, 2) (1, 0)) (q4 (0, 0) (1, 0) (2, 0) (0, 1))
    let s ← gen_batchW rej junk fuel transposed s seed so (q4 (1, 1) (1, 2) (2, 0) (2, 1))
      (q4 (1, 1) (1, 2) (2, 0) (2, 1)) (q4 (1, 1) (2, 1) (0, 2) (1, 2))
    gen_lastW rej fuel s.1 (s.2.1 0) seed so
  | .k4 => do
    let s ← cfor 0 4 s fun i s =>
      gen_batchW rej junk fuel transposed s seed so (q4 (i, 0) (i, 1) (i, 2) (i, 3))
        (q4 (UInt8.ofNat i, 0) (UInt8.ofNat i, 1) (UInt8.ofNat i, 2) (UInt8.ofNat i, 3))
        (q4 (0, UInt8.ofNat i) (1, UInt8.ofNat i) (2, UInt8.ofNat i) (3, UInt8.ofNat i))
    pure s.1

theorem gen_batchW_avx : gen_batchW rej_uniform_avx = gen_batch := rfl
theorem gen_lastW_avx : gen_lastW rej_uniform_avx = gen_last := rfl
theorem gen_matrixW_avx : gen_matrixW rej_uniform_avx = gen_matrix := rfl

end Verif.Avx
