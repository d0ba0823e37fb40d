import Verif.Avx.GenW

/-! # avx2/rejsample.c with `BMI` defined

The variant of `rej_uniform_avx` that the `#ifdef BMI` branches give: the shuffle masks are computed with the bit deposit and extract instructions of BMI2 instead of being read from the table `idx`.
(The `#define` is commented out in the source, rejsample.c:8; a user may enable it.) The other statements are those of `Verif.Avx.RejSample`. -/

namespace Verif.Avx
open Verif.Model (ParamSet Poly Polyvec KYBER_Q KYBER_N)

/-- `_pdep_u64`: the low bits of `x`, put at the positions of the ones of the mask. First argument: number of bits left. -/
def pdep : Nat → Nat → Nat → Nat
  | 0, _, _ => 0
  | n + 1, x, m => if m % 2 = 1 then x % 2 + 2 * pdep n (x / 2) (m / 2) else 2 * pdep n x (m / 2)

/-- rejsample.c:319-326 and 371-372: `idx0 = (idx0 << 8) - idx0; idx0 = _pext_u64(0x0E0C0A0806040200, idx0);` in 64-bit arithmetic. -/
def bmiMask (idx0 : Nat) : Nat := pext 64 0x0E0C0A0806040200 (((idx0 <<< 8) % 2 ^ 64 + 2 ^ 64 - idx0) % 2 ^ 64)

/-- `_mm_cvtsi64_si128`: the number in the lower half, zeros in the upper half. -/
def cvtsi64 (x : Nat) : List W := ((List.range 4).map fun i => BitVec.ofNat 16 (x >>> (16 * i))) ++ [0, 0, 0, 0]

/-- rejsample.c:294-354 with `BMI`, the body of the first loop. The mask `good >> 8 i` is not cut to eight bits; `_pdep_u64` uses eight. -/
def rejBody32Bmi (r : Poly) (ctr pos : Nat) (buf : Mem UInt8) : C (Poly × Nat × Nat) := do
  let f0 ← words16 buf pos
  let f1 ← words16 buf (pos + 24)
  let pos := pos + 48
  let g0 ← vop (.lw .cmpgt) [bound, f0] 16
  let g1 ← vop (.lw .cmpgt) [bound, f1] 16
  let g0 ← vop .packsswb [g0, g1] 16
  let m ← vop .pmovmskb [g0] 2
  let good := (cat32 (m.getD 0 0) (m.getD 1 0)).toNat
  let idx0 := pdep 64 (good >>> 0) 0x0101010101010101
  let idx1 := pdep 64 (good >>> 8) 0x0101010101010101
  let idx2 := pdep 64 (good >>> 16) 0x0101010101010101
  let idx3 := pdep 64 (good >>> 24) 0x0101010101010101
  let g0 ← vop (.perm2i128 0x20) [cvtsi64 (bmiMask idx0), cvtsi64 (bmiMask idx2)] 16
  let g1 ← vop (.perm2i128 0x20) [cvtsi64 (bmiMask idx1), cvtsi64 (bmiMask idx3)] 16
  let f0 ← select16 f0 g0
  let f1 ← select16 f1 g1
  let r ← storeWords r ctr (← vop .lowhalf [f0] 8)
  let ctr := ctr + popcnt ((good >>> 0) &&& 0xFF)
  let r ← storeWords r ctr (← vop .highhalf [f0] 8)
  let ctr := ctr + popcnt ((good >>> 16) &&& 0xFF)
  let r ← storeWords r ctr (← vop .lowhalf [f1] 8)
  let ctr := ctr + popcnt ((good >>> 8) &&& 0xFF)
  let r ← storeWords r ctr (← vop .highhalf [f1] 8)
  let ctr := ctr + popcnt ((good >>> 24) &&& 0xFF)
  pure (r, ctr, pos)

/-- rejsample.c:358-383 with `BMI`, the body of the second loop. -/
def rejBody8Bmi (r : Poly) (ctr pos : Nat) (buf : Mem UInt8) : C (Poly × Nat × Nat) := do
  let f ← loadWords buf pos 8
  let f ← vop .pshufb [f, idx8.take 8] 8
  let t ← vop (.lw (.srl 4)) [f] 8
  let f ← vop (.blendw 0xAA) [f, t] 8
  let f ← vop (.lw .and) [f, mask12.take 8] 8
  let pos := pos + 12
  let t ← vop (.lw .cmpgt) [bound.take 8, f] 8
  let m ← vop .pmovmskb [t] 1
  let good := (m.getD 0 0).toNat &&& 0x5555
  let idx0 := pdep 64 good 0x1111111111111111
  let pilo := cvtsi64 (bmiMask idx0)
  let pihi ← vop (.lw .add8) [pilo, ones.take 8] 8
  let pilo ← vop .unpcklbw [pilo, pihi] 8
  let f ← vop .pshufb [f, pilo] 8
  let r ← storeWords r ctr f
  pure (r, ctr + popcnt good, pos)

/-- avx2/rejsample.c:274-398 `rej_uniform_avx` with `BMI`. -/
def rej_uniform_avx_bmi (r : Poly) (buf : Mem UInt8) : C (Poly × Nat) := do
  let s ← cwhile (REJ_UNIFORM_AVX_BUFLEN + 1)
    (fun (s : Poly × Nat × Nat) => decide (s.2.1 ≤ KYBER_N - 32) && decide (s.2.2 ≤ REJ_UNIFORM_AVX_BUFLEN - 56))
    (fun (r, ctr, pos) => rejBody32Bmi r ctr pos buf)
    (r, 0, 0)
  let s ← cwhile (REJ_UNIFORM_AVX_BUFLEN + 1)
    (fun (s : Poly × Nat × Nat) => decide (s.2.1 ≤ KYBER_N - 8) && decide (s.2.2 ≤ REJ_UNIFORM_AVX_BUFLEN - 16))
    (fun (r, ctr, pos) => rejBody8Bmi r ctr pos buf)
    s
  let s ← cwhile (REJ_UNIFORM_AVX_BUFLEN + 1)
    (fun (s : Poly × Nat × Nat) => decide (s.2.1 < KYBER_N) && decide (s.2.2 ≤ REJ_UNIFORM_AVX_BUFLEN - 3))
    (fun (r, ctr, pos) => rejBody1 r ctr pos buf)
    s
  pure (s.1, s.2.1)

/-- `gen_matrix` of avx2/indcpa.c linked with it. -/
def gen_matrix_bmi (p : ParamSet) (junk : Fin 4 → Nat → UInt8) (fuel : Nat) (a : Array Polyvec) (seed : Mem UInt8) (so : Nat) (transposed : Bool) : C (Array Polyvec) :=
  gen_matrixW rej_uniform_avx_bmi p junk fuel a seed so transposed

end Verif.Avx
