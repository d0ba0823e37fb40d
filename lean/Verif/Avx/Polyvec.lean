import Verif.Avx.Poly
import Verif.Model.Polyvec

/-! # Model of avx2/polyvec.c: arithmetic -/

namespace Verif.Avx
open Verif.Model (ParamSet KYBER_K Polyvec Poly.uninit)

/-- avx2/polyvec.c:233-238 `polyvec_ntt`. -/
def polyvec_ntt (p : ParamSet) (r : Polyvec) : C Polyvec :=
  cfor 0 (KYBER_K p) r fun i r => do
    put' r i (← poly_ntt (← at' r i))

/-- avx2/polyvec.c:248-253 `polyvec_invntt_tomont`. -/
def polyvec_invntt_tomont (p : ParamSet) (r : Polyvec) : C Polyvec :=
  cfor 0 (KYBER_K p) r fun i r => do
    put' r i (← poly_invntt_tomont (← at' r i))

/-- avx2/polyvec.c:264-275 `polyvec_basemul_acc_montgomery`. -/
def polyvec_basemul_acc_montgomery (p : ParamSet) (r : Mem Int16) (a b : Polyvec) : C (Mem Int16) := do
  let r ← poly_basemul_montgomery r (← at' a 0) (← at' b 0)
  let (r, _) ← cfor 1 (KYBER_K p) (r, Poly.uninit) fun i (r, tmp) => do
    let tmp ← poly_basemul_montgomery tmp (← at' a i) (← at' b i)
    let r ← poly_add r tmp
    pure (r, tmp)
  pure r

/-- avx2/polyvec.c:286-291 `polyvec_reduce`. -/
def polyvec_reduce (p : ParamSet) (r : Polyvec) : C Polyvec :=
  cfor 0 (KYBER_K p) r fun i r => do
    put' r i (← poly_reduce (← at' r i))

/-- avx2/polyvec.c:302-307 `polyvec_add` for the calls `polyvec_add(&r, &r, &b)`, the only form used (avx2/indcpa.c:460,519). -/
def polyvec_add (p : ParamSet) (r b : Polyvec) : C Polyvec :=
  cfor 0 (KYBER_K p) r fun i r => do
    put' r i (← poly_add (← at' r i) (← at' b i))

end Verif.Avx
