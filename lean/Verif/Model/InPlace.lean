import Verif.Model.Polyvec

/-! # Arithmetic of ref/poly.c with all arguments in one memory

Verif/Model/Poly.lean gives each argument its own object, also for the calls of the code in which the result is an operand. Here the arguments are offsets into one array of
coefficients, and a write through one pointer is seen by later reads through the others. -/

namespace Verif.Model

/-- ref/poly.c:339-344 `poly_add` with `r`, `a`, `b` pointing to offsets of `X`. -/
def poly_add_in (X : Mem Int16) (r a b : Nat) : C (Mem Int16) :=
  cfor 0 KYBER_N X fun i X => do
    let e ← iadd (← rd X (a + i)).toInt (← rd X (b + i)).toInt
    wr X (r + i) (← i16c e)

/-- ref/poly.c:355-360 `poly_sub` with `r`, `a`, `b` pointing to offsets of `X`. -/
def poly_sub_in (X : Mem Int16) (r a b : Nat) : C (Mem Int16) :=
  cfor 0 KYBER_N X fun i X => do
    let e ← isub (← rd X (a + i)).toInt (← rd X (b + i)).toInt
    wr X (r + i) (← i16c e)

/-- ref/ntt.c:139-146 `basemul` with `r`, `a`, `b` pointing to offsets of `X`. -/
def basemul_in (X : Mem Int16) (r a b : Nat) (zeta : Int16) : C (Mem Int16) := do
  let X ← wr X (r + 0) (← fqmul (← rd X (a + 1)) (← rd X (b + 1)))
  let X ← wr X (r + 0) (← fqmul (← rd X (r + 0)) zeta)
  let t ← fqmul (← rd X (a + 0)) (← rd X (b + 0))
  let e ← iadd (← rd X (r + 0)).toInt t.toInt
  let X ← wr X (r + 0) (← i16c e)
  let X ← wr X (r + 1) (← fqmul (← rd X (a + 0)) (← rd X (b + 1)))
  let t ← fqmul (← rd X (a + 1)) (← rd X (b + 0))
  let e ← iadd (← rd X (r + 1)).toInt t.toInt
  wr X (r + 1) (← i16c e)

/-- ref/poly.c:290-297 `poly_basemul_montgomery` with `r`, `a`, `b` pointing to offsets of `X`. -/
def poly_basemul_montgomery_in (X : Mem Int16) (r a b : Nat) : C (Mem Int16) :=
  cfor 0 (KYBER_N / 4) X fun i X => do
    let X ← basemul_in X (r + 4 * i) (a + 4 * i) (b + 4 * i) (← rd zetas (64 + i))
    let z ← ineg (← rd zetas (64 + i)).toInt
    basemul_in X (r + (4 * i + 2)) (a + (4 * i + 2)) (b + (4 * i + 2)) (← i16c z)

/-- ref/polyvec.c:241-246 `polyvec_add` with `r`, `a`, `b` pointing to offsets of `X`. -/
def polyvec_add_in (p : ParamSet) (X : Mem Int16) (r a b : Nat) : C (Mem Int16) :=
  cfor 0 (KYBER_K p) X fun i X => poly_add_in X (r + 256 * i) (a + 256 * i) (b + 256 * i)

end Verif.Model
