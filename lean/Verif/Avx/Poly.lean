import Verif.Avx.Call
import Verif.Avx.Intrin

/-! # avx2/poly.c: functions that call the assembly code, addition and subtraction -/

namespace Verif.Avx

/-- avx2/poly.c:400-403, with the constants of avx2/consts.c -/
@[irreducible] def poly_ntt (r : Mem Int16) : C (Mem Int16) := callPoly [0] ntt_avx r [tabObj qdata]

/-- avx2/poly.c:417-420 -/
@[irreducible] def poly_invntt_tomont (r : Mem Int16) : C (Mem Int16) := callPoly [0] invntt_avx r [tabObj qdata]

/-- avx2/poly.c:422-425 -/
@[irreducible] def poly_nttunpack (r : Mem Int16) : C (Mem Int16) := callPoly [0] nttunpack_avx r [tabObj qdata]

/-- avx2/poly.c:439-442. Object 4 is the stack slot of 32 bytes that the assembly code reserves (basemul.S:86-91). The output must not
overlap the inputs; no caller violates this. -/
@[irreducible] def poly_basemul_montgomery (r a b : Mem Int16) : C (Mem Int16) :=
  callPoly [0, 4] basemul_avx r [polyObj a, polyObj b, tabObj qdata, stackObj 16]

/-- avx2/poly.c:452-455 -/
@[irreducible] def poly_tomont (r : Mem Int16) : C (Mem Int16) := callPoly [0] tomont_avx r [tabObj qdata]

/-- avx2/poly.c:465-468 -/
@[irreducible] def poly_reduce (r : Mem Int16) : C (Mem Int16) := callPoly [0] reduce_avx r [tabObj qdata]

/-- avx2/poly.c:480-491 for the calls `poly_add(&r, &r, &b)`, the only form used (avx2/indcpa.c:460,519-521, avx2/polyvec.c:273) -/
@[irreducible] def poly_add (r b : Mem Int16) : C (Mem Int16) := callPoly [0] (poly_add_prog 0 1) r [polyObj b]

/-- avx2/poly.c:503-514 for the call `poly_sub(&r, &a, &r)`, the only form used (avx2/indcpa.c:555) -/
@[irreducible] def poly_sub (r a : Mem Int16) : C (Mem Int16) := callPoly [0] (poly_sub_prog 1 0) r [polyObj a]

end Verif.Avx
