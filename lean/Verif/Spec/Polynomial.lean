import Verif.Spec.Ring
import Mathlib.Algebra.Polynomial.Div

/-! # Specification: coefficient vectors as polynomials over Z_q -/

namespace Verif.Spec

/-- The polynomial with the given 256 coefficients. -/
noncomputable def toPoly (f : Rq) : Polynomial Zq := ∑ i : Fin 256, Polynomial.C (f i) * Polynomial.X ^ i.val

end Verif.Spec
