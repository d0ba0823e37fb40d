import Verif.Spec.Failure

/-! # Specification: decryption failure for a uniform matrix -/

namespace Verif.Spec

/-- The matrix with the given entries (elements of T_q), indexed by natural numbers. -/
def matOf {k : Nat} (A : Fin k → Fin k → Rq) (i j : Nat) : Rq := if h : i < k ∧ j < k then A ⟨i, h.1⟩ ⟨j, h.2⟩ else 0

end Verif.Spec
