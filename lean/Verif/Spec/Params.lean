import Verif.Model.Params

/-! # Specification: parameter sets of FIPS 203 (section 8, table 2) -/

namespace Verif.Spec

structure Params where
  k : Nat
  η₁ : Nat
  η₂ : Nat
  du : Nat
  dv : Nat
  deriving DecidableEq, Repr

def ML_KEM_512 : Params := ⟨2, 3, 2, 10, 4⟩
def ML_KEM_768 : Params := ⟨3, 2, 2, 10, 4⟩
def ML_KEM_1024 : Params := ⟨4, 2, 2, 11, 5⟩

/-- The parameter set that compiling with `KYBER_K` = 2, 3, 4 is meant to implement. -/
def fips : Model.ParamSet → Params
  | .k2 => ML_KEM_512
  | .k3 => ML_KEM_768
  | .k4 => ML_KEM_1024

end Verif.Spec
