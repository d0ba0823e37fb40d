import Verif.C.Basic
import Verif.Spec.Ring

/-! # How the objects of the specification are represented in memory -/

namespace Verif.Spec

/-- A polynomial object whose 256 coefficients are `x`. -/
@[irreducible] def polyMem (x : Fin 256 → Int16) : Mem Int16 := Array.ofFn fun i => some (x i)

/-- The ring element represented by 16-bit coefficients: their residues modulo q. -/
def residues (x : Fin 256 → Int16) : Rq := fun i => (((x i).toInt : Int) : Zq)

/-- A vector of `k` polynomial objects. -/
def vecMem (k : Nat) (x : Nat → Fin 256 → Int16) : Array (Mem Int16) := Array.ofFn fun i : Fin k => polyMem (x i.val)

/-- Where the AVX2 code keeps a polynomial in the NTT domain: memory index `m` holds the coefficient with this number. Each block of 128 is
kept as the 16 by 8 matrix transposed. -/
def avxPos (m : Fin 256) : Fin 256 := ⟨128 * (m.val / 128) + 8 * (m.val % 16) + m.val % 128 / 16, by omega⟩

end Verif.Spec
