import Mathlib.Data.ZMod.Basic
import Mathlib.Algebra.BigOperators.Group.Finset.Basic
import Mathlib.Data.Fintype.BigOperators

/-! # Specification: the ring R_q and the number-theoretic transform (FIPS 203, sections 2.3 and 4.3)

Written from the standard, independent of the code. -/

namespace Verif.Spec

/-- Integers modulo q = 3329. -/
abbrev Zq := ZMod 3329

/-- Elements of R_q = Z_q[X]/(X^256 + 1), and also of T_q: 256 coefficients. -/
abbrev Rq := Fin 256 → Zq

/-- BitRev_7 (FIPS 203, section 4.3): reverse the order of the seven low bits. -/
def bitRev7 (i : Nat) : Nat :=
  64 * (i % 2) + 32 * (i / 2 % 2) + 16 * (i / 4 % 2) + 8 * (i / 8 % 2) + 4 * (i / 16 % 2) + 2 * (i / 32 % 2) + i / 64 % 2

/-- The primitive 256-th root of unity. -/
def ζ : Zq := 17

/-- The i-th modulus of T_q is X^2 - `root i`, `root i = ζ^(2 BitRev_7(i) + 1)`. -/
def root (i : Nat) : Zq := ζ ^ (2 * bitRev7 i + 1)

/-- The NTT: f̂[2i] + f̂[2i+1] X is the residue of f modulo X^2 - root i. Since X^(2j) = (root i)^j modulo it,
f̂[2i + e] is the sum over j of f[2j + e] (root i)^j. -/
def NTT (f : Rq) : Rq := fun i =>
  ∑ j : Fin 128, f ⟨2 * j.val + i.val % 2, by omega⟩ * root (i.val / 2) ^ j.val

/-- The inverse NTT: f[2j + e] = 128^-1 times the sum over i of f̂[2i + e] (root i)^(-j). (128^-1 = 3303; root i has order dividing 256.) -/
def NTTInv (g : Rq) : Rq := fun j =>
  3303 * ∑ i : Fin 128, g ⟨2 * i.val + j.val % 2, by omega⟩ * root i ^ (256 - j.val / 2)

/-- Multiplication in T_q: componentwise product of the residues modulo X^2 - root i (FIPS 203, algorithms 11 and 12). -/
def MultiplyNTTs (f g : Rq) : Rq := fun k =>
  let i := k.val / 2
  let a0 := f ⟨2 * i, by omega⟩
  let a1 := f ⟨2 * i + 1, by omega⟩
  let b0 := g ⟨2 * i, by omega⟩
  let b1 := g ⟨2 * i + 1, by omega⟩
  if k.val % 2 = 0 then a0 * b0 + a1 * b1 * root i else a0 * b1 + a1 * b0

/-- Inner product of vectors of `k` elements of T_q (FIPS 203, section 2.4.7). -/
def dotNTT (k : Nat) (f g : Nat → Rq) : Rq := fun i => ∑ j ∈ Finset.range k, MultiplyNTTs (f j) (g j) i

/-- Multiplication in R_q: the negacyclic convolution. -/
def mulRq (f g : Rq) : Rq := fun k =>
  ∑ i : Fin 256, ∑ j : Fin 256,
    if i.val + j.val = k.val then f i * g j
    else if i.val + j.val = k.val + 256 then - (f i * g j)
    else 0

end Verif.Spec
