import Verif.Spec.Noise

/-! # Specification: decryption failure for independent noise

The noise of K-PKE decryption as a function of the five sampled vectors, and the vectors as functions of independent byte strings in place of the outputs of the PRF. -/

namespace Verif.Spec
open Finset

/-- eᵀ y + e₂ + c_v - sᵀ (e₁ + c_u) for given s, e, y, e₁, e₂, where c_u and c_v are the rounding errors of the compression of u = Aᵀ y + e₁ and
v = tᵀ y + e₂ + m with t = A s + e. -/
def noiseTerm (P : Params) (A : Nat → Nat → Rq) (m : List UInt8) (s e y e1 : Nat → Rq) (e2 : Rq) : Rq :=
  let t := fun i => dotNTT P.k (A i) (fun j => NTT (s j)) + NTT (e i)
  let u := fun i => NTTInv (dotNTT P.k (fun j => A j i) fun j => NTT (y j)) + e1 i
  let v := NTTInv (dotNTT P.k t fun j => NTT (y j)) + e2 + fun i => Decompress 1 (ByteDecode 1 m i)
  ∑ i ∈ range P.k, mulRq (e i) (y i) + e2 + roundErr P.dv v - ∑ i ∈ range P.k, mulRq (s i) (e1 i + roundErr P.du (u i))

/-- Byte strings for the noise: those of s, e, y (each `k` strings of 64 η₁ bytes), e₁ (`k` strings of 64 η₂ bytes) and e₂ (64 η₂ bytes). -/
structure NoiseBytes (P : Params) where
  s : Fin P.k → Fin (64 * P.η₁) → Fin 256
  e : Fin P.k → Fin (64 * P.η₁) → Fin 256
  y : Fin P.k → Fin (64 * P.η₁) → Fin 256
  e1 : Fin P.k → Fin (64 * P.η₂) → Fin 256
  e2 : Fin (64 * P.η₂) → Fin 256

/-- The polynomials sampled from `k` strings. -/
def cbdVec {k n : Nat} (η : Nat) (b : Fin k → Fin n → Fin 256) (i : Nat) : Rq :=
  if h : i < k then SamplePolyCBD η (List.ofFn fun j => UInt8.ofNat (b ⟨i, h⟩ j).val) else 0

/-- The noise for these byte strings. -/
def noiseOf (P : Params) (A : Nat → Nat → Rq) (m : List UInt8) (b : NoiseBytes P) : Rq :=
  noiseTerm P A m (cbdVec P.η₁ b.s) (cbdVec P.η₁ b.e) (cbdVec P.η₁ b.y) (cbdVec P.η₂ b.e1)
    (SamplePolyCBD P.η₂ (List.ofFn fun j => UInt8.ofNat (b.e2 j).val))

end Verif.Spec
