import Verif.Spec.Fips203

/-! # Specification: the noise of K-PKE decryption

Written from algorithms 13 to 15 of FIPS 203 and the usual correctness argument: decrypting an encryption of `m` yields the encoded message plus the term defined here. -/

namespace Verif.Spec
open Finset

/-- Rounding error of compressing and decompressing. -/
def roundErr (d : Nat) (f : Rq) : Rq := fun i => Decompress d (Compress d (f i)) - f i

/-- The public vector t = A s + e of K-PKE.KeyGen in T_q, from the matrix and the seed of the noise. -/
def publicVec (P : Params) (A : Nat → Nat → Rq) (σ : List UInt8) (i : Nat) : Rq :=
  dotNTT P.k (A i) (fun j => NTT (noise P.η₁ σ j)) + NTT (noise P.η₁ σ (P.k + i))

/-- u of K-PKE.Encrypt -/
def cipherU (P : Params) (A : Nat → Nat → Rq) (r : List UInt8) (i : Nat) : Rq :=
  NTTInv (dotNTT P.k (fun j => A j i) fun j => NTT (noise P.η₁ r j)) + noise P.η₂ r (P.k + i)

/-- v of K-PKE.Encrypt for the public vector `t` -/
def cipherV (P : Params) (t : Nat → Rq) (m r : List UInt8) : Rq :=
  NTTInv (dotNTT P.k t fun j => NTT (noise P.η₁ r j)) + noise P.η₂ r (2 * P.k) + fun i => Decompress 1 (ByteDecode 1 m i)

/-- eᵀ y + e₂ + c_v - sᵀ (e₁ + c_u), products in R_q. -/
def decryptionNoise (P : Params) (A : Nat → Nat → Rq) (σ m r : List UInt8) : Rq :=
  let s := fun i => noise P.η₁ σ i
  let e := fun i => noise P.η₁ σ (P.k + i)
  let y := fun i => noise P.η₁ r i
  let e1 := fun i => noise P.η₂ r (P.k + i)
  let e2 := noise P.η₂ r (2 * P.k)
  let cu := fun i => roundErr P.du (cipherU P A r i)
  let cv := roundErr P.dv (cipherV P (publicVec P A σ) m r)
  ∑ i ∈ range P.k, mulRq (e i) (y i) + e2 + cv - ∑ i ∈ range P.k, mulRq (s i) (e1 i + cu i)

/-- Every coefficient of `f` has a representative in [-832, 831], or [-832, 832] where the message bit is 0: the decoding threshold, about q/4. -/
def WithinThreshold (m : List UInt8) (f : Rq) : Prop :=
  ∀ i, ∃ z : Int, (z : Zq) = f i ∧ -832 ≤ z ∧ z ≤ (if ByteDecode 1 m i = 1 then 831 else 832)

end Verif.Spec
