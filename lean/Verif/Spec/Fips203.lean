import Verif.Spec.Encode
import Verif.Spec.Params
import Verif.Spec.Fips202

/-! # Specification: K-PKE and ML-KEM (FIPS 203, sections 4.1, 4.2.2, 5, 6)

Written from the standard, independent of the code. Byte strings are lists of bytes.

The loop of SampleNTT is unbounded in the standard. Here every algorithm that calls it takes a bound `N` on the number of iterations (3 bytes of XOF output
each) and returns `none` if some entry needs more, as permitted by FIPS 203, appendix B (which asks for N ≥ 280). -/

namespace Verif.Spec

/-! ## Section 4.1: hash functions -/

def G (M : List UInt8) : List UInt8 × List UInt8 := ((SHA3_512 M).take 32, (SHA3_512 M).drop 32)
def H (M : List UInt8) : List UInt8 := SHA3_256 M
def J (M : List UInt8) : List UInt8 := SHAKE256 M 32
/-- PRF_η(s, b) -/
def PRF (η : Nat) (s : List UInt8) (b : UInt8) : List UInt8 := SHAKE256 (s ++ [b]) (64 * η)

/-! ## Section 4.2.2: SampleNTT -/

/-- Lines 6 to 16 of algorithm 7: one iteration on the bytes `C0 C1 C2`, given the coefficients `a[0], ..., a[j-1]` found so far. -/
def sampleStep (a : List Nat) (C0 C1 C2 : UInt8) : List Nat :=
  let d1 := C0.toNat + 256 * (C1.toNat % 16)
  let d2 := C1.toNat / 16 + 16 * C2.toNat
  let a := if d1 < 3329 then a ++ [d1] else a
  if d2 < 3329 ∧ a.length < 256 then a ++ [d2] else a

/-- The loop `while j < 256` of algorithm 7 on the XOF output `X`, with `n` more iterations allowed, `3 i` bytes consumed and the coefficients `a` found. -/
def sampleLoop (X : List UInt8) : (n i : Nat) → (a : List Nat) → Option (List Nat)
  | n, i, a =>
    if a.length < 256 then
      match n with
      | 0 => none
      | n + 1 => sampleLoop X n (i + 1) (sampleStep a (X.getD (3 * i) 0) (X.getD (3 * i + 1) 0) (X.getD (3 * i + 2) 0))
    else some a

/-- SampleNTT (algorithm 7) with at most `N` iterations, on the 34 bytes `B`. The XOF is SHAKE128. -/
def SampleNTT (N : Nat) (B : List UInt8) : Option Rq :=
  (sampleLoop (SHAKE128 B (3 * N)) N 0 []).map fun a i => ((a.getD i.val 0 : Nat) : Zq)

/-! ## Section 5: K-PKE. Vectors and matrices are indexed by natural numbers below k. -/

/-- The bytes `B[a : b]`. -/
def bytes (B : List UInt8) (a b : Nat) : List UInt8 := (B.drop a).take (b - a)

/-- The concatenation of `f 0, ..., f (k-1)`. -/
def concat (k : Nat) (f : Nat → List UInt8) : List UInt8 := (List.range k).flatMap f

/-- Algorithm 13, lines 3 to 7, and algorithm 14, lines 4 to 8: the matrix Â, `Â i j = SampleNTT(ρ ‖ j ‖ i)`. -/
def ExpandA (k N : Nat) (ρ : List UInt8) : Option (Nat → Nat → Rq) :=
  if ∀ i < k, ∀ j < k, (SampleNTT N (ρ ++ [UInt8.ofNat j, UInt8.ofNat i])).isSome then
    some fun i j => (SampleNTT N (ρ ++ [UInt8.ofNat j, UInt8.ofNat i])).getD 0
  else none

/-- SamplePolyCBD_η(PRF_η(σ, n)) -/
def noise (η : Nat) (σ : List UInt8) (n : Nat) : Rq := SamplePolyCBD η (PRF η σ (UInt8.ofNat n))

/-- K-PKE.KeyGen (algorithm 13): (ek, dk) from d. -/
def K_PKE_KeyGen (P : Params) (N : Nat) (d : List UInt8) : Option (List UInt8 × List UInt8) := do
  let (ρ, σ) := G (d ++ [UInt8.ofNat P.k])
  let A ← ExpandA P.k N ρ
  let s := fun i => noise P.η₁ σ i
  let e := fun i => noise P.η₁ σ (P.k + i)
  let s' := fun i => NTT (s i)
  let e' := fun i => NTT (e i)
  let t' := fun i => dotNTT P.k (A i) s' + e' i
  let ek := concat P.k (fun i => ByteEncode12 (t' i)) ++ ρ
  let dk := concat P.k (fun i => ByteEncode12 (s' i))
  pure (ek, dk)

/-- K-PKE.Encrypt (algorithm 14). -/
def K_PKE_Encrypt (P : Params) (N : Nat) (ek m r : List UInt8) : Option (List UInt8) := do
  let t' := fun i => ByteDecode12 (bytes ek (384 * i) (384 * (i + 1)))
  let ρ := bytes ek (384 * P.k) (384 * P.k + 32)
  let A ← ExpandA P.k N ρ
  let y := fun i => noise P.η₁ r i
  let e1 := fun i => noise P.η₂ r (P.k + i)
  let e2 := noise P.η₂ r (2 * P.k)
  let y' := fun i => NTT (y i)
  let u := fun i => NTTInv (dotNTT P.k (fun j => A j i) y') + e1 i
  let μ : Rq := fun i => Decompress 1 (ByteDecode 1 m i)
  let v := NTTInv (dotNTT P.k t' y') + e2 + μ
  let c1 := concat P.k fun i => ByteEncode P.du fun j => Compress P.du (u i j)
  let c2 := ByteEncode P.dv fun j => Compress P.dv (v j)
  pure (c1 ++ c2)

/-- K-PKE.Decrypt (algorithm 15). -/
def K_PKE_Decrypt (P : Params) (dk c : List UInt8) : List UInt8 :=
  let c1 := bytes c 0 (32 * P.du * P.k)
  let c2 := bytes c (32 * P.du * P.k) (32 * (P.du * P.k + P.dv))
  let u : Nat → Rq := fun i j => Decompress P.du (ByteDecode P.du (bytes c1 (32 * P.du * i) (32 * P.du * (i + 1))) j)
  let v : Rq := fun j => Decompress P.dv (ByteDecode P.dv c2 j)
  let s' := fun i => ByteDecode12 (bytes dk (384 * i) (384 * (i + 1)))
  let w := v - NTTInv (dotNTT P.k s' fun i => NTT (u i))
  ByteEncode 1 fun i => Compress 1 (w i)

/-! ## Section 6: ML-KEM, internal algorithms -/

/-- ML-KEM.KeyGen_internal (algorithm 16): (ek, dk) from d, z. -/
def KeyGen_internal (P : Params) (N : Nat) (d z : List UInt8) : Option (List UInt8 × List UInt8) := do
  let (ek, dk) ← K_PKE_KeyGen P N d
  pure (ek, dk ++ ek ++ H ek ++ z)

/-- ML-KEM.Encaps_internal (algorithm 17): (K, c) from ek, m. -/
def Encaps_internal (P : Params) (N : Nat) (ek m : List UInt8) : Option (List UInt8 × List UInt8) := do
  let (K, r) := G (m ++ H ek)
  let c ← K_PKE_Encrypt P N ek m r
  pure (K, c)

/-- ML-KEM.Decaps_internal (algorithm 18): K from dk, c. -/
def Decaps_internal (P : Params) (N : Nat) (dk c : List UInt8) : Option (List UInt8) := do
  let dkPKE := bytes dk 0 (384 * P.k)
  let ekPKE := bytes dk (384 * P.k) (768 * P.k + 32)
  let h := bytes dk (768 * P.k + 32) (768 * P.k + 64)
  let z := bytes dk (768 * P.k + 64) (768 * P.k + 96)
  let m' := K_PKE_Decrypt P dkPKE c
  let (K', r') := G (m' ++ h)
  let K'' := J (z ++ c)
  let c' ← K_PKE_Encrypt P N ekPKE m' r'
  pure (if c = c' then K' else K'')

end Verif.Spec
