import Verif.Spec.Fips203

/-! # Specification: ML-KEM with any function in the place of KECCAK

The algorithms of FIPS 203 as in Fips203.lean, with a function `O c N d` for `KECCAK[c](N, d)` of FIPS 202, and the inputs on which they call it. -/

set_option autoImplicit false

namespace Verif.Spec.Oracle

/-- In the place of KECCAK: capacity, bits, number of bits of the result. -/
abbrev Sponge := Nat → List Bool → Nat → List Bool

variable (O : Sponge)

def SHA3_256 (M : List UInt8) : List UInt8 := b2h (O 512 (h2b M ++ [false, true]) 256)
def SHA3_512 (M : List UInt8) : List UInt8 := b2h (O 1024 (h2b M ++ [false, true]) 512)
def SHAKE128 (M : List UInt8) (n : Nat) : List UInt8 := b2h (O 256 (h2b M ++ [true, true, true, true]) (8 * n))
def SHAKE256 (M : List UInt8) (n : Nat) : List UInt8 := b2h (O 512 (h2b M ++ [true, true, true, true]) (8 * n))

def G (M : List UInt8) : List UInt8 × List UInt8 := ((SHA3_512 O M).take 32, (SHA3_512 O M).drop 32)
def H (M : List UInt8) : List UInt8 := SHA3_256 O M
def J (M : List UInt8) : List UInt8 := SHAKE256 O M 32
def PRF (η : Nat) (s : List UInt8) (b : UInt8) : List UInt8 := SHAKE256 O (s ++ [b]) (64 * η)

def SampleNTT (N : Nat) (B : List UInt8) : Option Rq :=
  (sampleLoop (SHAKE128 O B (3 * N)) N 0 []).map fun a i => ((a.getD i.val 0 : Nat) : Zq)

def ExpandA (k N : Nat) (ρ : List UInt8) : Option (Nat → Nat → Rq) :=
  if ∀ i < k, ∀ j < k, (SampleNTT O N (ρ ++ [UInt8.ofNat j, UInt8.ofNat i])).isSome then
    some fun i j => (SampleNTT O N (ρ ++ [UInt8.ofNat j, UInt8.ofNat i])).getD 0
  else none

def noise (η : Nat) (σ : List UInt8) (n : Nat) : Rq := SamplePolyCBD η (PRF O η σ (UInt8.ofNat n))

/-- K-PKE.KeyGen (algorithm 13). -/
def K_PKE_KeyGen (P : Params) (N : Nat) (d : List UInt8) : Option (List UInt8 × List UInt8) := do
  let (ρ, σ) := G O (d ++ [UInt8.ofNat P.k])
  let A ← ExpandA O P.k N ρ
  let s := fun i => noise O P.η₁ σ i
  let e := fun i => noise O P.η₁ σ (P.k + i)
  let s' := fun i => NTT (s i)
  let e' := fun i => NTT (e i)
  let t' := fun i => dotNTT P.k (A i) s' + e' i
  let ek := concat P.k (fun i => ByteEncode12 (t' i)) ++ ρ
  let dk := concat P.k (fun i => ByteEncode12 (s' i))
  pure (ek, dk)

/-- K-PKE.Encrypt (algorithm 14). -/
def K_PKE_Encrypt (P : Params) (N : Nat) (ek m r : List UInt8) : Option (List UInt8) := do
  let t' := fun i => ByteDecode12 (bytes ek (384 * i) (384 * (i + 1)))
  let ρ := bytes ek (384 * P.k) (384 * P.k + 32)
  let A ← ExpandA O P.k N ρ
  let y := fun i => noise O P.η₁ r i
  let e1 := fun i => noise O P.η₂ r (P.k + i)
  let e2 := noise O P.η₂ r (2 * P.k)
  let y' := fun i => NTT (y i)
  let u := fun i => NTTInv (dotNTT P.k (fun j => A j i) y') + e1 i
  let μ : Rq := fun i => Decompress 1 (ByteDecode 1 m i)
  let v := NTTInv (dotNTT P.k t' y') + e2 + μ
  let c1 := concat P.k fun i => ByteEncode P.du fun j => Compress P.du (u i j)
  let c2 := ByteEncode P.dv fun j => Compress P.dv (v j)
  pure (c1 ++ c2)

/-- ML-KEM.KeyGen_internal (algorithm 16). -/
def KeyGen_internal (P : Params) (N : Nat) (d z : List UInt8) : Option (List UInt8 × List UInt8) := do
  let (ek, dk) ← K_PKE_KeyGen O P N d
  pure (ek, dk ++ ek ++ H O ek ++ z)

/-- ML-KEM.Encaps_internal (algorithm 17). -/
def Encaps_internal (P : Params) (N : Nat) (ek m : List UInt8) : Option (List UInt8 × List UInt8) := do
  let (K, r) := G O (m ++ H O ek)
  let c ← K_PKE_Encrypt O P N ek m r
  pure (K, c)

/-- ML-KEM.Decaps_internal (algorithm 18). -/
def Decaps_internal (P : Params) (N : Nat) (dk c : List UInt8) : Option (List UInt8) := do
  let dkPKE := bytes dk 0 (384 * P.k)
  let ekPKE := bytes dk (384 * P.k) (768 * P.k + 32)
  let h := bytes dk (768 * P.k + 32) (768 * P.k + 64)
  let z := bytes dk (768 * P.k + 64) (768 * P.k + 96)
  let m' := K_PKE_Decrypt P dkPKE c
  let (K', r') := G O (m' ++ h)
  let K'' := J O (z ++ c)
  let c' ← K_PKE_Encrypt O P N ekPKE m' r'
  pure (if c = c' then K' else K'')

/-! ## The calls -/

/-- What ML-KEM calls KECCAK for. -/
inductive Query
  /-- G(d ‖ k) of key generation -/
  | seed (k : Nat) (d : List UInt8)
  /-- G(m ‖ h) of encapsulation and decapsulation -/
  | coins (m h : List UInt8)
  /-- H(ek) -/
  | keyHash (ek : List UInt8)
  /-- J(z ‖ c) -/
  | reject (z c : List UInt8)
  /-- XOF(ρ ‖ j ‖ i) for entry i, j of the matrix -/
  | entry (ρ : List UInt8) (i j : Nat)
  /-- PRF(s, n) -/
  | noise (s : List UInt8) (n : Nat)
  deriving DecidableEq

/-- The capacity and the bits that the query gives to KECCAK. -/
def Query.input : Query → Nat × List Bool
  | .seed k d => (1024, h2b (d ++ [UInt8.ofNat k]) ++ [false, true])
  | .coins m h => (1024, h2b (m ++ h) ++ [false, true])
  | .keyHash ek => (512, h2b ek ++ [false, true])
  | .reject z c => (512, h2b (z ++ c) ++ [true, true, true, true])
  | .entry ρ i j => (256, h2b (ρ ++ [UInt8.ofNat j, UInt8.ofNat i]) ++ [true, true, true, true])
  | .noise s n => (512, h2b (s ++ [UInt8.ofNat n]) ++ [true, true, true, true])

/-- The lengths that occur: seeds, messages and hash values of 32 bytes, encapsulation keys and ciphertexts of the lengths of a parameter set, indices and counters of one byte. -/
def Query.Proper : Query → Prop
  | .seed k d => d.length = 32 ∧ k < 256
  | .coins m h => m.length = 32 ∧ h.length = 32
  | .keyHash ek => ∃ p, ek.length = 384 * (fips p).k + 32
  | .reject z c => z.length = 32 ∧ ∃ p, c.length = 32 * ((fips p).du * (fips p).k + (fips p).dv)
  | .entry ρ i j => ρ.length = 32 ∧ i < 256 ∧ j < 256
  | .noise s n => s.length = 32 ∧ n < 256

/-- The entries of the matrix. -/
def entries (k : Nat) (ρ : List UInt8) : List Query := (List.range k).flatMap fun i => (List.range k).map fun j => .entry ρ i j

/-- PRF(s, 0), ..., PRF(s, n - 1). -/
def noises (n : Nat) (s : List UInt8) : List Query := (List.range n).map fun i => .noise s i

/-- The calls of KeyGen_internal. -/
def keyGenCalls (P : Params) (N : Nat) (d : List UInt8) : List Query :=
  let (ρ, σ) := G O (d ++ [UInt8.ofNat P.k])
  .seed P.k d :: entries P.k ρ ++ noises (2 * P.k) σ ++ (K_PKE_KeyGen O P N d).toList.map fun r => .keyHash r.1

/-- The calls of K-PKE.Encrypt. -/
def encryptCalls (P : Params) (ek r : List UInt8) : List Query := entries P.k (bytes ek (384 * P.k) (384 * P.k + 32)) ++ noises (2 * P.k + 1) r

/-- The calls of Encaps_internal. -/
def encapsCalls (P : Params) (ek m : List UInt8) : List Query := .keyHash ek :: .coins m (H O ek) :: encryptCalls P ek (G O (m ++ H O ek)).2

/-- The calls of Decaps_internal. -/
def decapsCalls (P : Params) (dk c : List UInt8) : List Query :=
  let m' := K_PKE_Decrypt P (bytes dk 0 (384 * P.k)) c
  let h := bytes dk (768 * P.k + 32) (768 * P.k + 64)
  .coins m' h :: .reject (bytes dk (768 * P.k + 64) (768 * P.k + 96)) c :: encryptCalls P (bytes dk (384 * P.k) (768 * P.k + 32)) (G O (m' ++ h)).2

end Verif.Spec.Oracle
