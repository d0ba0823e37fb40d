import Verif.Spec.Rom
import Verif.Spec.FailureUniform

/-! # Specification: K-PKE with a uniform matrix and independent noise, and the Module-LWE problem

K-PKE of FIPS 203 with the outputs of the XOF and of the PRF replaced by independent uniform choices: the matrix by uniform elements of T_q, the outputs of the PRF by uniform byte strings. -/

set_option autoImplicit false

namespace Verif.Spec
open Finset

/-- `n` bytes. -/
abbrev Bytes (n : Nat) : Type := Fin n → Fin 256

/-- Bytes as a byte string, and back. -/
def byteList {n : Nat} (b : Bytes n) : List UInt8 := List.ofFn fun i => UInt8.ofNat (b i).val
def listBytes (n : Nat) (l : List UInt8) : Bytes n := fun i => Fin.ofNat 256 (l.getD i.val 0).toNat

/-! ## K-PKE as a function of the matrix and the noise -/

/-- Algorithm 13, line 18: t = A s + e in T_q. -/
def pkeT (P : Params) (A : Nat → Nat → Rq) (s e : Nat → Rq) (i : Nat) : Rq := dotNTT P.k (A i) (fun j => NTT (s j)) + NTT (e i)

/-- Algorithm 13, line 19 without the seed of the matrix. -/
def pkeEk (P : Params) (t : Nat → Rq) : List UInt8 := concat P.k fun i => ByteEncode12 (t i)

/-- Algorithm 13, line 20. -/
def pkeDk (P : Params) (s : Nat → Rq) : List UInt8 := concat P.k fun i => ByteEncode12 (NTT (s i))

/-- Algorithm 14, line 2: the vector t from the bytes of the public key. -/
def pkeDecodeT (ek : List UInt8) (i : Nat) : Rq := ByteDecode12 (bytes ek (384 * i) (384 * (i + 1)))

/-- Algorithm 14, line 19. -/
def pkeU (P : Params) (A : Nat → Nat → Rq) (y e1 : Nat → Rq) (i : Nat) : Rq := NTTInv (dotNTT P.k (fun j => A j i) fun j => NTT (y j)) + e1 i

/-- Algorithm 14, line 20. -/
def pkeMu (m : List UInt8) : Rq := fun i => Decompress 1 (ByteDecode 1 m i)

/-- Algorithm 14, line 21, without the message. -/
def pkeV (P : Params) (t y : Nat → Rq) (e2 : Rq) : Rq := NTTInv (dotNTT P.k t fun j => NTT (y j)) + e2

/-- Algorithm 14, lines 22 to 24. -/
def pkePack (P : Params) (u : Nat → Rq) (v : Rq) : List UInt8 :=
  (concat P.k fun i => ByteEncode P.du fun j => Compress P.du (u i j)) ++ ByteEncode P.dv fun j => Compress P.dv (v j)

/-! ## The public-key encryption -/

/-- A matrix and the byte strings of s and e. -/
abbrev PkeKey (P : Params) : Type := (Fin P.k → Fin P.k → Rq) × (Fin P.k → Bytes (64 * P.η₁)) × (Fin P.k → Bytes (64 * P.η₁))

/-- The byte strings of y, e₁ and e₂. -/
abbrev PkeCoins (P : Params) : Type := (Fin P.k → Bytes (64 * P.η₁)) × (Fin P.k → Bytes (64 * P.η₂)) × Bytes (64 * P.η₂)

/-- A matrix and the encoded vector t. -/
abbrev PkePublic (P : Params) : Type := (Fin P.k → Fin P.k → Rq) × List UInt8

abbrev Ciphertext (P : Params) : Type := Bytes (32 * (P.du * P.k + P.dv))

/-- K-PKE with a uniform matrix and independent noise. -/
def mlPke (P : Params) : Pke (PkeKey P) (PkePublic P) (Bytes 32) (PkeCoins P) (Ciphertext P) where
  ek x := (x.1, pkeEk P (pkeT P (matOf x.1) (cbdVec P.η₁ x.2.1) (cbdVec P.η₁ x.2.2)))
  enc pk m r := listBytes _ (pkePack P (pkeU P (matOf pk.1) (cbdVec P.η₁ r.1) (cbdVec P.η₂ r.2.1))
    (pkeV P (pkeDecodeT pk.2) (cbdVec P.η₁ r.1) (SamplePolyCBD P.η₂ (byteList r.2.2)) + pkeMu (byteList m)))
  dec x c := listBytes 32 (K_PKE_Decrypt P (pkeDk P (cbdVec P.η₁ x.2.1)) (byteList c))

/-- K-PKE of the standard for one matrix: key pairs are pairs of encoded keys, coins are the 32 bytes from which PRF derives the noise. -/
def stdPke (P : Params) (A : Nat → Nat → Rq) : Pke (List UInt8 × List UInt8) (List UInt8) (List UInt8) (List UInt8) (List UInt8) where
  ek x := x.1
  enc ek m r := pkePack P (pkeU P A (fun i => noise P.η₁ r i) fun i => noise P.η₂ r (P.k + i))
    (pkeV P (pkeDecodeT ek) (fun i => noise P.η₁ r i) (noise P.η₂ r (2 * P.k)) + pkeMu m)
  dec x c := K_PKE_Decrypt P x.2 c

/-! ## Module-LWE -/

/-- A distinguisher: the probability that it answers 1 on a matrix with `n` rows and `k` columns over R_q and a vector with `n` entries. -/
abbrev Distinguisher (n k : Nat) : Type := (Fin n → Fin k → Rq) → (Fin n → Rq) → ℚ

/-- The coefficients sampled from a byte string. -/
def cbd (η : Nat) (b : Bytes (64 * η)) : Rq := SamplePolyCBD η (byteList b)

/-- The distinguisher gets A and A s + e for a uniform A, s sampled with parameter `η` and e with parameter `η'`. -/
def mlweReal (n k η η' : Nat) (D : Distinguisher n k) : ℚ :=
  E fun x : (Fin n → Fin k → Rq) × (Fin k → Bytes (64 * η)) × (Fin n → Bytes (64 * η')) => D x.1 fun i => ∑ j, mulRq (x.1 i j) (cbd η (x.2.1 j)) + cbd η' (x.2.2 i)

/-- The distinguisher gets A and b, both uniform. -/
def mlweUniform (n k : Nat) (D : Distinguisher n k) : ℚ := E fun x : (Fin n → Fin k → Rq) × (Fin n → Rq) => D x.1 x.2

/-- The advantage of a distinguisher. -/
def mlweAdv (n k η η' : Nat) (D : Distinguisher n k) : ℚ := mlweReal n k η η' D - mlweUniform n k D

/-! ## The two reductions: each runs the attack once -/

/-- The public key with the matrix A and the vector t over R_q. -/
def publicOf {P : Params} (A : Fin P.k → Fin P.k → Rq) (t : Fin P.k → Rq) : PkePublic P :=
  (fun i j => NTT (A i j), pkeEk P fun i => if h : i < P.k then NTT (t ⟨i, h⟩) else 0)

section
variable {P : Params} {Tape : Type} [Fintype Tape] (B : CpaAttack (PkePublic P) (Bytes 32) (Ciphertext P) Tape) (b : Bool)

/-- The chosen message. -/
def chosen (w : Tape) (pk : PkePublic P) : Bytes 32 := if b then (B.choose w pk).2 else (B.choose w pk).1

/-- Takes the given vector as the public key, encrypts, and runs the attack. -/
noncomputable def keyDistinguisher : Distinguisher P.k P.k := fun A t =>
  E fun x : Tape × PkeCoins P =>
    let pk := publicOf A t
    ind (B.guess x.1 pk ((mlPke P).enc pk (chosen B b x.1 pk) x.2) = true)

/-- Takes the first rows, transposed, and the last row of the given matrix as the public key and the given vector, with the message added to the last entry, as the ciphertext, and runs the
attack. -/
noncomputable def cipherDistinguisher : Distinguisher (P.k + 1) P.k := fun A w =>
  E fun x : Tape =>
    let pk := publicOf (fun i j => A j.castSucc i) (A (Fin.last P.k))
    ind (B.guess x pk (listBytes _ (pkePack P (fun i => if h : i < P.k then w ⟨i, by omega⟩ else 0) (w (Fin.last P.k) + pkeMu (byteList (chosen B b x pk))))) = true)

end

end Verif.Spec
