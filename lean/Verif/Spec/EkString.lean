import Verif.Spec.MlweSeed

/-! # Specification: encapsulation keys and random strings

FIPS 203, section 7.2: the check that a string is an encapsulation key, and the keys of ML-KEM as strings. -/

set_option autoImplicit false

namespace Verif.Spec
open Finset

/-- FIPS 203, section 7.2, step 2 (modulus check): decoding and encoding the first 384 k bytes gives them back. -/
def modulusCheck (P : Params) (ek : List UInt8) : Prop := (concat P.k fun i => ByteEncode12 (ByteDecode12 (bytes ek (384 * i) (384 * (i + 1))))) = bytes ek 0 (384 * P.k)

/-- The strings of the length of an encapsulation key. -/
abbrev EkString (P : Params) : Type := Bytes (384 * P.k + 32)

/-- The encapsulation key with the vector t (in T_q) and the seed ρ (algorithm 13, line 19). -/
def ekOf (P : Params) (t : Fin P.k → Rq) (ρ : Bytes 32) : List UInt8 := (pkeEk P fun i => if h : i < P.k then t ⟨i, h⟩ else 0) ++ byteList ρ

/-- The encapsulation key from the seeds ρ and σ, with the matrix `mat` (algorithm 13, lines 3 to 19). -/
def ekFrom (P : Params) (mat : Bytes 32 → Fin P.k → Fin P.k → Rq) (x : Bytes 32 × Bytes 32) : List UInt8 := ((kPke P mat).ek x).2 ++ byteList ((kPke P mat).ek x).1

/-- Runs a test of strings on the key with the seed of the matrix, or with the noise. -/
def vectorTest {P : Params} (D : List UInt8 → ℚ) : Bytes 32 → (Fin P.k → Rq) → ℚ := fun ρ t => D (ekOf P (fun i => NTT (t i)) ρ)
def noiseTest (P : Params) (mat : Bytes 32 → Fin P.k → Fin P.k → Rq) (D : List UInt8 → ℚ) (x : KeyNoise P) : ℚ :=
  E fun ρ : Bytes 32 => D (((seedPke P mat).ek (ρ, x)).2 ++ byteList ρ)

end Verif.Spec
