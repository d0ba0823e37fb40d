import Verif.Spec.Fips203

/-! # Specification: the parts of a decapsulation key (FIPS 203, algorithm 18, lines 1 to 4) -/

namespace Verif.Spec

def dkPke (P : Params) (dk : List UInt8) : List UInt8 := bytes dk 0 (384 * P.k)
def dkEk (P : Params) (dk : List UInt8) : List UInt8 := bytes dk (384 * P.k) (768 * P.k + 32)
def dkH (P : Params) (dk : List UInt8) : List UInt8 := bytes dk (768 * P.k + 32) (768 * P.k + 64)
def dkZ (P : Params) (dk : List UInt8) : List UInt8 := bytes dk (768 * P.k + 64) (768 * P.k + 96)

/-- The message that decapsulation decrypts. -/
def decMsg (P : Params) (dk c : List UInt8) : List UInt8 := K_PKE_Decrypt P (dkPke P dk) c

/-- Encrypting the decrypted message again gives the ciphertext. -/
def Accepted (P : Params) (N : Nat) (dk c : List UInt8) : Prop := K_PKE_Encrypt P N (dkEk P dk) (decMsg P dk c) (G (decMsg P dk c ++ dkH P dk)).2 = some c

end Verif.Spec
