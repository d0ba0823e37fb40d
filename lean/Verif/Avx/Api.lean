import Verif.Avx.Kem
import Verif.Model.TestVectors

/-! # The KEM calls of the AVX2 build for the test programs (which avx2/test links to those of ref) -/

namespace Verif.Avx
open Verif.Model (ParamSet KemApi)

def avxApi (p : ParamSet) (junk : Nat → Fin 4 → Nat → UInt8) (fuel : Nat) : KemApi :=
  ⟨crypto_kem_keypair_derand p junk fuel, crypto_kem_enc_derand p junk fuel, crypto_kem_dec p junk fuel⟩

end Verif.Avx
