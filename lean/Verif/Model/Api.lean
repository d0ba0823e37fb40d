import Verif.Model.Params

/-! # The sizes announced to users

ref/api.h and avx2/api.h (which differ only in the prefixes `_ref_` and `_avx2_` of the names that repeat the numbers) and the files Kyber*_META.yml. -/

namespace Verif.Model

/-- The sizes of the buffers of a parameter set. -/
structure Sizes where
  secretKey : Nat
  publicKey : Nat
  ciphertext : Nat
  keypairCoin : Nat
  encCoin : Nat
  shared : Nat
  deriving DecidableEq

/-- ref/api.h:6-11, 26-31, 46-51; avx2/api.h:6-11, 26-31, 46-51 -/
def api : ParamSet → Sizes
  | .k2 => ⟨1632, 800, 768, 64, 32, 32⟩
  | .k3 => ⟨2400, 1184, 1088, 64, 32, 32⟩
  | .k4 => ⟨3168, 1568, 1568, 64, 32, 32⟩

/-- Kyber512_META.yml, Kyber768_META.yml, Kyber1024_META.yml: `length-public-key`, `length-ciphertext`, `length-secret-key`, `length-shared-secret`. -/
def metaYml : ParamSet → Nat × Nat × Nat × Nat
  | .k2 => (800, 768, 1632, 32)
  | .k3 => (1184, 1088, 2400, 32)
  | .k4 => (1568, 1568, 3168, 32)

end Verif.Model
