import Verif.Model.Fips202
import Verif.Model.Params

/-! # Model of ref/symmetric-shake.c and the macros of ref/symmetric.h -/

namespace Verif.Model

/-- ref/symmetric.h:25 -/
def XOF_BLOCKBYTES : Nat := SHAKE128_RATE

/-- ref/symmetric.h:27 -/
abbrev hash_h := sha3_256
/-- ref/symmetric.h:28 -/
abbrev hash_g := sha3_512

/-- ref/symmetric-shake.c:18-30 `kyber_shake128_absorb` (= `xof_absorb`, ref/symmetric.h:29). -/
def xof_absorb (st : KeccakState) (seed : Mem UInt8) (so : Nat) (x y : UInt8) : C KeccakState := do
  let extseed := Mem.uninit UInt8 (KYBER_SYMBYTES + 2)
  let extseed ← memcpy extseed 0 seed so KYBER_SYMBYTES
  let extseed ← wr extseed (KYBER_SYMBYTES + 0) x
  let extseed ← wr extseed (KYBER_SYMBYTES + 1) y
  shake128_absorb_once st extseed 0 (KYBER_SYMBYTES + 2)

/-- ref/symmetric.h:30 -/
abbrev xof_squeezeblocks := shake128_squeezeblocks

/-- ref/symmetric-shake.c:43-51 `kyber_shake256_prf` (= `prf`, ref/symmetric.h:31). -/
def prf (out : Mem UInt8) (oo outlen : Nat) (key : Mem UInt8) (ko : Nat) (nonce : UInt8) :
    C (Mem UInt8) := do
  let extkey := Mem.uninit UInt8 (KYBER_SYMBYTES + 1)
  let extkey ← memcpy extkey 0 key ko KYBER_SYMBYTES
  let extkey ← wr extkey KYBER_SYMBYTES nonce
  shake256 out oo outlen extkey 0 (KYBER_SYMBYTES + 1)

/-- ref/symmetric-shake.c:64-73 `kyber_shake256_rkprf` (= `rkprf`, ref/symmetric.h:32). -/
def rkprf (p : ParamSet) (out : Mem UInt8) (oo : Nat) (key : Mem UInt8) (ko : Nat)
    (input : Mem UInt8) (io : Nat) : C (Mem UInt8) := do
  let s ← shake256_init KeccakState.uninit
  let s ← shake256_absorb s key ko KYBER_SYMBYTES
  let s ← shake256_absorb s input io (KYBER_CIPHERTEXTBYTES p)
  let s ← shake256_finalize s
  let (out, _) ← shake256_squeeze out oo KYBER_SSBYTES s
  pure out

end Verif.Model
