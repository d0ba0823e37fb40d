/-! # Model of ref/params.h -/

namespace Verif.Model

/-- The three values of the compile-time parameter `KYBER_K` that ref/params.h:10-18 accepts. -/
inductive ParamSet where
  | k2 | k3 | k4
  deriving DecidableEq, Repr

/-- ref/params.h:5 `KYBER_K` -/
def KYBER_K : ParamSet → Nat
  | .k2 => 2 | .k3 => 3 | .k4 => 4

/-- ref/params.h:20 -/
def KYBER_N : Nat := 256
/-- ref/params.h:21 -/
def KYBER_Q : Nat := 3329
/-- ref/params.h:23 -/
def KYBER_SYMBYTES : Nat := 32
/-- ref/params.h:24 -/
def KYBER_SSBYTES : Nat := 32
/-- ref/params.h:26 -/
def KYBER_POLYBYTES : Nat := 384
/-- ref/params.h:27 -/
def KYBER_POLYVECBYTES (p : ParamSet) : Nat := KYBER_K p * KYBER_POLYBYTES
/-- ref/params.h:29-41 -/
def KYBER_ETA1 : ParamSet → Nat
  | .k2 => 3 | .k3 => 2 | .k4 => 2
/-- ref/params.h:43 -/
def KYBER_ETA2 : Nat := 2
/-- ref/params.h:29-41 -/
def KYBER_POLYCOMPRESSEDBYTES : ParamSet → Nat
  | .k2 => 128 | .k3 => 128 | .k4 => 160
/-- ref/params.h:29-41 -/
def KYBER_POLYVECCOMPRESSEDBYTES : ParamSet → Nat
  | .k2 => 2 * 320 | .k3 => 3 * 320 | .k4 => 4 * 352
/-- ref/params.h:45 -/
def KYBER_INDCPA_MSGBYTES : Nat := KYBER_SYMBYTES
/-- ref/params.h:46 -/
def KYBER_INDCPA_PUBLICKEYBYTES (p : ParamSet) : Nat := KYBER_POLYVECBYTES p + KYBER_SYMBYTES
/-- ref/params.h:47 -/
def KYBER_INDCPA_SECRETKEYBYTES (p : ParamSet) : Nat := KYBER_POLYVECBYTES p
/-- ref/params.h:48 -/
def KYBER_INDCPA_BYTES (p : ParamSet) : Nat :=
  KYBER_POLYVECCOMPRESSEDBYTES p + KYBER_POLYCOMPRESSEDBYTES p
/-- ref/params.h:50 -/
def KYBER_PUBLICKEYBYTES (p : ParamSet) : Nat := KYBER_INDCPA_PUBLICKEYBYTES p
/-- ref/params.h:52 -/
def KYBER_SECRETKEYBYTES (p : ParamSet) : Nat :=
  KYBER_INDCPA_SECRETKEYBYTES p + KYBER_INDCPA_PUBLICKEYBYTES p + 2 * KYBER_SYMBYTES
/-- ref/params.h:53 -/
def KYBER_CIPHERTEXTBYTES (p : ParamSet) : Nat := KYBER_INDCPA_BYTES p

end Verif.Model
