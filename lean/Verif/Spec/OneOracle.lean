import Verif.Spec.MlweSeed
import Verif.Spec.Oracle
import Verif.Spec.RomMulti

/-! # Specification: the chosen-ciphertext game with one random function in the place of KECCAK

The games of `Spec.RomFull` and `Spec.RomMulti` choose G for key pairs, G for encapsulations and J as three functions. Here one function on the inputs that G and J give to KECCAK is chosen, all other calls get
the answers of KECCAK, and the algorithms are those of `Spec.Oracle`. -/

set_option autoImplicit false

namespace Verif.Spec
open Finset
open Oracle (Sponge Query)

/-- The calls: G(d ‖ k), G(m ‖ h), J(z ‖ c). -/
abbrev HashCall (P : Params) : Type := Bytes 32 ⊕ (Bytes 32 × Bytes 32) ⊕ (Bytes 32 × Ciphertext P)

def hashQuery (P : Params) : HashCall P → Query
  | .inl d => .seed P.k (byteList d)
  | .inr (.inl (m, h)) => .coins (byteList m) (byteList h)
  | .inr (.inr (z, c)) => .reject (byteList z) (byteList c)

/-- What they give to KECCAK. -/
@[irreducible] noncomputable def hashInputs (P : Params) : Finset (Nat × List Bool) := univ.image fun a => (hashQuery P a).input

/-- KECCAK, but on these inputs the answers are the bits of the 64 bytes that `f` gives. -/
noncomputable def oneSponge (P : Params) (f : hashInputs P → Bytes 64) : Sponge :=
  fun c N n => if h : (c, N) ∈ hashInputs P then (h2b (byteList (f ⟨(c, N), h⟩))).take n else KECCAK c N n

/-- G on the input of a key generation, on a message and a hash, and J, as `stdGK`, `stdG` and `kemJ`. -/
def orGK (O : Sponge) (P : Params) (d : Bytes 32) : Bytes 32 × Bytes 32 :=
  (listBytes 32 (Oracle.G O (byteList d ++ [UInt8.ofNat P.k])).1, listBytes 32 (Oracle.G O (byteList d ++ [UInt8.ofNat P.k])).2)
def orG (O : Sponge) (m h : Bytes 32) : Bytes 32 × Bytes 32 := (listBytes 32 (Oracle.G O (byteList m ++ byteList h)).1, listBytes 32 (Oracle.G O (byteList m ++ byteList h)).2)
def orJ (O : Sponge) (n : Nat) (z : Bytes 32) (c : Bytes n) : Bytes 32 := listBytes 32 (Oracle.J O (byteList z ++ byteList c))

/-- The random choices: the seeds and rejection secrets of the key pairs, the function, the encapsulated messages, and an independent secret for each encapsulation. -/
abbrev OneCoins (n N : Nat) (P : Params) : Type := (Fin n → Bytes 32 × Bytes 32) × (hashInputs P → Bytes 64) × (Fin N → Bytes 32) × (Fin N → Bytes 32)

/-- The game of `multiRun` with G and J made from the one function. -/
noncomputable def oneRun {n N : Nat} (P : Params) (mat : Bytes 32 → Fin P.k → Fin P.k → Rq) (u : Fin N → Fin n) (A : MultiAttack n N P (Bytes 32)) (sec : Fin N → Bool) : OneCoins n N P → Bool :=
  fun (keys, f, ms, K1) => multiRun (kPke P mat) stdHash u A sec (keys, orGK (oneSponge P f) P, orG (oneSponge P f), orJ (oneSponge P f) _, ms, K1)

/-- The probability that the guess is 1. -/
noncomputable def oneProb {n N : Nat} (P : Params) (mat : Bytes 32 → Fin P.k → Fin P.k → Rq) (u : Fin N → Fin n) (A : MultiAttack n N P (Bytes 32)) (sec : Fin N → Bool) : ℚ :=
  E fun x => ind (oneRun P mat u A sec x = true)

end Verif.Spec
