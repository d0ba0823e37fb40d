import Verif.Spec.MlweSeed

/-! # Specification: what a ciphertext tells about its key, and how it differs from a random string

The game of pseudorandom ciphertexts: a ciphertext of K-PKE against the encoding of uniform u and v, which does not depend on any key. The game of anonymity: the attack knows two public keys
and guesses for which of them a ciphertext was made. -/

set_option autoImplicit false

namespace Verif.Spec
open Finset

section
variable {Key PK M R C Tape W : Type}

/-- The probability that the guess is 1 when the ciphertext is `sim` of a uniform element, whatever the key and the messages are. -/
noncomputable def simProb [Fintype Key] [Fintype Tape] [Fintype W] (Q : Pke Key PK M R C) (sim : W → C) (B : CpaAttack PK M C Tape) : ℚ :=
  E fun x : Tape × Key × W => ind (B.guess x.1 (Q.ek x.2.1) (sim x.2.2) = true)

/-- An attack on anonymity: from its coins and two public keys a message, then from a ciphertext a guess to which key it belongs. -/
structure AnonAttack (PK M C Tape : Type) where
  choose : Tape → PK → PK → M
  guess : Tape → PK → PK → C → Bool

/-- The probability that the guess is 1 when the message is encrypted with the first (`b` = 0) or second (`b` = 1) public key. -/
noncomputable def anonProb [Fintype Key] [Fintype R] [Fintype Tape] (Q : Pke Key PK M R C) (A : AnonAttack PK M C Tape) (b : Bool) : ℚ :=
  E fun x : Tape × Key × Key × R =>
    let pk0 := Q.ek x.2.1
    let pk1 := Q.ek x.2.2.1
    ind (A.guess x.1 pk0 pk1 (Q.enc (if b then pk1 else pk0) (A.choose x.1 pk0 pk1) x.2.2.2) = true)

/-- Makes the other key pair itself: the given public key is the first (`b` = 0) or the second (`b` = 1). -/
def AnonAttack.against (Q : Pke Key PK M R C) (A : AnonAttack PK M C Tape) (b : Bool) : CpaAttack PK M C (Tape × Key) where
  choose t pk :=
    let m := if b then A.choose t.1 (Q.ek t.2) pk else A.choose t.1 pk (Q.ek t.2)
    (m, m)
  guess t pk c := if b then A.guess t.1 (Q.ek t.2) pk c else A.guess t.1 pk (Q.ek t.2) c

end

/-- Runs the attack on the given second part of the key and an independent ciphertext. -/
noncomputable def simExpansionTest {S KN PK M R C Tape W : Type} [Fintype S] [Fintype Tape] [Fintype W] (Q : Pke (S × KN) PK M R C) (sim : W → C) (B : CpaAttack PK M C Tape) (kn : KN) : ℚ :=
  E fun x : Tape × S × W => ind (B.guess x.1 (Q.ek (x.2.1, kn)) (sim x.2.2) = true)

/-- The encoding of u and v (algorithm 14, lines 22 to 24). -/
def packUniform (P : Params) (w : (Fin P.k → Rq) × Rq) : Ciphertext P := listBytes _ (pkePack P (fun i => if h : i < P.k then w.1 ⟨i, h⟩ else 0) w.2)

/-- Takes the given vector as the public key and runs the attack on uniform u and v. -/
noncomputable def simKeyTest {P : Params} {S Tape : Type} [Fintype Tape] (B : CpaAttack (S × List UInt8) (Bytes 32) (Ciphertext P) Tape) : S → (Fin P.k → Rq) → ℚ := fun s t =>
  E fun x : Tape × ((Fin P.k → Rq) × Rq) => ind (B.guess x.1 (seedPublic s t) (packUniform P x.2) = true)

/-- The advantages of the distinguishers made from an attack on the ciphertexts of K-PKE: against PRF for keys and coins, and against Module-LWE. -/
noncomputable def cipherAdv (P : Params) {S : Type} [Fintype S] (mat : S → Fin P.k → Fin P.k → Rq) {Tape : Type} [Fintype Tape] (B : CpaAttack (S × List UInt8) (Bytes 32) (Ciphertext P) Tape)
    (b : Bool) : ℚ :=
  distAdv (prfKey P) (keyExpansionTest (seedPke P mat) (prfCoins P) B b) + distAdv (prfCoins P) (coinExpansionTest (seedPke P mat) B b) + seedAdv mat (seedKeyTest mat B b) +
    seedAdv' mat (seedCipherTest B b) - seedAdv mat (simKeyTest B) - distAdv (prfKey P) (simExpansionTest (seedPke P mat) (packUniform P) B)

/-! ## Ciphertexts and random strings -/

/-- The compressed coefficients of u in a ciphertext (algorithm 15, line 3 without Decompress). -/
def codes (P : Params) (c : Ciphertext P) (i : Fin P.k) (j : Fin 256) : Nat := ByteDecode P.du (bytes (byteList c) (32 * P.du * i.val) (32 * P.du * (i.val + 1))) j

/-- Of the q values of a coefficient, a number above q / 2^d has this code. The values with the code y > 0 begin at ⌈(2 y - 1) q / 2^(d+1)⌉, so the code belongs to ⌈q / 2^d⌉ values if the
value ⌈q / 2^d⌉ - 1 after that still has it. (The code 0 belongs to fewer.) -/
def heavy (d y : Nat) : Bool :=
  let lo := ((2 * y - 1) * 3329 + 2 ^ (d + 1) - 1) / 2 ^ (d + 1)
  let last := lo + 3329 / 2 ^ d
  decide (0 < y ∧ (2 ^ (d + 1) * last + 3329) / 6658 = y)

/-- The number of coefficients of u with such a code. -/
def heavyCount (P : Params) (c : Ciphertext P) : Nat := ((Finset.univ : Finset (Fin P.k × Fin 256)).filter fun i => heavy P.du (codes P c i.1 i.2) = true).card

/-- The attack that ignores everything but this number. -/
def heavyAttack (P : Params) (S : Type) (thr : Nat) : CpaAttack (S × List UInt8) (Bytes 32) (Ciphertext P) Unit where
  choose _ _ := (fun _ => 0, fun _ => 0)
  guess _ _ c := decide (thr < heavyCount P c)

end Verif.Spec
