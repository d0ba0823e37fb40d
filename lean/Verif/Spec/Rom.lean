import Mathlib.Algebra.BigOperators.Group.Finset.Basic
import Mathlib.Data.Fintype.BigOperators
import Mathlib.Algebra.Field.Rat
import Mathlib.Algebra.Order.Ring.Rat

/-! # Specification: security games for a public-key encryption and for the KEM that FIPS 203 builds from it

Written from FIPS 203 (algorithms 16 to 18) and from the usual definitions of IND-CPA and IND-CCA security. The hash functions G and J are random oracles: functions chosen uniformly among
all functions. Probabilities are averages over finite sets. -/

set_option autoImplicit false

namespace Verif.Spec
open Finset

/-- The average of `f` over a finite set: an expectation for the uniform distribution. -/
def E {α : Type} [Fintype α] (f : α → ℚ) : ℚ := (∑ x, f x) / Fintype.card α

open Classical in
/-- 1 if the event happens, otherwise 0. -/
noncomputable def ind (p : Prop) : ℚ := if p then 1 else 0

/-- A public-key encryption: key pairs are chosen uniformly in `Key`, coins of an encryption uniformly in `R`. -/
structure Pke (Key PK M R C : Type) where
  ek : Key → PK
  enc : PK → M → R → C
  dec : Key → C → M

/-- A chosen-plaintext attack: from its coins and the public key two messages, then from a ciphertext a guess which of them was encrypted. -/
structure CpaAttack (PK M C Tape : Type) where
  choose : Tape → PK → M × M
  guess : Tape → PK → C → Bool

section
variable {Key PK M R C K Z Tape : Type}

/-- The probability that the guess is 1 when the first (`b` = 0) or second (`b` = 1) message is encrypted. -/
noncomputable def cpaProb [Fintype Key] [Fintype R] [Fintype Tape] (P : Pke Key PK M R C) (B : CpaAttack PK M C Tape) (b : Bool) : ℚ :=
  E fun x : Tape × Key × R =>
    let pk := P.ek x.2.1
    let m := B.choose x.1 pk
    ind (B.guess x.1 pk (P.enc pk (if b then m.2 else m.1) x.2.2) = true)

/-- What an attack does after it got a public key, a ciphertext and a key: queries to G, to J and to the decapsulation, each depending on the answers so far, and in the end a guess. -/
inductive Prog (M K R Z C : Type) where
  | guess (b : Bool)
  | askG (m : M) (next : K → R → Prog M K R Z C)
  | askJ (z : Z) (c : C) (next : K → Prog M K R Z C)
  | decaps (c : C) (next : Option K → Prog M K R Z C)

/-- Answers to the queries. -/
structure Answers (M K R Z C : Type) where
  G : M → K × R
  J : Z → C → K
  D : C → Option K

/-- The guess for given answers. -/
def Prog.run (O : Answers M K R Z C) : Prog M K R Z C → Bool
  | .guess b => b
  | .askG m next => (next (O.G m).1 (O.G m).2).run O
  | .askJ z c next => (next (O.J z c)).run O
  | .decaps c next => (next (O.D c)).run O

/-- The messages asked from G. -/
def Prog.asked (O : Answers M K R Z C) : Prog M K R Z C → List M
  | .guess _ => []
  | .askG m next => m :: (next (O.G m).1 (O.G m).2).asked O
  | .askJ z c next => (next (O.J z c)).asked O
  | .decaps c next => (next (O.D c)).asked O

/-- At most `q` queries to G, whatever the answers are. -/
def Prog.QueriesG : Prog M K R Z C → Nat → Prop
  | .guess _, _ => True
  | .askG _ next, q => ∃ q', q = q' + 1 ∧ ∀ x y, (next x y).QueriesG q'
  | .askJ _ _ next, q => ∀ x, (next x).QueriesG q
  | .decaps _ next, q => ∀ x, (next x).QueriesG q

/-- At most `q` queries to J, whatever the answers are. -/
def Prog.QueriesJ : Prog M K R Z C → Nat → Prop
  | .guess _, _ => True
  | .askG _ next, q => ∀ x y, (next x y).QueriesJ q
  | .askJ _ _ next, q => ∃ q', q = q' + 1 ∧ ∀ x, (next x).QueriesJ q'
  | .decaps _ next, q => ∀ x, (next x).QueriesJ q

/-- Decapsulation (algorithm 18) for the functions `g` (to the secret and the coins) and `j`: decrypt, encrypt again, compare, on a difference answer with `j` of the rejection secret. -/
def kemDecaps [DecidableEq C] (P : Pke Key PK M R C) (g : M → K × R) (j : Z → C → K) (k : Key) (z : Z) (c : C) : K :=
  let m := P.dec k c
  if P.enc (P.ek k) m (g m).2 = c then (g m).1 else j z c

/-- The random choices of the IND-CCA game: key pair, rejection secret, the oracles G and J, the encapsulated message, and an independent secret. -/
structure CcaCoins (Key M K R Z C : Type) where
  key : Key
  z : Z
  G : M → K × R
  J : Z → C → K
  m : M
  K1 : K

/-- Chosen-ciphertext attack: the attack gets the public key, the ciphertext of an encapsulation, and its secret (`b` = 0) or an independent one (`b` = 1). It may ask G and J anywhere, and the
decapsulation of all other ciphertexts. -/
noncomputable def ccaRun [DecidableEq C] (P : Pke Key PK M R C) (A : PK → C → K → Prog M K R Z C) (b : Bool) (x : CcaCoins Key M K R Z C) : Bool :=
  let pk := P.ek x.key
  let c := P.enc pk x.m (x.G x.m).2
  (A pk c (if b then x.K1 else (x.G x.m).1)).run ⟨x.G, x.J, fun c' => if c' = c then none else some (kemDecaps P x.G x.J x.key x.z c')⟩

def CcaCoins.equiv (Key M K R Z C : Type) : CcaCoins Key M K R Z C ≃ Key × Z × (M → K × R) × (Z → C → K) × M × K where
  toFun x := (x.key, x.z, x.G, x.J, x.m, x.K1)
  invFun x := ⟨x.1, x.2.1, x.2.2.1, x.2.2.2.1, x.2.2.2.2.1, x.2.2.2.2.2⟩
  left_inv _ := rfl
  right_inv _ := rfl

instance [Fintype Key] [Fintype M] [DecidableEq M] [Fintype K] [Fintype R] [Fintype Z] [DecidableEq Z] [Fintype C] [DecidableEq C] : Fintype (CcaCoins Key M K R Z C) :=
  Fintype.ofEquiv _ (CcaCoins.equiv Key M K R Z C).symm

/-- The probability that the guess is 1. -/
noncomputable def ccaProb [Fintype Key] [Fintype M] [DecidableEq M] [Fintype K] [Fintype R] [Fintype Z] [DecidableEq Z] [Fintype C] [DecidableEq C]
    (P : Pke Key PK M R C) (A : PK → C → K → Prog M K R Z C) (b : Bool) : ℚ := E fun x => ind (ccaRun P A b x = true)

/-- The probability, over key pairs and coins of an encryption, that some message does not decrypt correctly. -/
noncomputable def failProb [Fintype Key] [Fintype R] (P : Pke Key PK M R C) : ℚ := E fun x : Key × R => ind (∃ m, P.dec x.1 (P.enc (P.ek x.1) m x.2) ≠ m)

/-- The reduction: a chosen-plaintext attack that runs a chosen-ciphertext attack once. Its coins are two messages, the values of G and J, a function `F` from ciphertexts to secrets, and a
secret. It answers the query m to G by (`F` of the encryption of m with coins r, r) where r is the value of G, and decapsulations by `F`, and guesses 1 if the second message was asked from G.
(The values of the functions need only be chosen when they are asked for.) -/
noncomputable def reduction [DecidableEq C] [DecidableEq M] (P : Pke Key PK M R C) (A : PK → C → K → Prog M K R Z C) :
    CpaAttack PK M C ((M × M) × (M → R) × (Z → C → K) × (C → K) × K) where
  choose t _ := t.1
  guess t pk c :=
    decide (t.1.2 ∈ (A pk c t.2.2.2.2).asked ⟨fun m => (t.2.2.2.1 (P.enc pk m (t.2.1 m)), t.2.1 m), t.2.2.1, fun c' => if c' = c then none else some (t.2.2.2.1 c')⟩)

end

end Verif.Spec
