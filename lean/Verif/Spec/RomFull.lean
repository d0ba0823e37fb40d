import Verif.Spec.Rom

/-! # Specification: the chosen-ciphertext game with the hash function G on all the inputs that ML-KEM uses

G is asked on d ‖ k for a key pair and on m ‖ H(ek) for an encapsulation. In this game the key pair comes from the first kind of input, and the attack may ask G on every input of both kinds. -/

set_option autoImplicit false

namespace Verif.Spec
open Finset

/-- An attack: `askK` asks G on the input of a key generation, `askG` on a message and a hash. -/
inductive FProg (X Key M Hd K R Z C : Type) where
  | guess (b : Bool)
  | askK (x : X) (next : Key → FProg X Key M Hd K R Z C)
  | askG (m : M) (h : Hd) (next : K → R → FProg X Key M Hd K R Z C)
  | askJ (z : Z) (c : C) (next : K → FProg X Key M Hd K R Z C)
  | decaps (c : C) (next : Option K → FProg X Key M Hd K R Z C)

/-- Answers to the queries. -/
structure FAnswers (X Key M Hd K R Z C : Type) where
  GK : X → Key
  G : M → Hd → K × R
  J : Z → C → K
  D : C → Option K

section
variable {X Key PK M Hd K R Z C : Type}

/-- The guess for given answers. -/
def FProg.run (O : FAnswers X Key M Hd K R Z C) : FProg X Key M Hd K R Z C → Bool
  | .guess b => b
  | .askK x next => (next (O.GK x)).run O
  | .askG m h next => (next (O.G m h).1 (O.G m h).2).run O
  | .askJ z c next => (next (O.J z c)).run O
  | .decaps c next => (next (O.D c)).run O

/-- At most `q` queries to G on inputs of a key generation, whatever the answers are. -/
def FProg.QueriesK : FProg X Key M Hd K R Z C → Nat → Prop
  | .guess _, _ => True
  | .askK _ next, q => ∃ q', q = q' + 1 ∧ ∀ x, (next x).QueriesK q'
  | .askG _ _ next, q => ∀ x y, (next x y).QueriesK q
  | .askJ _ _ next, q => ∀ x, (next x).QueriesK q
  | .decaps _ next, q => ∀ x, (next x).QueriesK q

/-- At most `q` queries to G on a message and a hash. -/
def FProg.QueriesG : FProg X Key M Hd K R Z C → Nat → Prop
  | .guess _, _ => True
  | .askK _ next, q => ∀ x, (next x).QueriesG q
  | .askG _ _ next, q => ∃ q', q = q' + 1 ∧ ∀ x y, (next x y).QueriesG q'
  | .askJ _ _ next, q => ∀ x, (next x).QueriesG q
  | .decaps _ next, q => ∀ x, (next x).QueriesG q

/-- At most `q` queries to J. -/
def FProg.QueriesJ : FProg X Key M Hd K R Z C → Nat → Prop
  | .guess _, _ => True
  | .askK _ next, q => ∀ x, (next x).QueriesJ q
  | .askG _ _ next, q => ∀ x y, (next x y).QueriesJ q
  | .askJ _ _ next, q => ∃ q', q = q' + 1 ∧ ∀ x, (next x).QueriesJ q'
  | .decaps _ next, q => ∀ x, (next x).QueriesJ q

/-- Decapsulation with the key pair from `d`. -/
def fullDecaps [DecidableEq C] (P : Pke Key PK M R C) (hash : PK → Hd) (GK : X → Key) (G : M → Hd → K × R) (J : Z → C → K) (d : X) (z : Z) (c : C) : K :=
  kemDecaps P (fun m => G m (hash (P.ek (GK d)))) J (GK d) z c

/-- The random choices: the seed d of the key pair, G on both kinds of inputs, the rejection secret, J, the encapsulated message, and an independent secret. -/
abbrev FullCoins (X Key M Hd K R Z C : Type) : Type := X × (X → Key) × (M → Hd → K × R) × Z × (Z → C → K) × M × K

/-- The chosen-ciphertext attack, as `ccaRun`. -/
noncomputable def fullRun [DecidableEq C] (P : Pke Key PK M R C) (hash : PK → Hd) (A : PK → C → K → FProg X Key M Hd K R Z C) (b : Bool) : FullCoins X Key M Hd K R Z C → Bool :=
  fun (d, GK, G, z, J, m, K1) =>
    let pk := P.ek (GK d)
    let c := P.enc pk m (G m (hash pk)).2
    (A pk c (if b then K1 else (G m (hash pk)).1)).run ⟨GK, G, J, fun c' => if c' = c then none else some (fullDecaps P hash GK G J d z c')⟩

/-- The probability that the guess is 1. -/
noncomputable def fullProb [Fintype X] [DecidableEq X] [Fintype Key] [Fintype M] [DecidableEq M] [Fintype Hd] [DecidableEq Hd] [Fintype K] [Fintype R] [Fintype Z] [DecidableEq Z] [Fintype C]
    [DecidableEq C] (P : Pke Key PK M R C) (hash : PK → Hd) (A : PK → C → K → FProg X Key M Hd K R Z C) (b : Bool) : ℚ := E fun x => ind (fullRun P hash A b x = true)

/-- The attack on the simple game: queries on inputs of key generations and on other hashes are answered by given functions. -/
def FProg.simple [DecidableEq Hd] (h : Hd) (GK : X → Key) (G : M → Hd → K × R) : FProg X Key M Hd K R Z C → Prog M K R Z C
  | .guess b => .guess b
  | .askK x next => (next (GK x)).simple h GK G
  | .askG m h' next => if h' = h then .askG m fun k r => (next k r).simple h GK G else (next (G m h').1 (G m h').2).simple h GK G
  | .askJ z c next => .askJ z c fun k => (next k).simple h GK G
  | .decaps c next => .decaps c fun k => (next k).simple h GK G

/-- The same for an attack with its inputs. -/
def simpleAttack [DecidableEq Hd] (hash : PK → Hd) (A : PK → C → K → FProg X Key M Hd K R Z C) (GK : X → Key) (G : M → Hd → K × R) : PK → C → K → Prog M K R Z C :=
  fun pk c k => (A pk c k).simple (hash pk) GK G

end

end Verif.Spec
