import Verif.Spec.Anon
import Verif.Spec.RomFull

/-! # Specification: pseudorandom ciphertexts and anonymity of the KEM against chosen-ciphertext attacks

The games of `Spec.Anon` for the whole KEM: the attack also gets the secret of the encapsulation and may ask for decapsulations. -/

set_option autoImplicit false

namespace Verif.Spec
open Finset

section
variable {Key PK M R C K Z V : Type}

/-- Chosen-ciphertext attack on an independent ciphertext and an independent secret. -/
def simCcaRun [DecidableEq C] (P : Pke Key PK M R C) (A : PK → C → K → Prog M K R Z C) (c : C) (x : CcaCoins Key M K R Z C) : Bool :=
  (A (P.ek x.key) c x.K1).run ⟨x.G, x.J, fun c' => if c' = c then none else some (kemDecaps P x.G x.J x.key x.z c')⟩

/-- The probability that the guess is 1 when the ciphertext is `sim` of a uniform element. -/
noncomputable def simCcaProb [Fintype Key] [Fintype M] [DecidableEq M] [Fintype K] [Fintype R] [Fintype Z] [DecidableEq Z] [Fintype C] [DecidableEq C] [Fintype V]
    (P : Pke Key PK M R C) (sim : V → C) (A : PK → C → K → Prog M K R Z C) : ℚ := E fun v => E fun x => ind (simCcaRun P A (sim v) x = true)

/-- A chosen-plaintext attack that runs a chosen-ciphertext attack once, answers its queries as `reduction`, and guesses what it guesses. The two messages are the same: it tells the encryption of
a uniform message from an independent ciphertext. -/
def guessReduction [DecidableEq C] (P : Pke Key PK M R C) (A : PK → C → K → Prog M K R Z C) : CpaAttack PK M C (M × (M → R) × (Z → C → K) × (C → K) × K) where
  choose t _ := (t.1, t.1)
  guess t pk c := (A pk c t.2.2.2.2).run ⟨fun m => (t.2.2.2.1 (P.enc pk m (t.2.1 m)), t.2.1 m), t.2.2.1, fun c' => if c' = c then none else some (t.2.2.2.1 c')⟩

end

section
variable {X Key PK M Hd K R Z C V : Type}

/-- The same with G on all its inputs. -/
def fullSimRun [DecidableEq C] (P : Pke Key PK M R C) (hash : PK → Hd) (A : PK → C → K → FProg X Key M Hd K R Z C) (c : C) : FullCoins X Key M Hd K R Z C → Bool :=
  fun (d, GK, G, z, J, _, K1) => (A (P.ek (GK d)) c K1).run ⟨GK, G, J, fun c' => if c' = c then none else some (fullDecaps P hash GK G J d z c')⟩

noncomputable def fullSimProb [Fintype X] [DecidableEq X] [Fintype Key] [Fintype M] [DecidableEq M] [Fintype Hd] [DecidableEq Hd] [Fintype K] [Fintype R] [Fintype Z] [DecidableEq Z] [Fintype C]
    [DecidableEq C] [Fintype V] (P : Pke Key PK M R C) (hash : PK → Hd) (sim : V → C) (A : PK → C → K → FProg X Key M Hd K R Z C) : ℚ :=
  E fun v => E fun x => ind (fullSimRun P hash A (sim v) x = true)

/-! ## Two keys -/

/-- An attack on anonymity: as `FProg`, with decapsulations by the first (`false`) or the second (`true`) key pair. -/
inductive AProg (X Key M Hd K R Z C : Type) where
  | guess (b : Bool)
  | askK (x : X) (next : Key → AProg X Key M Hd K R Z C)
  | askG (m : M) (h : Hd) (next : K → R → AProg X Key M Hd K R Z C)
  | askJ (z : Z) (c : C) (next : K → AProg X Key M Hd K R Z C)
  | decaps (i : Bool) (c : C) (next : Option K → AProg X Key M Hd K R Z C)

/-- The guess for given answers; `D` is the decapsulation by the two key pairs. -/
def AProg.run (GK : X → Key) (G : M → Hd → K × R) (J : Z → C → K) (D : Bool → C → Option K) : AProg X Key M Hd K R Z C → Bool
  | .guess b => b
  | .askK x next => (next (GK x)).run GK G J D
  | .askG m h next => (next (G m h).1 (G m h).2).run GK G J D
  | .askJ z c next => (next (J z c)).run GK G J D
  | .decaps i c next => (next (D i c)).run GK G J D

/-- At most `qK`, `qG`, `qJ` and `qD` queries of the four kinds, whatever the answers are. -/
def AProg.Queries : AProg X Key M Hd K R Z C → Nat → Nat → Nat → Nat → Prop
  | .guess _, _, _, _, _ => True
  | .askK _ next, qK, qG, qJ, qD => ∃ q, qK = q + 1 ∧ ∀ x, (next x).Queries q qG qJ qD
  | .askG _ _ next, qK, qG, qJ, qD => ∃ q, qG = q + 1 ∧ ∀ x y, (next x y).Queries qK q qJ qD
  | .askJ _ _ next, qK, qG, qJ, qD => ∃ q, qJ = q + 1 ∧ ∀ x, (next x).Queries qK qG q qD
  | .decaps _ _ next, qK, qG, qJ, qD => ∃ q, qD = q + 1 ∧ ∀ x, (next x).Queries qK qG qJ q

/-- The random choices: the seeds and rejection secrets of the two key pairs, G on both kinds of inputs, J, and the encapsulated message. -/
abbrev AnonCoins (X Key M Hd K R Z C : Type) : Type := (X × Z) × (X × Z) × (X → Key) × (M → Hd → K × R) × (Z → C → K) × M

/-- The attack gets two public keys and an encapsulation (ciphertext and secret) for the first (`b` = 0) or the second (`b` = 1). It may ask G and J anywhere, and both decapsulations of all other
ciphertexts. -/
def anonCcaRun [DecidableEq C] (P : Pke Key PK M R C) (hash : PK → Hd) (A : PK → PK → C → K → AProg X Key M Hd K R Z C) (b : Bool) : AnonCoins X Key M Hd K R Z C → Bool :=
  fun (k0, k1, GK, G, J, m) =>
    let pk0 := P.ek (GK k0.1)
    let pk1 := P.ek (GK k1.1)
    let pk := if b then pk1 else pk0
    let c := P.enc pk m (G m (hash pk)).2
    (A pk0 pk1 c (G m (hash pk)).1).run GK G J fun i c' => if c' = c then none else some (if i then fullDecaps P hash GK G J k1.1 k1.2 c' else fullDecaps P hash GK G J k0.1 k0.2 c')

noncomputable def anonCcaProb [Fintype X] [DecidableEq X] [Fintype Key] [Fintype M] [DecidableEq M] [Fintype Hd] [DecidableEq Hd] [Fintype K] [Fintype R] [Fintype Z] [DecidableEq Z] [Fintype C]
    [DecidableEq C] (P : Pke Key PK M R C) (hash : PK → Hd) (A : PK → PK → C → K → AProg X Key M Hd K R Z C) (b : Bool) : ℚ := E fun x => ind (anonCcaRun P hash A b x = true)

/-- The attack with one of the key pairs its own: it decapsulates with this key pair itself (`key`, rejection secret `z`, `c0` is the ciphertext for which it must not), by one query to G and at
most one to J. `b` tells which of the two is not its own. -/
def AProg.own [DecidableEq C] (P : Pke Key PK M R C) (hash : PK → Hd) (b : Bool) (key : Key) (z : Z) (c0 : C) : AProg X Key M Hd K R Z C → FProg X Key M Hd K R Z C
  | .guess g => .guess g
  | .askK x next => .askK x fun y => (next y).own P hash b key z c0
  | .askG m h next => .askG m h fun x y => (next x y).own P hash b key z c0
  | .askJ z' c next => .askJ z' c fun x => (next x).own P hash b key z c0
  | .decaps i c next =>
    if i = b then .decaps c fun x => (next x).own P hash b key z c0
    else if c = c0 then (next none).own P hash b key z c0
    else .askG (P.dec key c) (hash (P.ek key)) fun x y =>
      if P.enc (P.ek key) (P.dec key c) y = c then (next (some x)).own P hash b key z c0 else .askJ z c fun x' => (next (some x')).own P hash b key z c0

/-- Makes the other key pair, of the seed `d` with the rejection secret `z`, itself: the given public key is the first (`b` = 0) or the second (`b` = 1). -/
def ownAttack [DecidableEq C] (P : Pke Key PK M R C) (hash : PK → Hd) (A : PK → PK → C → K → AProg X Key M Hd K R Z C) (b : Bool) (d : X) (z : Z) : PK → C → K → FProg X Key M Hd K R Z C :=
  fun pk c k => .askK d fun key => (if b then A (P.ek key) pk c k else A pk (P.ek key) c k).own P hash b key z c

end

/-- The advantages of the six distinguishers of C84 against PRF and against Module-LWE, on average over the answers to the queries that do not concern the key pair. -/
noncomputable def meanCipher (P : Params) {S : Type} [Fintype S] (mat : S → Fin P.k → Fin P.k → Rq) (hash : S × List UInt8 → Bytes 32) (A : FullAttack P S) : ℚ :=
  E fun a : (Bytes 32 → S × Bytes 32) × (Bytes 32 → Bytes 32 → Bytes 32 × Bytes 32) => |cipherAdv P mat (guessReduction (kPke P mat) (simpleAttack hash A a.1 a.2)) true|

/-- An attack on the anonymity of ML-KEM. -/
abbrev AnonCcaAttack (P : Params) (S : Type) : Type :=
  S × List UInt8 → S × List UInt8 → Ciphertext P → Bytes 32 → AProg (Bytes 32) (S × Bytes 32) (Bytes 32) (Bytes 32) (Bytes 32) (Bytes 32) (Bytes 32) (Ciphertext P)

/-- The advantages for the attack that makes one of the key pairs itself, on average over its seeds. -/
noncomputable def ownHardness (P : Params) {S : Type} [Fintype S] (mat : S → Fin P.k → Fin P.k → Rq) (hash : S × List UInt8 → Bytes 32) (A : AnonCcaAttack P S) (b : Bool) : ℚ :=
  E fun o : Bytes 32 × Bytes 32 => meanCipher P mat hash (ownAttack (kPke P mat) hash A b o.1 o.2) + meanHardness P mat hash (ownAttack (kPke P mat) hash A b o.1 o.2)

end Verif.Spec
