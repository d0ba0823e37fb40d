import Verif.Spec.AnonCca

/-! # Specification: the chosen-ciphertext game with many key pairs and many encapsulations

The game of `Spec.RomFull` with `n` key pairs and `N` encapsulations. All key pairs and encapsulations use the same G and J. -/

set_option autoImplicit false

namespace Verif.Spec
open Finset

/-- An attack: as `FProg`, with decapsulations by each of the `n` key pairs. -/
inductive MProg (n : Nat) (X Key M Hd K R Z C : Type) where
  | guess (b : Bool)
  | askK (x : X) (next : Key → MProg n X Key M Hd K R Z C)
  | askG (m : M) (h : Hd) (next : K → R → MProg n X Key M Hd K R Z C)
  | askJ (z : Z) (c : C) (next : K → MProg n X Key M Hd K R Z C)
  | decaps (i : Fin n) (c : C) (next : Option K → MProg n X Key M Hd K R Z C)

section
variable {n N : Nat} {X Key PK M Hd K R Z C : Type}

/-- The guess for given answers; `D i` is the decapsulation by the key pair `i`. -/
def MProg.run (GK : X → Key) (G : M → Hd → K × R) (J : Z → C → K) (D : Fin n → C → Option K) : MProg n X Key M Hd K R Z C → Bool
  | .guess b => b
  | .askK x next => (next (GK x)).run GK G J D
  | .askG m h next => (next (G m h).1 (G m h).2).run GK G J D
  | .askJ z c next => (next (J z c)).run GK G J D
  | .decaps i c next => (next (D i c)).run GK G J D

/-- At most `qK`, `qG`, `qJ` and `qD` queries of the four kinds, whatever the answers are. -/
def MProg.Queries : MProg n X Key M Hd K R Z C → Nat → Nat → Nat → Nat → Prop
  | .guess _, _, _, _, _ => True
  | .askK _ next, qK, qG, qJ, qD => ∃ q, qK = q + 1 ∧ ∀ x, (next x).Queries q qG qJ qD
  | .askG _ _ next, qK, qG, qJ, qD => ∃ q, qG = q + 1 ∧ ∀ x y, (next x y).Queries qK q qJ qD
  | .askJ _ _ next, qK, qG, qJ, qD => ∃ q, qJ = q + 1 ∧ ∀ x, (next x).Queries qK qG q qD
  | .decaps _ _ next, qK, qG, qJ, qD => ∃ q, qD = q + 1 ∧ ∀ x, (next x).Queries qK qG qJ q

/-- The random choices: the seeds and rejection secrets of the key pairs, G on both kinds of inputs, J, the encapsulated messages, and an independent secret for each encapsulation. -/
abbrev MultiCoins (n N : Nat) (X Key M Hd K R Z C : Type) : Type := (Fin n → X × Z) × (X → Key) × (M → Hd → K × R) × (Z → C → K) × (Fin N → M) × (Fin N → K)

/-- The attack gets all public keys and `N` encapsulations, the encapsulation `j` for the key pair `u j`, each with its secret (`sec j` = 0) or an independent one (`sec j` = 1). It may ask G and J
anywhere, and with every key pair decapsulations of all ciphertexts that were not made for it. -/
def multiRun [DecidableEq C] (P : Pke Key PK M R C) (hash : PK → Hd) (u : Fin N → Fin n) (A : (Fin n → PK) → (Fin N → C × K) → MProg n X Key M Hd K R Z C) (sec : Fin N → Bool) :
    MultiCoins n N X Key M Hd K R Z C → Bool :=
  fun (keys, GK, G, J, ms, K1) =>
    let pk i := P.ek (GK (keys i).1)
    let c j := P.enc (pk (u j)) (ms j) (G (ms j) (hash (pk (u j)))).2
    (A pk fun j => (c j, if sec j then K1 j else (G (ms j) (hash (pk (u j)))).1)).run GK G J
      fun i c' => if ∃ j, u j = i ∧ c j = c' then none else some (fullDecaps P hash GK G J (keys i).1 (keys i).2 c')

/-- The probability that the guess is 1. -/
noncomputable def multiProb [Fintype X] [DecidableEq X] [Fintype Key] [Fintype M] [DecidableEq M] [Fintype Hd] [DecidableEq Hd] [Fintype K] [Fintype R] [Fintype Z] [DecidableEq Z] [Fintype C]
    [DecidableEq C] (P : Pke Key PK M R C) (hash : PK → Hd) (u : Fin N → Fin n) (A : (Fin n → PK) → (Fin N → C × K) → MProg n X Key M Hd K R Z C) (sec : Fin N → Bool) : ℚ :=
  E fun x => ind (multiRun P hash u A sec x = true)

/-! ## The attack on one key pair and one encapsulation -/

/-- Asks G for `n` key pairs. -/
def FProg.askKs : (n : Nat) → (Fin n → X) → ((Fin n → Key) → FProg X Key M Hd K R Z C) → FProg X Key M Hd K R Z C
  | 0, _, f => f Fin.elim0
  | n + 1, d, f => .askK (d 0) fun key => FProg.askKs n (fun i => d i.succ) fun keys => f (Fin.cons key keys)

/-- Asks G for `N` encapsulations. -/
def FProg.askGs : (N : Nat) → (Fin N → M × Hd) → ((Fin N → K × R) → FProg X Key M Hd K R Z C) → FProg X Key M Hd K R Z C
  | 0, _, f => f Fin.elim0
  | N + 1, d, f => .askG (d 0).1 (d 0).2 fun k r => FProg.askGs N (fun j => d j.succ) fun g => f (Fin.cons (k, r) g)

/-- All key pairs but `i0` are its own: it decapsulates with them itself, by one query to G and at most one to J. `no i c` tells what it must not decapsulate. -/
def MProg.own [DecidableEq C] (P : Pke Key PK M R C) (hash : PK → Hd) (i0 : Fin n) (key : Fin n → Key) (z : Fin n → Z) (no : Fin n → C → Bool) :
    MProg n X Key M Hd K R Z C → FProg X Key M Hd K R Z C
  | .guess g => .guess g
  | .askK x next => .askK x fun y => (next y).own P hash i0 key z no
  | .askG m h next => .askG m h fun x y => (next x y).own P hash i0 key z no
  | .askJ z' c next => .askJ z' c fun x => (next x).own P hash i0 key z no
  | .decaps i c next =>
    if no i c then (next none).own P hash i0 key z no
    else if i = i0 then .decaps c fun x => (next x).own P hash i0 key z no
    else .askG (P.dec (key i) c) (hash (P.ek (key i))) fun x y =>
      if P.enc (P.ek (key i)) (P.dec (key i) c) y = c then (next (some x)).own P hash i0 key z no else .askJ (z i) c fun x' => (next (some x')).own P hash i0 key z no

/-- Runs the attack once: the given public key and encapsulation are those of the key pair `u t` and the encapsulation `t`. It makes all others itself, from the seeds, messages and secrets `o`. -/
def multiOwn [DecidableEq C] (P : Pke Key PK M R C) (hash : PK → Hd) (u : Fin N → Fin n) (A : (Fin n → PK) → (Fin N → C × K) → MProg n X Key M Hd K R Z C) (t : Fin N) (sec : Fin N → Bool)
    (o : (Fin n → X × Z) × (Fin N → M) × (Fin N → K)) : PK → C → K → FProg X Key M Hd K R Z C := fun pk c k =>
  .askKs n (fun i => (o.1 i).1) fun key =>
    let pks := Function.update (fun i => P.ek (key i)) (u t) pk
    .askGs N (fun j => (o.2.1 j, hash (pks (u j)))) fun g =>
      let cs := Function.update (fun j => P.enc (pks (u j)) (o.2.1 j) (g j).2) t c
      (A pks fun j => (cs j, if j = t then k else if sec j then o.2.2 j else (g j).1)).own P hash (u t) key (fun i => (o.1 i).2) fun i c' => decide (∃ j, u j = i ∧ cs j = c')

/-- The attack of `Spec.RomFull` as an attack on one of one key pair. -/
def FProg.multi : FProg X Key M Hd K R Z C → MProg 1 X Key M Hd K R Z C
  | .guess b => .guess b
  | .askK x next => .askK x fun y => (next y).multi
  | .askG m h next => .askG m h fun x y => (next x y).multi
  | .askJ z c next => .askJ z c fun x => (next x).multi
  | .decaps c next => .decaps 0 c fun x => (next x).multi

end

/-- An attack on `n` key pairs and `N` encapsulations of ML-KEM. -/
abbrev MultiAttack (n N : Nat) (P : Params) (S : Type) : Type :=
  (Fin n → S × List UInt8) → (Fin N → Ciphertext P × Bytes 32) → MProg n (Bytes 32) (S × Bytes 32) (Bytes 32) (Bytes 32) (Bytes 32) (Bytes 32) (Bytes 32) (Ciphertext P)

/-- The advantages for the attacks that make all key pairs and encapsulations but one themselves, the encapsulations before it with independent secrets, on average over their choices. -/
noncomputable def multiHardness {n N : Nat} (P : Params) {S : Type} [Fintype S] (mat : S → Fin P.k → Fin P.k → Rq) (hash : S × List UInt8 → Bytes 32) (u : Fin N → Fin n) (A : MultiAttack n N P S) : ℚ :=
  ∑ t : Fin N, E fun o : (Fin n → Bytes 32 × Bytes 32) × (Fin N → Bytes 32) × (Fin N → Bytes 32) => meanHardness P mat hash (multiOwn (kPke P mat) hash u A t (fun j => decide (j < t)) o)

end Verif.Spec
