import Verif.Spec.Anon
import Verif.Proof.MlweSeed

/-! # Pseudorandom ciphertexts and anonymity -/

set_option autoImplicit false

namespace Verif.Proof
open Finset Verif.Spec

section
variable {Key PK M R C Tape W : Type} [Fintype Key] [Fintype R] [Fintype Tape] [Fintype W]

theorem anon_cpa (Q : Pke Key PK M R C) (A : AnonAttack PK M C Tape) (b b' : Bool) : anonProb Q A b = cpaProb Q (A.against Q b) b' := by
  have e1 : anonProb Q A b = E fun t => E fun k0 => E fun k1 => E fun r =>
      ind (A.guess t (Q.ek k0) (Q.ek k1) (Q.enc (if b then Q.ek k1 else Q.ek k0) (A.choose t (Q.ek k0) (Q.ek k1)) r) = true) := by
    unfold anonProb
    rw [E_prod]
    refine congrArg E (funext fun t => ?_)
    rw [E_prod]
    refine congrArg E (funext fun k0 => ?_)
    rw [E_prod]
  have e2 : cpaProb Q (A.against Q b) b' = E fun t => E fun k => E fun k' => E fun r =>
      ind ((A.against Q b).guess (t, k) (Q.ek k') (Q.enc (Q.ek k') ((A.against Q b).choose (t, k) (Q.ek k')).1 r) = true) := by
    unfold cpaProb
    rw [E_prod, E_prod]
    refine congrArg E (funext fun t => congrArg E (funext fun k => ?_))
    rw [E_prod]
    refine congrArg E (funext fun k' => congrArg E (funext fun r => ?_))
    dsimp only [AnonAttack.against]
    cases b' <;> rfl
  rw [e1, e2]
  refine congrArg E (funext fun t => ?_)
  cases b
  · exact E_comm _
  · rfl

omit [Fintype R] in
theorem anon_sim (Q : Pke Key PK M R C) (sim : W → C) (A : AnonAttack PK M C Tape) : simProb Q sim (A.against Q true) = simProb Q sim (A.against Q false) := by
  have e : ∀ b, simProb Q sim (A.against Q b) = E fun t => E fun k => E fun k' => E fun w => ind ((A.against Q b).guess (t, k) (Q.ek k') (sim w) = true) := fun b => by
    unfold simProb
    rw [E_prod, E_prod]
    refine congrArg E (funext fun t => congrArg E (funext fun k => ?_))
    rw [E_prod]
  rw [e, e]
  refine congrArg E (funext fun t => ?_)
  exact E_comm _

end

theorem sim_expand {S KN PK M R C X Y Tape W : Type} [Fintype S] [Fintype KN] [Fintype X] [Fintype Tape] [Fintype W] (Q : Pke (S × KN) PK M R C) (g : X → KN) (h : Y → R) (sim : W → C)
    (B : CpaAttack PK M C Tape) : simProb (expandPke Q g h) sim B = simProb Q sim B + distAdv g (simExpansionTest Q sim B) := by
  have e0 : ∀ {Z : Type} [Fintype Z] (f : Tape → S → Z → W → ℚ), (E fun x : Tape × (S × Z) × W => f x.1 x.2.1.1 x.2.1.2 x.2.2) = E fun z => E fun t => E fun s => E fun w => f t s z w := by
    intro Z _ f
    rw [E_prod, E_comm (fun z t => E fun s => E fun w => f t s z w)]
    refine congrArg E (funext fun t => ?_)
    rw [E_prod, E_prod, E_comm (fun z s => E fun w => f t s z w)]
  have e1 : ∀ kn, simExpansionTest Q sim B kn = E fun t => E fun s => E fun w => ind (B.guess t (Q.ek (s, kn)) (sim w) = true) := fun kn => by
    unfold simExpansionTest
    rw [E_prod]
    refine congrArg E (funext fun t => ?_)
    rw [E_prod]
  have k1 : simProb (expandPke Q g h) sim B = _ := e0 fun t s x w => ind (B.guess t (Q.ek (s, g x)) (sim w) = true)
  have k2 : simProb Q sim B = _ := e0 fun t s kn w => ind (B.guess t (Q.ek (s, kn)) (sim w) = true)
  rw [k1, k2]
  unfold distAdv
  rw [funext e1]
  ring

section
variable {P : Params} {S : Type} [Fintype S] (mat : S → Fin P.k → Fin P.k → Rq) {Tape : Type} [Fintype Tape] (B : CpaAttack (S × List UInt8) (Bytes 32) (Ciphertext P) Tape)

theorem sim_key_hop : simProb (seedPke P mat) (packUniform P) B = seedReal mat (simKeyTest B) := by
  unfold simProb seedReal
  rw [← E_equiv (Equiv.prodAssoc Tape (S × KeyNoise P) ((Fin P.k → Rq) × Rq)), ← E_equiv (Equiv.prodCongr (Equiv.prodComm (S × KeyNoise P) Tape) (Equiv.refl ((Fin P.k → Rq) × Rq))),
    ← E_equiv (Equiv.prodAssoc (S × KeyNoise P) Tape ((Fin P.k → Rq) × Rq)).symm, E_prod]
  refine congrArg E (funext fun x => ?_)
  obtain ⟨s, kn⟩ := x
  unfold simKeyTest
  refine congrArg E (funext fun y => ?_)
  rw [← seed_ek]
  rfl

theorem sim_uniform_hop : seedUniform (simKeyTest B) = seedUniform' fun s t u v =>
    E fun w : Tape => ind (B.guess w (seedPublic s t) (listBytes _ (pkePack P (fun i => if h : i < P.k then u ⟨i, h⟩ else 0) v)) = true) := by
  unfold seedUniform seedUniform'
  rw [E_prod (α := S × (Fin P.k → Rq)) (β := (Fin P.k → Rq) × Rq)]
  refine congrArg E (funext fun x => ?_)
  unfold simKeyTest
  rw [← E_equiv (Equiv.prodComm ((Fin P.k → Rq) × Rq) Tape), E_prod]
  rfl

theorem kpke_sim (b : Bool) : cpaProb (kPke P mat) B b - simProb (kPke P mat) (packUniform P) B = cipherAdv P mat B b := by
  unfold kPke cipherAdv
  rw [cpa_expand, sim_expand, seed_key_hop, sim_key_hop]
  unfold seedAdv seedAdv'
  rw [seed_cipher_hop, seed_uniform_hop, sim_uniform_hop]
  ring

end

end Verif.Proof
