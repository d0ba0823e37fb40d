import Verif.Spec.MlweSeed
import Verif.Proof.MlweFail
import Verif.Proof.Shake

/-! # K-PKE as it stands: chosen-plaintext security and decryption failures -/

set_option autoImplicit false

namespace Verif.Proof
open Finset Verif.Spec

section
variable {S KN PK M R C X Y Tape : Type} [Fintype S] [Fintype KN] [Fintype R] [Fintype X] [Fintype Y] [Fintype Tape]

theorem cpa_nested (Q : Pke (S × KN) PK M R C) (B : CpaAttack PK M C Tape) (b : Bool) :
    cpaProb Q B b = E fun t => E fun s => E fun kn => E fun r => cpaGuess Q B b t s kn r := by
  unfold cpaProb
  rw [E_prod]
  refine congrArg E (funext fun t => ?_)
  rw [E_prod, E_prod]
  rfl

/-- Seeds in place of the key and of the coins. -/
theorem cpa_expand (Q : Pke (S × KN) PK M R C) (g : X → KN) (h : Y → R) (B : CpaAttack PK M C Tape) (b : Bool) :
    cpaProb (expandPke Q g h) B b = cpaProb Q B b + distAdv g (keyExpansionTest Q h B b) + distAdv h (coinExpansionTest Q B b) := by
  have e1 : ∀ kn, keyExpansionTest Q h B b kn = E fun t => E fun s => E fun y => cpaGuess Q B b t s kn (h y) := fun kn => by
    unfold keyExpansionTest
    rw [E_prod]
    refine congrArg E (funext fun t => ?_)
    rw [E_prod]
  have e2 : ∀ r, coinExpansionTest Q B b r = E fun t => E fun s => E fun kn => cpaGuess Q B b t s kn r := fun r => by
    unfold coinExpansionTest
    rw [E_prod]
    refine congrArg E (funext fun t => ?_)
    rw [E_prod]
  have e3 : cpaProb (expandPke Q g h) B b = E fun t => E fun s => E fun x => E fun y => cpaGuess Q B b t s (g x) (h y) := cpa_nested _ _ _
  rw [e3, cpa_nested]
  unfold distAdv
  rw [funext e1, funext e2]
  have c1 : ∀ {Z W : Type} [Fintype Z] [Fintype W] (f : Tape → S → Z → W → ℚ), (E fun z => E fun t => E fun s => E fun w => f t s z w) = E fun t => E fun s => E fun z => E fun w => f t s z w := fun f => by
    rw [E_comm]
    refine congrArg E (funext fun t => ?_)
    rw [E_comm]
  have c2 : ∀ {Z W : Type} [Fintype Z] [Fintype W] (f : Tape → S → Z → W → ℚ), (E fun w => E fun t => E fun s => E fun z => f t s z w) = E fun t => E fun s => E fun z => E fun w => f t s z w := fun f => by
    rw [E_comm]
    refine congrArg E (funext fun t => ?_)
    rw [E_comm]
    refine congrArg E (funext fun s => ?_)
    rw [E_comm]
  have k1 := c1 (fun t s x y => cpaGuess Q B b t s (g x) (h y))
  have k2 := c1 (fun t s kn y => cpaGuess Q B b t s kn (h y))
  have k3 := c2 (fun t s kn y => cpaGuess Q B b t s kn (h y))
  have k4 := c2 (fun t s kn r => cpaGuess Q B b t s kn r)
  rw [k1, k2, k3, k4]
  ring

theorem fail_expand (Q : Pke (S × KN) PK M R C) (g : X → KN) (h : Y → R) :
    failProb (expandPke Q g h) = failProb Q + distAdv g (keyFailTest Q h) + distAdv h (coinFailTest Q) := by
  have e0 : failProb (expandPke Q g h) = E fun s => E fun x => E fun y => failGuess Q s (g x) (h y) := by
    unfold failProb
    rw [E_prod, E_prod]
    rfl
  have e0' : failProb Q = E fun s => E fun kn => E fun r => failGuess Q s kn r := by
    unfold failProb
    rw [E_prod, E_prod]
    rfl
  have e1 : ∀ kn, keyFailTest Q h kn = E fun s => E fun y => failGuess Q s kn (h y) := fun kn => by
    unfold keyFailTest
    rw [E_prod]
  have e2 : ∀ r, coinFailTest Q r = E fun s => E fun kn => failGuess Q s kn r := fun r => by
    unfold coinFailTest
    rw [E_prod]
  rw [e0, e0']
  unfold distAdv
  rw [funext e1, funext e2]
  have c1 : ∀ {Z W : Type} [Fintype Z] [Fintype W] (f : S → Z → W → ℚ), (E fun z => E fun s => E fun w => f s z w) = E fun s => E fun z => E fun w => f s z w := fun f => E_comm _
  have c2 : ∀ {Z W : Type} [Fintype Z] [Fintype W] (f : S → Z → W → ℚ), (E fun w => E fun s => E fun z => f s z w) = E fun s => E fun z => E fun w => f s z w := fun f => by
    rw [E_comm]
    refine congrArg E (funext fun s => ?_)
    rw [E_comm]
  have k1 := c1 (fun s x y => failGuess Q s (g x) (h y))
  have k2 := c1 (fun s kn y => failGuess Q s kn (h y))
  have k3 := c2 (fun s kn y => failGuess Q s kn (h y))
  have k4 := c2 (fun s kn r => failGuess Q s kn r)
  rw [k1, k2, k3, k4]
  ring

end

section
variable {P : Params} {S : Type} [Fintype S] (mat : S → Fin P.k → Fin P.k → Rq) {Tape : Type} [Fintype Tape] (B : CpaAttack (S × List UInt8) (Bytes 32) (Ciphertext P) Tape)

omit [Fintype S] in
theorem seed_ek (s : S) (x : KeyNoise P) :
    (seedPke P mat).ek (s, x) = seedPublic s fun i => ∑ j, mulRq (NTTInv (mat s i j)) (cbd P.η₁ (x.1 j)) + cbd P.η₁ (x.2 i) := by
  have h := ek_public (P := P) (fun i j => NTTInv (mat s i j)) x.1 x.2
  have hm : nttMat P.k P.k (fun i j => NTTInv (mat s i j)) = mat s := funext fun i => funext fun j => ntt_nttInv _
  rw [hm] at h
  have h2 := congrArg Prod.snd h
  exact Prod.ext rfl h2

omit [Fintype S] in
theorem seed_enc (s : S) (t : Fin P.k → Rq) (m : Bytes 32) (r : PkeCoins P) :
    (seedPke P mat).enc (seedPublic s t) m r = listBytes _ (pkePack P (fun i => if h : i < P.k then ∑ j, mulRq (NTTInv (mat s j ⟨i, h⟩)) (cbd P.η₁ (r.1 j)) + cbd P.η₂ (r.2.1 ⟨i, h⟩) else 0)
      (∑ j, mulRq (t j) (cbd P.η₁ (r.1 j)) + cbd P.η₂ r.2.2 + pkeMu (byteList m))) := by
  have h := enc_public (P := P) (fun i j => NTTInv (mat s i j)) t m r
  have hp : publicOf (P := P) (fun i j => NTTInv (mat s i j)) t = (mat s, (seedPublic (P := P) s t).2) := Prod.ext (funext fun i => funext fun j => ntt_nttInv _) rfl
  rw [hp] at h
  exact h

theorem seed_key_hop (b : Bool) : cpaProb (seedPke P mat) B b = seedReal mat (seedKeyTest mat B b) := by
  unfold cpaProb seedReal
  rw [← E_equiv (Equiv.prodAssoc Tape (S × KeyNoise P) (PkeCoins P)), ← E_equiv (Equiv.prodCongr (Equiv.prodComm (S × KeyNoise P) Tape) (Equiv.refl (PkeCoins P))),
    ← E_equiv (Equiv.prodAssoc (S × KeyNoise P) Tape (PkeCoins P)).symm, E_prod]
  refine congrArg E (funext fun x => ?_)
  obtain ⟨s, kn⟩ := x
  unfold seedKeyTest
  refine congrArg E (funext fun y => ?_)
  rw [← seed_ek]
  rfl

theorem seed_cipher_hop (b : Bool) : seedUniform (seedKeyTest mat B b) = seedReal' mat (seedCipherTest B b) := by
  unfold seedUniform seedReal'
  rw [E_prod (α := S × (Fin P.k → Rq)) (β := PkeCoins P)]
  refine congrArg E (funext fun x => ?_)
  unfold seedKeyTest seedCipherTest
  rw [← E_equiv (Equiv.prodComm (PkeCoins P) Tape), E_prod]
  refine congrArg E (funext fun r => ?_)
  refine congrArg E (funext fun w => ?_)
  dsimp only [Equiv.prodComm_apply, Prod.swap]
  rw [seed_enc]

theorem seed_uniform_hop (b : Bool) : seedUniform' (seedCipherTest B b) = seedUniform' fun s t u v =>
    E fun w : Tape => ind (B.guess w (seedPublic s t) (listBytes _ (pkePack P (fun i => if h : i < P.k then u ⟨i, h⟩ else 0) v)) = true) := by
  unfold seedUniform'
  rw [E_prod (α := S × (Fin P.k → Rq)), E_prod (α := S × (Fin P.k → Rq))]
  refine congrArg E (funext fun x => ?_)
  rw [E_prod (α := Fin P.k → Rq), E_prod (α := Fin P.k → Rq)]
  refine congrArg E (funext fun u => ?_)
  unfold seedCipherTest
  dsimp only
  refine (E_comm (fun (v : Rq) (w : Tape) => ind (B.guess w (seedPublic x.1 x.2) (listBytes _ (pkePack P (fun i => if h : i < P.k then u ⟨i, h⟩ else 0)
    (v + pkeMu (byteList (seedChosen B b w (seedPublic x.1 x.2)))))) = true))).trans (Eq.trans ?_ (E_comm (fun (w : Tape) (v : Rq) => ind (B.guess w (seedPublic x.1 x.2)
      (listBytes _ (pkePack P (fun i => if h : i < P.k then u ⟨i, h⟩ else 0) v)) = true))))
  refine congrArg E (funext fun w => ?_)
  exact E_equiv (Equiv.addRight (pkeMu (byteList (seedChosen B b w (seedPublic x.1 x.2)))))
    (fun v => ind (B.guess w (seedPublic x.1 x.2) (listBytes _ (pkePack P (fun i => if h : i < P.k then u ⟨i, h⟩ else 0) v)) = true))

theorem seed_cpa : cpaProb (seedPke P mat) B true - cpaProb (seedPke P mat) B false =
    seedAdv mat (seedKeyTest mat B true) - seedAdv mat (seedKeyTest mat B false) + (seedAdv' mat (seedCipherTest B true) - seedAdv' mat (seedCipherTest B false)) := by
  unfold seedAdv seedAdv'
  rw [seed_key_hop, seed_key_hop, seed_cipher_hop, seed_cipher_hop, seed_uniform_hop, seed_uniform_hop]
  ring

theorem kpke_cpa : cpaProb (kPke P mat) B true - cpaProb (kPke P mat) B false =
    distAdv (prfKey P) (keyExpansionTest (seedPke P mat) (prfCoins P) B true) - distAdv (prfKey P) (keyExpansionTest (seedPke P mat) (prfCoins P) B false) +
    (distAdv (prfCoins P) (coinExpansionTest (seedPke P mat) B true) - distAdv (prfCoins P) (coinExpansionTest (seedPke P mat) B false)) +
    (seedAdv mat (seedKeyTest mat B true) - seedAdv mat (seedKeyTest mat B false)) + (seedAdv' mat (seedCipherTest B true) - seedAdv' mat (seedCipherTest B false)) := by
  have h := seed_cpa mat B
  unfold kPke
  rw [cpa_expand, cpa_expand]
  linarith

theorem seed_fail : failProb (seedPke P mat) = failProb (mlPke P) + distAdv mat (matrixFailTest P) := by
  have e1 : failProb (seedPke P mat) = E fun s => matrixFailTest P (mat s) := by
    unfold failProb
    rw [← E_equiv (Equiv.prodAssoc S (KeyNoise P) (PkeCoins P)).symm, E_prod]
    rfl
  have e2 : failProb (mlPke P) = E (matrixFailTest P) := by
    unfold failProb
    rw [← E_equiv (Equiv.prodAssoc (Fin P.k → Fin P.k → Rq) (KeyNoise P) (PkeCoins P)).symm, E_prod]
    rfl
  rw [e1, e2]
  unfold distAdv
  ring

theorem kpke_fail : failProb (kPke P mat) = failProb (mlPke P) + distAdv mat (matrixFailTest P) + distAdv (prfKey P) (keyFailTest (seedPke P mat) (prfCoins P)) +
    distAdv (prfCoins P) (coinFailTest (seedPke P mat)) := by
  unfold kPke
  rw [fail_expand, seed_fail]

end

theorem PRF_length (η : Nat) (s : List UInt8) (b : UInt8) : (PRF η s b).length = 64 * η := SHAKE256_length _ _

theorem expandMat_eq {P : Params} {N : Nat} {ρ : Bytes 32} {A : Nat → Nat → Rq} (hA : ExpandA P.k N (byteList ρ) = some A) {i j : Nat} (hi : i < P.k) (hj : j < P.k) :
    matOf (expandMat P N ρ) i j = A i j := by
  unfold ExpandA at hA
  split at hA
  · injection hA with hA
    rw [← hA]
    exact matOf_eq (expandMat P N ρ) ⟨i, hi⟩ ⟨j, hj⟩
  · exact absurd hA (by simp)

theorem prf_cbdVec {k η : Nat} {σ : List UInt8} {o i : Nat} (hi : i < k) :
    cbdVec (k := k) η (fun i : Fin k => listBytes (64 * η) (PRF η σ (UInt8.ofNat (o + i.val)))) i = noise η σ (o + i) := by
  rw [cbdVec_cbd η _ ⟨i, hi⟩]
  unfold cbd noise
  rw [byteList_listBytes _ (PRF_length _ _ _)]

theorem prf_cbdVec0 {k η : Nat} {σ : List UInt8} {i : Nat} (hi : i < k) :
    cbdVec (k := k) η (fun i : Fin k => listBytes (64 * η) (PRF η σ (UInt8.ofNat i.val))) i = noise η σ i := by
  rw [cbdVec_cbd η _ ⟨i, hi⟩]
  unfold cbd noise
  rw [byteList_listBytes _ (PRF_length _ _ _)]

end Verif.Proof
