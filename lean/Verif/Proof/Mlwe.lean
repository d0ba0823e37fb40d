import Verif.Spec.Mlwe
import Verif.Proof.Rom
import Verif.Proof.Correct

/-! # K-PKE with a uniform matrix: chosen-plaintext security from Module-LWE -/

set_option autoImplicit false

namespace Verif.Proof
open Finset Verif.Spec

theorem cbdVec_cbd {k : Nat} (η : Nat) (b : Fin k → Bytes (64 * η)) (i : Fin k) : cbdVec η b i.val = cbd η (b i) := by
  unfold cbdVec cbd byteList
  rw [dif_pos i.isLt]

theorem matOf_eq {k : Nat} (A : Fin k → Fin k → Rq) (i j : Fin k) : matOf A i.val j.val = A i j := by
  unfold matOf
  rw [dif_pos ⟨i.isLt, j.isLt⟩]

theorem sum_range_rq (k : Nat) (f : Nat → Rq) (g : Fin k → Rq) (h : ∀ i : Fin k, f i.val = g i) : ∑ i ∈ range k, f i = ∑ i, g i := by
  rw [Finset.sum_range]
  exact Finset.sum_congr rfl fun i _ => h i

/-- An inner product in T_q is the transform of one in R_q. -/
theorem dot_ntt (k : Nat) (f g : Nat → Rq) (f' g' : Fin k → Rq) (hf : ∀ i : Fin k, f i.val = NTT (f' i)) (hg : ∀ i : Fin k, g i.val = g' i) :
    dotNTT k f (fun i => NTT (g i)) = NTT (∑ i, mulRq (f' i) (g' i)) := by
  have : NTT (∑ i, mulRq (f' i) (g' i)) = ∑ i, NTT (mulRq (f' i) (g' i)) := map_sum (AddMonoidHom.mk' NTT ntt_add) _ _
  rw [this, dot_eq]
  refine sum_range_rq k _ _ fun i => ?_
  rw [ntt_mul, hf, hg]

theorem pkeEk_congr {P : Params} {t t' : Nat → Rq} (h : ∀ i < P.k, t i = t' i) : pkeEk P t = pkeEk P t' := concat_congr fun i hi => by rw [h i hi]

theorem pkePack_congr {P : Params} {u u' : Nat → Rq} {v v' : Rq} (h : ∀ i < P.k, u i = u' i) (hv : v = v') : pkePack P u v = pkePack P u' v' := by
  unfold pkePack
  rw [concat_congr fun i hi => by rw [h i hi], hv]

theorem pkeDecodeT_ek (P : Params) (t : Nat → Rq) (i : Nat) (hi : i < P.k) : pkeDecodeT (pkeEk P t) i = t i := by
  unfold pkeDecodeT pkeEk
  rw [← List.append_nil (concat P.k _), bytes_concat (fun i => byteEncode12_length _) _ hi, byteDecode12_byteEncode12]

/-- The transform of the entries of a matrix. -/
def nttMat (n k : Nat) : (Fin n → Fin k → Rq) ≃ (Fin n → Fin k → Rq) where
  toFun A i j := NTT (A i j)
  invFun A i j := NTTInv (A i j)
  left_inv A := by funext i j; exact nttInv_ntt _
  right_inv A := by funext i j; exact ntt_nttInv _

section
variable {P : Params} {Tape : Type} [Fintype Tape] (B : CpaAttack (PkePublic P) (Bytes 32) (Ciphertext P) Tape)

/-- The public key of the game is that of the reduction for a real instance. -/
theorem ek_public (A : Fin P.k → Fin P.k → Rq) (s e : Fin P.k → Bytes (64 * P.η₁)) :
    (mlPke P).ek (nttMat P.k P.k A, s, e) = publicOf A fun i => ∑ j, mulRq (A i j) (cbd P.η₁ (s j)) + cbd P.η₁ (e i) := by
  have hm : (nttMat P.k P.k A) = fun i j => NTT (A i j) := rfl
  rw [hm]
  refine Prod.ext rfl ?_
  unfold mlPke publicOf
  dsimp only
  refine pkeEk_congr fun i hi => ?_
  rw [dif_pos hi]
  unfold pkeT
  refine Eq.trans ?_ (ntt_add _ _).symm
  refine congrArg₂ (· + ·) ?_ (congrArg NTT (cbdVec_cbd P.η₁ e ⟨i, hi⟩))
  exact dot_ntt P.k _ _ (fun j => A ⟨i, hi⟩ j) (fun j => cbd P.η₁ (s j)) (fun j => matOf_eq _ ⟨i, hi⟩ j) (fun j => cbdVec_cbd _ _ _)

/-- First step: the public key is a Module-LWE instance. -/
theorem key_hop (b : Bool) : cpaProb (mlPke P) B b = mlweReal P.k P.k P.η₁ P.η₁ (keyDistinguisher B b) := by
  unfold cpaProb mlweReal
  rw [E_prod]
  have h1 : ∀ x : Tape, (E fun y : PkeKey P × PkeCoins P =>
      ind (B.guess x ((mlPke P).ek y.1) ((mlPke P).enc ((mlPke P).ek y.1) (chosen B b x ((mlPke P).ek y.1)) y.2) = true)) =
      E fun k : PkeKey P => E fun r : PkeCoins P => ind (B.guess x ((mlPke P).ek k) ((mlPke P).enc ((mlPke P).ek k) (chosen B b x ((mlPke P).ek k)) r) = true) := fun x => E_prod _
  refine (congrArg E (funext h1)).trans ?_
  rw [← E_prod (fun y : Tape × PkeKey P => E fun r : PkeCoins P => ind (B.guess y.1 ((mlPke P).ek y.2) ((mlPke P).enc ((mlPke P).ek y.2) (chosen B b y.1 ((mlPke P).ek y.2)) r) = true))]
  rw [← E_equiv (Equiv.prodComm (PkeKey P) Tape), E_prod]
  rw [← E_equiv (Equiv.prodCongr (nttMat P.k P.k) (Equiv.refl ((Fin P.k → Bytes (64 * P.η₁)) × (Fin P.k → Bytes (64 * P.η₁)))))]
  refine congrArg E (funext fun x => ?_)
  obtain ⟨A, s, e⟩ := x
  unfold keyDistinguisher
  rw [E_prod]
  refine congrArg E (funext fun w => ?_)
  refine congrArg E (funext fun r => ?_)
  show ind (B.guess w ((mlPke P).ek (nttMat P.k P.k A, s, e)) ((mlPke P).enc ((mlPke P).ek (nttMat P.k P.k A, s, e)) (chosen B b w ((mlPke P).ek (nttMat P.k P.k A, s, e))) r) = true) = _
  rw [ek_public]

/-- The ciphertext for a public key of the reduction. -/
theorem enc_public (A : Fin P.k → Fin P.k → Rq) (t : Fin P.k → Rq) (m : Bytes 32) (r : PkeCoins P) :
    (mlPke P).enc (publicOf A t) m r = listBytes _ (pkePack P (fun i => if h : i < P.k then ∑ j, mulRq (A j ⟨i, h⟩) (cbd P.η₁ (r.1 j)) + cbd P.η₂ (r.2.1 ⟨i, h⟩) else 0)
      (∑ j, mulRq (t j) (cbd P.η₁ (r.1 j)) + cbd P.η₂ r.2.2 + pkeMu (byteList m))) := by
  refine congrArg (listBytes _) (pkePack_congr (fun i hi => ?_) ?_)
  · rw [dif_pos hi]
    unfold pkeU
    rw [dot_ntt P.k _ _ (fun j => A j ⟨i, hi⟩) (fun j => cbd P.η₁ (r.1 j)) (fun j => matOf_eq _ j ⟨i, hi⟩) (fun j => cbdVec_cbd _ _ _), nttInv_ntt]
    exact congrArg (fun x => _ + x) (cbdVec_cbd P.η₂ r.2.1 ⟨i, hi⟩)
  · unfold pkeV
    rw [dot_ntt P.k _ _ t (fun j => cbd P.η₁ (r.1 j)) (fun j => ?_) (fun j => cbdVec_cbd _ _ _), nttInv_ntt]
    · rfl
    · show pkeDecodeT (pkeEk P _) j.val = _
      rw [pkeDecodeT_ek P _ _ j.isLt, dif_pos j.isLt]

/-- A vector with one more entry. -/
def snocEquiv (n : Nat) (α : Type) : (Fin n → α) × α ≃ (Fin (n + 1) → α) where
  toFun x := Fin.snoc (α := fun _ => α) x.1 x.2
  invFun f := (fun i => f i.castSucc, f (Fin.last n))
  left_inv x := by
    refine Prod.ext (funext fun i => ?_) ?_
    · exact Fin.snoc_castSucc (α := fun _ => α) x.2 x.1 i
    · exact Fin.snoc_last (α := fun _ => α) x.2 x.1
  right_inv f := Fin.snoc_init_self f

/-- The rows of the transposed matrix, and the public vector below them. -/
def stack (k : Nat) : (Fin k → Fin k → Rq) × (Fin k → Rq) ≃ (Fin (k + 1) → Fin k → Rq) :=
  (Equiv.prodCongr (Equiv.piComm fun _ _ => Rq) (Equiv.refl (Fin k → Rq))).trans (snocEquiv k (Fin k → Rq))

theorem stack_cast {k : Nat} (A : Fin k → Fin k → Rq) (t : Fin k → Rq) (j i : Fin k) : stack k (A, t) j.castSucc i = A i j := by
  show Fin.snoc (α := fun _ => Fin k → Rq) _ _ j.castSucc i = _
  rw [Fin.snoc_castSucc]
  rfl

theorem stack_last {k : Nat} (A : Fin k → Fin k → Rq) (t : Fin k → Rq) : stack k (A, t) (Fin.last k) = t := by
  show Fin.snoc (α := fun _ => Fin k → Rq) _ _ (Fin.last k) = _
  rw [Fin.snoc_last]
  rfl

theorem snoc_cast {n : Nat} {α : Type} (x : (Fin n → α) × α) (i : Fin n) : snocEquiv n α x i.castSucc = x.1 i := Fin.snoc_castSucc (α := fun _ => α) x.2 x.1 i

theorem snoc_last' {n : Nat} {α : Type} (x : (Fin n → α) × α) : snocEquiv n α x (Fin.last n) = x.2 := Fin.snoc_last (α := fun _ => α) x.2 x.1

/-- Second step: for a uniform public key the ciphertext is a Module-LWE instance with the message added. -/
theorem cipher_hop (b : Bool) : mlweUniform P.k P.k (keyDistinguisher B b) = mlweReal (P.k + 1) P.k P.η₁ P.η₂ (cipherDistinguisher B b) := by
  unfold mlweUniform mlweReal
  rw [← E_equiv (Equiv.prodCongr (stack P.k) (Equiv.prodCongr (Equiv.refl (Fin P.k → Bytes (64 * P.η₁))) (snocEquiv P.k (Bytes (64 * P.η₂))))),
    E_prod (α := (Fin P.k → Fin P.k → Rq) × (Fin P.k → Rq)) (β := (Fin P.k → Bytes (64 * P.η₁)) × (Fin P.k → Bytes (64 * P.η₂)) × Bytes (64 * P.η₂))]
  refine congrArg E (funext fun x => ?_)
  obtain ⟨A, t⟩ := x
  unfold keyDistinguisher cipherDistinguisher
  rw [← E_equiv (Equiv.prodComm (PkeCoins P) Tape), E_prod]
  refine congrArg E (funext fun r => ?_)
  refine congrArg E (funext fun w => ?_)
  obtain ⟨y, e1, e2⟩ := r
  have hA : (fun i j => stack P.k (A, t) j.castSucc i) = A := funext fun i => funext fun j => stack_cast A t j i
  have he : (Equiv.prodCongr (stack P.k) (Equiv.prodCongr (Equiv.refl (Fin P.k → Bytes (64 * P.η₁))) (snocEquiv P.k (Bytes (64 * P.η₂))))) ((A, t), y, e1, e2) =
    (stack P.k (A, t), y, snocEquiv P.k _ (e1, e2)) := rfl
  rw [he]
  dsimp only [Equiv.prodComm_apply, Prod.swap]
  rw [hA, stack_last, enc_public]
  refine congrArg (fun c => ind (B.guess w (publicOf A t) (listBytes _ c) = true)) ?_
  refine pkePack_congr (fun i hi => ?_) ?_
  · rw [dif_pos hi, dif_pos hi]
    have e : (⟨i, by omega⟩ : Fin (P.k + 1)) = (⟨i, hi⟩ : Fin P.k).castSucc := rfl
    rw [e, snoc_cast]
    simp only [stack_cast]
  · rw [snoc_last']

/-- Third step: a uniform ciphertext does not depend on the message. -/
theorem uniform_hop (b : Bool) : mlweUniform (P.k + 1) P.k (cipherDistinguisher B b) =
    E fun x : (Fin (P.k + 1) → Fin P.k → Rq) × (Fin (P.k + 1) → Rq) => E fun w : Tape =>
      ind (B.guess w (publicOf (fun i j => x.1 j.castSucc i) (x.1 (Fin.last P.k))) (listBytes _ (pkePack P (fun i => if h : i < P.k then x.2 ⟨i, by omega⟩ else 0) (x.2 (Fin.last P.k)))) = true) := by
  unfold mlweUniform
  rw [E_prod, E_prod]
  refine congrArg E (funext fun A => ?_)
  unfold cipherDistinguisher
  rw [← E_prod (fun y : (Fin (P.k + 1) → Rq) × Tape => ind (B.guess y.2 (publicOf (fun i j => A j.castSucc i) (A (Fin.last P.k)))
    (listBytes _ (pkePack P (fun i => if h : i < P.k then y.1 ⟨i, by omega⟩ else 0) (y.1 (Fin.last P.k) + pkeMu (byteList (chosen B b y.2 (publicOf (fun i j => A j.castSucc i) (A (Fin.last P.k)))))))) = true))]
  rw [← E_prod (fun y : (Fin (P.k + 1) → Rq) × Tape => ind (B.guess y.2 (publicOf (fun i j => A j.castSucc i) (A (Fin.last P.k)))
    (listBytes _ (pkePack P (fun i => if h : i < P.k then y.1 ⟨i, by omega⟩ else 0) (y.1 (Fin.last P.k)))) = true))]
  rw [← E_equiv (Equiv.prodComm Tape (Fin (P.k + 1) → Rq)), ← E_equiv (Equiv.prodComm Tape (Fin (P.k + 1) → Rq)), E_prod, E_prod]
  refine congrArg E (funext fun w => ?_)
  generalize hm : pkeMu (byteList (chosen B b w (publicOf (fun i j => A j.castSucc i) (A (Fin.last P.k))))) = μ
  dsimp only [Equiv.prodComm_apply, Prod.swap]
  rw [hm]
  rw [← E_equiv (snocEquiv P.k Rq), ← E_equiv (snocEquiv P.k Rq), E_prod, E_prod]
  refine congrArg E (funext fun u => ?_)
  rw [← E_equiv (Equiv.addRight μ) (fun v => ind (B.guess w _ (listBytes _ (pkePack P (fun i => if h : i < P.k then snocEquiv P.k Rq (u, v) ⟨i, by omega⟩ else 0) (snocEquiv P.k Rq (u, v) (Fin.last P.k)))) = true))]
  refine congrArg E (funext fun v => ?_)
  refine congrArg (fun c => ind (B.guess w _ (listBytes _ c) = true)) (pkePack_congr (fun i hi => ?_) ?_)
  · rw [dif_pos hi, dif_pos hi]
    have e : (⟨i, by omega⟩ : Fin (P.k + 1)) = (⟨i, hi⟩ : Fin P.k).castSucc := rfl
    rw [e, snoc_cast, snoc_cast]
  · rw [snoc_last', snoc_last']
    rfl

/-- The distance of the two chosen-plaintext games. -/
theorem cpa_mlwe : cpaProb (mlPke P) B true - cpaProb (mlPke P) B false =
    mlweAdv P.k P.k P.η₁ P.η₁ (keyDistinguisher B true) - mlweAdv P.k P.k P.η₁ P.η₁ (keyDistinguisher B false) +
    (mlweAdv (P.k + 1) P.k P.η₁ P.η₂ (cipherDistinguisher B true) - mlweAdv (P.k + 1) P.k P.η₁ P.η₂ (cipherDistinguisher B false)) := by
  unfold mlweAdv
  rw [key_hop, key_hop, cipher_hop, cipher_hop, uniform_hop, uniform_hop]
  ring

end

end Verif.Proof
