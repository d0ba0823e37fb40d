import Verif.Proof.MlweFail
import Verif.Proof.RomCca
import Verif.Props.FailureUniform

/-! # C75, C76: what K-PKE and ML-KEM are good for

C75 reduces the chosen-plaintext security of K-PKE to Module-LWE. C76 bounds every chosen-ciphertext attack on ML-KEM by Module-LWE advantages and explicit small terms, with G and J as random
oracles. Both are about the algorithms of FIPS 203 with a uniform matrix and with independent uniform bytes in place of the outputs of PRF. -/

set_option autoImplicit false
set_option synthInstance.maxSize 1000

namespace Verif.Props
open Verif.Spec Verif.Proof Finset

/-! ## The algorithms of the standard in the form that the games use -/

/-- C75. K-PKE.KeyGen of FIPS 203: the public key has the vector of the game, followed by the seed of the matrix. -/
theorem C75_keygen (P : Params) (N : Nat) (d : List UInt8) : K_PKE_KeyGen P N d =
    (ExpandA P.k N (G (d ++ [UInt8.ofNat P.k])).1).map fun A =>
      let σ := (G (d ++ [UInt8.ofNat P.k])).2
      (pkeEk P (pkeT P A (fun i => noise P.η₁ σ i) fun i => noise P.η₁ σ (P.k + i)) ++ (G (d ++ [UInt8.ofNat P.k])).1, pkeDk P fun i => noise P.η₁ σ i) := by
  unfold K_PKE_KeyGen
  cases h : ExpandA P.k N (G (d ++ [UInt8.ofNat P.k])).1 <;> simp only [h, Option.map] <;> rfl

/-- C75. K-PKE.Encrypt of FIPS 203 is the encryption of `stdPke`. -/
theorem C75_encrypt (P : Params) (N : Nat) (ek m r : List UInt8) : K_PKE_Encrypt P N ek m r =
    (ExpandA P.k N (bytes ek (384 * P.k) (384 * P.k + 32))).map fun A => (stdPke P A).enc ek m r := by
  unfold K_PKE_Encrypt
  cases h : ExpandA P.k N (bytes ek (384 * P.k) (384 * P.k + 32)) <;> simp only [h, Option.map] <;> rfl

/-- C75. The encryption of the game is that of the standard where its noise is the noise of the standard. -/
theorem C75_game_encrypt (P : Params) (A : Fin P.k → Fin P.k → Rq) (t : List UInt8) (m : Bytes 32) (r : List UInt8) (x : PkeCoins P)
    (hy : ∀ i, byteList (x.1 i) = PRF P.η₁ r (UInt8.ofNat i.val)) (h1 : ∀ i, byteList (x.2.1 i) = PRF P.η₂ r (UInt8.ofNat (P.k + i.val)))
    (h2 : byteList x.2.2 = PRF P.η₂ r (UInt8.ofNat (2 * P.k))) :
    byteList ((mlPke P).enc (A, t) m x) = (stdPke P (matOf A)).enc t (byteList m) r := by
  have hv : ∀ {η : Nat} (b : Fin P.k → Bytes (64 * η)) (s : Nat → Rq), (∀ i : Fin P.k, SamplePolyCBD η (byteList (b i)) = s i.val) → ∀ i < P.k, cbdVec η b i = s i := fun b s h i hi => by
    rw [← h ⟨i, hi⟩]; exact cbdVec_cbd _ b ⟨i, hi⟩
  have e1 := hv x.1 (fun i => noise P.η₁ r i) fun i => by rw [hy]; rfl
  have e2 := hv x.2.1 (fun i => noise P.η₂ r (P.k + i)) fun i => by rw [h1]; rfl
  unfold mlPke
  dsimp only
  rw [byteList_listBytes _ (pkePack_length _ _ _)]
  refine pkePack_congr (fun i hi => ?_) ?_
  · unfold pkeU
    rw [dotNTT_congr (fun _ _ => rfl) fun j hj => congrArg NTT (e1 j hj), e2 i hi]
  · unfold pkeV
    rw [dotNTT_congr (fun _ _ => rfl) fun j hj => congrArg NTT (e1 j hj), h2]
    rfl

/-- C76. ML-KEM.Decaps_internal of FIPS 203 is the decapsulation of the game, for the functions G(m ‖ H(ek)) and J(z ‖ c). -/
theorem C76_decaps (P : Params) (N : Nat) (dk ek z c : List UInt8) (hd : dk.length = 384 * P.k) (he : ek.length = 384 * P.k + 32) (hz : z.length = 32)
    (A : Nat → Nat → Rq) (hA : ExpandA P.k N (bytes ek (384 * P.k) (384 * P.k + 32)) = some A) :
    Decaps_internal P N (dk ++ ek ++ H ek ++ z) c = some (kemDecaps (stdPke P A) (fun m => G (m ++ H ek)) (fun z c => J (z ++ c)) (ek, dk) z c) := by
  have hh : (H ek).length = 32 := SHA3_256_length ek
  have b1 : bytes (dk ++ ek ++ H ek ++ z) 0 (384 * P.k) = dk := by rw [List.append_assoc, List.append_assoc]; exact bytes_append_left hd
  have b4 : bytes (dk ++ ek ++ H ek ++ z) (768 * P.k + 64) (768 * P.k + 96) = z := bytes_append_right (by simp only [List.length_append]; omega) (by omega)
  have mid : ∀ (a b c : List UInt8) (n l : Nat), a.length = n → n + b.length = l → bytes (a ++ b ++ c) n l = b := fun a b c n l h1 h2 => by
    rw [List.append_assoc]
    unfold bytes
    rw [List.drop_append, List.drop_eq_nil_of_le (by omega), List.nil_append, h1, Nat.sub_self, List.drop_zero, List.take_append_of_le_length (by omega), List.take_of_length_le (by omega)]
  have b2 : bytes (dk ++ ek ++ H ek ++ z) (384 * P.k) (768 * P.k + 32) = ek := by
    rw [List.append_assoc (dk ++ ek)]; exact mid _ _ _ _ _ hd (by omega)
  have b3 : bytes (dk ++ ek ++ H ek ++ z) (768 * P.k + 32) (768 * P.k + 64) = H ek := mid _ _ _ _ _ (by simp only [List.length_append]; omega) (by omega)
  unfold Decaps_internal
  dsimp only
  rw [b1, b2, b3, b4, C75_encrypt, hA]
  unfold kemDecaps
  simp only [Option.map, eq_comm (a := c)]
  rfl

/-! ## C75: chosen-plaintext security of K-PKE -/

/-- C75. The distance of the two chosen-plaintext games is a sum of Module-LWE advantages of distinguishers that run the attack once: with k rows for the public key and k + 1 rows for the
ciphertext. There is no other term. -/
theorem C75_cpa (P : Params) {Tape : Type} [Fintype Tape] (B : CpaAttack (PkePublic P) (Bytes 32) (Ciphertext P) Tape) :
    cpaProb (mlPke P) B true - cpaProb (mlPke P) B false =
      mlweAdv P.k P.k P.η₁ P.η₁ (keyDistinguisher B true) - mlweAdv P.k P.k P.η₁ P.η₁ (keyDistinguisher B false) +
      (mlweAdv (P.k + 1) P.k P.η₁ P.η₂ (cipherDistinguisher B true) - mlweAdv (P.k + 1) P.k P.η₁ P.η₂ (cipherDistinguisher B false)) := cpa_mlwe B

/-! ## C76: chosen-ciphertext security of ML-KEM -/

/-- C76. Every KEM of this form: a chosen-ciphertext attack with at most `qG` queries to G and `qJ` to J, and any number of decapsulations. -/
theorem C76_fo {Key PK M R C K Z : Type} [Fintype Key] [Fintype M] [DecidableEq M] [Fintype K] [Fintype R] [Fintype Z] [DecidableEq Z] [Fintype C] [DecidableEq C]
    [Nonempty Key] [Nonempty M] [Nonempty K] [Nonempty R] [Nonempty Z] (P : Pke Key PK M R C) (A : PK → C → K → Prog M K R Z C) {qG qJ : Nat}
    (hG : ∀ pk c k, (A pk c k).QueriesG qG) (hJ : ∀ pk c k, (A pk c k).QueriesJ qJ) :
    |ccaProb P A true - ccaProb P A false| ≤ |cpaProb P (reduction P A) true - cpaProb P (reduction P A) false| + 2 * (qJ / Fintype.card Z) + qG / Fintype.card M + 3 * ((qG + 1) * failProb P) :=
  cca_bound hG hJ

theorem card_bytes (n : Nat) : Fintype.card (Bytes n) = 256 ^ n := by rw [Fintype.card_fun, Fintype.card_fin, Fintype.card_fin]

/-- An attack on ML-KEM. -/
abbrev Attack (P : Params) : Type := PkePublic P → Ciphertext P → Bytes 32 → Prog (Bytes 32) (Bytes 32) (PkeCoins P) (Bytes 32) (Ciphertext P)

theorem mlkem_bound (P : Params) (F : Nat) (hF : failProb (mlPke P) ≤ 1 / 2 ^ F) (A : Attack P) {qG qJ : Nat} (hG : ∀ pk c k, (A pk c k).QueriesG qG) (hJ : ∀ pk c k, (A pk c k).QueriesJ qJ) :
    |ccaProb (mlPke P) A true - ccaProb (mlPke P) A false| ≤
      |mlweAdv P.k P.k P.η₁ P.η₁ (keyDistinguisher (reduction (mlPke P) A) true)| + |mlweAdv P.k P.k P.η₁ P.η₁ (keyDistinguisher (reduction (mlPke P) A) false)| +
      |mlweAdv (P.k + 1) P.k P.η₁ P.η₂ (cipherDistinguisher (reduction (mlPke P) A) true)| + |mlweAdv (P.k + 1) P.k P.η₁ P.η₂ (cipherDistinguisher (reduction (mlPke P) A) false)| +
      (2 * qJ + qG) / 2 ^ 256 + 3 * (qG + 1) / 2 ^ F := by
  have h := C76_fo (mlPke P) A hG hJ
  rw [C75_cpa, card_bytes] at h
  have hp : (((256 ^ 32 : Nat)) : ℚ) = 2 ^ 256 := by norm_num
  rw [hp] at h
  have hq : (0 : ℚ) ≤ qG + 1 := by positivity
  have h3 : 3 * (((qG : ℚ) + 1) * failProb (mlPke P)) ≤ 3 * (qG + 1) / 2 ^ F := by
    have := mul_le_mul_of_nonneg_left hF hq
    rw [mul_one_div] at this
    rw [mul_div_assoc]
    linarith
  have ht : ∀ a b c d : ℚ, |a - b + (c - d)| ≤ |a| + |b| + |c| + |d| := fun a b c d => by
    have := abs_add_le (a - b) (c - d)
    have := abs_sub a b
    have := abs_sub c d
    linarith
  refine h.trans ?_
  have h4 := ht (mlweAdv P.k P.k P.η₁ P.η₁ (keyDistinguisher (reduction (mlPke P) A) true)) (mlweAdv P.k P.k P.η₁ P.η₁ (keyDistinguisher (reduction (mlPke P) A) false))
    (mlweAdv (P.k + 1) P.k P.η₁ P.η₂ (cipherDistinguisher (reduction (mlPke P) A) true)) (mlweAdv (P.k + 1) P.k P.η₁ P.η₂ (cipherDistinguisher (reduction (mlPke P) A) false))
  have h5 : 2 * ((qJ : ℚ) / 2 ^ 256) + qG / 2 ^ 256 = (2 * qJ + qG) / 2 ^ 256 := by ring
  linarith

/-- C76. The probability that a key pair and the coins of an encryption make some message decrypt wrongly. -/
theorem C76_fail : failProb (mlPke ML_KEM_512) ≤ 1 / 2 ^ 123 ∧ failProb (mlPke ML_KEM_768) ≤ 1 / 2 ^ 148 ∧ failProb (mlPke ML_KEM_1024) ≤ 1 / 2 ^ 161 :=
  ⟨failProb_le ML_KEM_512 123 C71_512, failProb_le ML_KEM_768 148 C71_768, failProb_le ML_KEM_1024 161 C71_1024⟩

/-- C76. ML-KEM-512. -/
theorem C76_512 (A : Attack ML_KEM_512) {qG qJ : Nat} (hG : ∀ pk c k, (A pk c k).QueriesG qG) (hJ : ∀ pk c k, (A pk c k).QueriesJ qJ) :
    |ccaProb (mlPke ML_KEM_512) A true - ccaProb (mlPke ML_KEM_512) A false| ≤
      |mlweAdv 2 2 3 3 (keyDistinguisher (reduction (mlPke ML_KEM_512) A) true)| + |mlweAdv 2 2 3 3 (keyDistinguisher (reduction (mlPke ML_KEM_512) A) false)| +
      |mlweAdv 3 2 3 2 (cipherDistinguisher (reduction (mlPke ML_KEM_512) A) true)| + |mlweAdv 3 2 3 2 (cipherDistinguisher (reduction (mlPke ML_KEM_512) A) false)| +
      (2 * qJ + qG) / 2 ^ 256 + 3 * (qG + 1) / 2 ^ 123 := mlkem_bound ML_KEM_512 123 C76_fail.1 A hG hJ

/-- C76. ML-KEM-768. -/
theorem C76_768 (A : Attack ML_KEM_768) {qG qJ : Nat} (hG : ∀ pk c k, (A pk c k).QueriesG qG) (hJ : ∀ pk c k, (A pk c k).QueriesJ qJ) :
    |ccaProb (mlPke ML_KEM_768) A true - ccaProb (mlPke ML_KEM_768) A false| ≤
      |mlweAdv 3 3 2 2 (keyDistinguisher (reduction (mlPke ML_KEM_768) A) true)| + |mlweAdv 3 3 2 2 (keyDistinguisher (reduction (mlPke ML_KEM_768) A) false)| +
      |mlweAdv 4 3 2 2 (cipherDistinguisher (reduction (mlPke ML_KEM_768) A) true)| + |mlweAdv 4 3 2 2 (cipherDistinguisher (reduction (mlPke ML_KEM_768) A) false)| +
      (2 * qJ + qG) / 2 ^ 256 + 3 * (qG + 1) / 2 ^ 148 := mlkem_bound ML_KEM_768 148 C76_fail.2.1 A hG hJ

/-- C76. ML-KEM-1024. -/
theorem C76_1024 (A : Attack ML_KEM_1024) {qG qJ : Nat} (hG : ∀ pk c k, (A pk c k).QueriesG qG) (hJ : ∀ pk c k, (A pk c k).QueriesJ qJ) :
    |ccaProb (mlPke ML_KEM_1024) A true - ccaProb (mlPke ML_KEM_1024) A false| ≤
      |mlweAdv 4 4 2 2 (keyDistinguisher (reduction (mlPke ML_KEM_1024) A) true)| + |mlweAdv 4 4 2 2 (keyDistinguisher (reduction (mlPke ML_KEM_1024) A) false)| +
      |mlweAdv 5 4 2 2 (cipherDistinguisher (reduction (mlPke ML_KEM_1024) A) true)| + |mlweAdv 5 4 2 2 (cipherDistinguisher (reduction (mlPke ML_KEM_1024) A) false)| +
      (2 * qJ + qG) / 2 ^ 256 + 3 * (qG + 1) / 2 ^ 161 := mlkem_bound ML_KEM_1024 161 C76_fail.2.2 A hG hJ

/-! ## Concrete cases -/

/-- Without noise there is a distinguisher with an advantage. -/
example : mlweAdv 1 1 0 0 (fun _ b => ind (b 0 = 0)) = 1 - 1 / 3329 ^ 256 := by
  have h0 : ∀ b : Bytes (64 * 0), cbd 0 b = 0 := fun b => by
    funext i
    simp [cbd, SamplePolyCBD]
  have hr : mlweReal 1 1 0 0 (fun _ b => ind (b 0 = 0)) = 1 := by
    unfold mlweReal
    refine Eq.trans (congrArg E (funext fun x => ?_)) (E_const 1)
    have : (∑ j, mulRq (x.1 0 j) (cbd 0 (x.2.1 j)) + cbd 0 (x.2.2 0)) = 0 := by
      funext i
      simp [h0, mulRq]
    exact if_pos this
  have hu : mlweUniform 1 1 (fun _ b => ind (b 0 = 0)) = 1 / 3329 ^ 256 := by
    unfold mlweUniform
    rw [E_prod]
    refine Eq.trans (congrArg E (funext fun x => ?_)) (E_const _)
    rw [← E_equiv (Equiv.funUnique (Fin 1) Rq).symm]
    show E (fun f : Rq => ind (f = 0)) = _
    have hi : ∀ f : Rq, ind (f = 0) = if f = 0 then 1 else 0 := fun f => by
      unfold ind
      by_cases h : f = 0
      · rw [if_pos h, if_pos h]
      · rw [if_neg h, if_neg h]
    have hs : (∑ f : Rq, ind (f = 0)) = 1 := (Finset.sum_congr rfl fun f _ => hi f).trans ((Finset.sum_ite_eq' univ (0 : Rq) _).trans (if_pos (mem_univ _)))
    unfold E
    rw [hs, Fintype.card_fun, ZMod.card, Fintype.card_fin]
    norm_num
  unfold mlweAdv
  rw [hr, hu]

/-- The identity as an encryption of one bit. -/
def plainPke : Pke Unit Unit Bool Unit Bool := ⟨fun _ => (), fun _ m _ => m, fun _ c => c⟩

/-- Ask G for the message in the ciphertext and compare. -/
def plainAttack : Unit → Bool → Bool → Prog Bool Bool Unit Unit Bool := fun _ c k => .askG c fun k' _ => .guess (k' != k)

/-- The game is not empty: against an encryption that hides nothing there is an attack with one query. -/
example : (∀ pk c k, (plainAttack pk c k).QueriesG 1) ∧ (∀ pk c k, (plainAttack pk c k).QueriesJ 0) ∧ failProb plainPke = 0 ∧
    ccaProb plainPke plainAttack false = 0 ∧ ccaProb plainPke plainAttack true = 1 / 2 := by
  refine ⟨fun _ _ _ => ⟨0, rfl, fun _ _ => trivial⟩, fun _ _ _ _ _ => trivial, ?_, ?_, ?_⟩
  · refine Eq.trans (congrArg E (funext fun x => if_neg ?_)) (E_const 0)
    rintro ⟨m, hm⟩
    exact hm rfl
  · have : Nonempty (CcaCoins Unit Bool Bool Unit Unit Bool) := ⟨⟨(), (), fun _ => (true, ()), fun _ _ => true, true, true⟩⟩
    refine Eq.trans (congrArg E (funext fun x => if_neg ?_)) (E_const 0)
    show ((x.G x.m).1 != (x.G x.m).1) ≠ true
    simp
  · have : ∀ x : CcaCoins Unit Bool Bool Unit Unit Bool, ind (ccaRun plainPke plainAttack true x = true) = if (x.G x.m).1 != x.K1 then 1 else 0 := fun x => by
      unfold ind
      have : ccaRun plainPke plainAttack true x = ((x.G x.m).1 != x.K1) := rfl
      rw [this]
      congr
    unfold ccaProb
    rw [funext this]
    decide +kernel

end Verif.Props
