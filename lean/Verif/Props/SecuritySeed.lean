import Verif.Proof.MlweSeed
import Verif.Props.Security
import Verif.Proof.Kat
import Verif.Props.Kem
import Verif.Props.AvxKem

/-! # C80, C81: K-PKE and ML-KEM of FIPS 203 without the idealisations of C75 and C76

The matrix comes from a public seed and the noise from PRF, as in the standard. The bounds then also have the advantages of explicit distinguishers against PRF, and Module-LWE is the problem with
a matrix from a seed. `mat` is any function from seeds to matrices; for the standard it is `expandMat`. -/

set_option autoImplicit false
set_option synthInstance.maxSize 1000

namespace Verif.Props
open Verif.Spec Verif.Proof Finset

/-! ## The algorithms of the standard are those of the games -/

/-- C80. K-PKE.KeyGen of FIPS 203 makes the keys of the game, with the two halves of G(d ‖ k) as the seeds; K-PKE.Decrypt with the private key is the decryption of the game. -/
theorem C80_keygen (P : Params) (N : Nat) (d : List UInt8) (ρ σ : Bytes 32) (hG : G (d ++ [UInt8.ofNat P.k]) = (byteList ρ, byteList σ))
    (hA : (ExpandA P.k N (byteList ρ)).isSome) :
    ∃ dk, K_PKE_KeyGen P N d = some (((kPke P (expandMat P N)).ek (ρ, σ)).2 ++ byteList ρ, dk) ∧ dk.length = 384 * P.k ∧
      ∀ c, byteList ((kPke P (expandMat P N)).dec (ρ, σ) c) = K_PKE_Decrypt P dk (byteList c) := by
  obtain ⟨A, hA⟩ := Option.isSome_iff_exists.mp hA
  refine ⟨pkeDk P fun i => noise P.η₁ (byteList σ) i, ?_, concat_length fun i => byteEncode12_length _, fun c => ?_⟩
  · rw [C75_keygen, hG]
    dsimp only
    rw [hA]
    refine congrArg some (Prod.ext (congrArg (· ++ byteList ρ) ?_) rfl)
    refine pkeEk_congr fun i hi => ?_
    unfold pkeT
    refine congrArg₂ (· + ·) (dotNTT_congr (fun j hj => (expandMat_eq hA hi hj).symm) fun j hj => congrArg NTT (prf_cbdVec0 hj).symm) (congrArg NTT (prf_cbdVec hi).symm)
  · have hl : ∀ dk c, (K_PKE_Decrypt P dk c).length = 32 := fun dk c => by
      unfold K_PKE_Decrypt
      exact byteEncode_length 1 _
    have hd : pkeDk P (cbdVec P.η₁ (prfKey P σ).1) = pkeDk P fun i => noise P.η₁ (byteList σ) i := concat_congr fun i hi => congrArg (fun a => ByteEncode12 (NTT a)) (prf_cbdVec0 hi)
    refine (byteList_listBytes _ (hl _ _)).trans ?_
    exact congrArg (fun dk => K_PKE_Decrypt P dk (byteList c)) hd

/-- C80. K-PKE.Encrypt of FIPS 203 is the encryption of the game. -/
theorem C80_encrypt (P : Params) (N : Nat) (ρ : Bytes 32) (t : List UInt8) (ht : t.length = 384 * P.k) (m r : Bytes 32) (hA : (ExpandA P.k N (byteList ρ)).isSome) :
    K_PKE_Encrypt P N (t ++ byteList ρ) (byteList m) (byteList r) = some (byteList ((kPke P (expandMat P N)).enc (ρ, t) m r)) := by
  obtain ⟨A, hA⟩ := Option.isSome_iff_exists.mp hA
  have hb : bytes (t ++ byteList ρ) (384 * P.k) (384 * P.k + 32) = byteList ρ := bytes_append_right ht (by rw [byteList_length])
  rw [C75_encrypt, hb, hA]
  refine congrArg some ?_
  have h := C75_game_encrypt P (expandMat P N ρ) t m (byteList r) (prfCoins P r) (fun i => byteList_listBytes _ (PRF_length _ _ _)) (fun i => byteList_listBytes _ (PRF_length _ _ _))
    (byteList_listBytes _ (PRF_length _ _ _))
  refine Eq.trans ?_ h.symm
  refine pkePack_congr (fun i hi => ?_) ?_
  · unfold pkeU
    rw [dotNTT_congr (fun j hj => (expandMat_eq hA hj hi).symm) fun j hj => rfl]
  · have hd : ∀ i < P.k, pkeDecodeT (t ++ byteList ρ) i = pkeDecodeT t i := fun i hi => by
      unfold pkeDecodeT bytes
      rw [List.drop_append_of_le_length (by rw [ht]; omega), List.take_append_of_le_length (by rw [List.length_drop, ht]; omega)]
    unfold pkeV
    rw [dotNTT_congr hd fun j hj => rfl]

/-- C81. ML-KEM.Encaps_internal of FIPS 203 is the encapsulation of the game. -/
theorem C81_encaps (P : Params) (N : Nat) (ρ : Bytes 32) (t : List UInt8) (ht : t.length = 384 * P.k) (m : Bytes 32) (hA : (ExpandA P.k N (byteList ρ)).isSome) :
    Encaps_internal P N (t ++ byteList ρ) (byteList m) =
      some (byteList (kemG (t ++ byteList ρ) m).1, byteList ((kPke P (expandMat P N)).enc (ρ, t) m (kemG (t ++ byteList ρ) m).2)) := by
  have h := C80_encrypt P N ρ t ht m (kemG (t ++ byteList ρ) m).2 hA
  have e1 : byteList (kemG (t ++ byteList ρ) m).1 = (G (byteList m ++ H (t ++ byteList ρ))).1 := byteList_listBytes _ (G_fst_length _)
  have e2 : byteList (kemG (t ++ byteList ρ) m).2 = (G (byteList m ++ H (t ++ byteList ρ))).2 := byteList_listBytes _ (G_snd_length _)
  unfold Encaps_internal
  rw [e1]
  rw [e2] at h
  dsimp only
  rw [h]
  rfl

/-- C81. ML-KEM.Decaps_internal of FIPS 203 with a private key of the standard is the decapsulation of the game. -/
theorem C81_decaps (P : Params) (N : Nat) (d : List UInt8) (ρ σ z : Bytes 32) (c : Ciphertext P) (hG : G (d ++ [UInt8.ofNat P.k]) = (byteList ρ, byteList σ))
    (hA : (ExpandA P.k N (byteList ρ)).isSome) :
    ∃ ek dk, KeyGen_internal P N d (byteList z) = some (ek, dk) ∧ ek = ((kPke P (expandMat P N)).ek (ρ, σ)).2 ++ byteList ρ ∧
      Decaps_internal P N dk (byteList c) = some (byteList (kemDecaps (kPke P (expandMat P N)) (kemG ek) (kemJ _) (ρ, σ) z c)) := by
  obtain ⟨dk, h1, h2, h3⟩ := C80_keygen P N d ρ σ hG hA
  have hl : ((kPke P (expandMat P N)).ek (ρ, σ)).2.length = 384 * P.k := concat_length fun i => byteEncode12_length _
  obtain ⟨A, hA'⟩ := Option.isSome_iff_exists.mp hA
  generalize ht : ((kPke P (expandMat P N)).ek (ρ, σ)).2 = t at h1 hl
  have ht' : (kPke P (expandMat P N)).ek (ρ, σ) = (ρ, t) := Prod.ext rfl ht
  have hb : bytes (t ++ byteList ρ) (384 * P.k) (384 * P.k + 32) = byteList ρ := bytes_append_right hl (by rw [byteList_length])
  refine ⟨t ++ byteList ρ, dk ++ (t ++ byteList ρ) ++ H (t ++ byteList ρ) ++ byteList z, ?_, rfl, ?_⟩
  · unfold KeyGen_internal
    rw [h1]
    rfl
  · rw [C76_decaps P N dk (t ++ byteList ρ) (byteList z) (byteList c) h2 (by rw [List.length_append, hl, byteList_length]) (byteList_length _) A (by rw [hb]; exact hA')]
    refine congrArg some ?_
    have he : ∀ m r : Bytes 32, (stdPke P A).enc (t ++ byteList ρ) (byteList m) (byteList r) = byteList ((kPke P (expandMat P N)).enc (ρ, t) m r) := fun m r => by
      have := C80_encrypt P N ρ t hl m r hA
      rw [C75_encrypt, hb, hA'] at this
      exact Option.some.inj this
    unfold kemDecaps
    dsimp only
    rw [ht']
    have hm : (stdPke P A).dec (t ++ byteList ρ, dk) (byteList c) = byteList ((kPke P (expandMat P N)).dec (ρ, σ) c) := (h3 c).symm
    have hk : (stdPke P A).ek (t ++ byteList ρ, dk) = t ++ byteList ρ := rfl
    rw [hm, hk]
    generalize (kPke P (expandMat P N)).dec (ρ, σ) c = m
    have e1 : byteList (kemG (t ++ byteList ρ) m).1 = (G (byteList m ++ H (t ++ byteList ρ))).1 := byteList_listBytes _ (G_fst_length _)
    have e2 : byteList (kemG (t ++ byteList ρ) m).2 = (G (byteList m ++ H (t ++ byteList ρ))).2 := byteList_listBytes _ (G_snd_length _)
    rw [← e2, he]
    by_cases hc : (kPke P (expandMat P N)).enc (ρ, t) m (kemG (t ++ byteList ρ) m).2 = c
    · rw [if_pos hc, if_pos (congrArg byteList hc), e1]
    · rw [if_neg hc, if_neg fun h => hc (by rw [← listBytes_byteList ((kPke P (expandMat P N)).enc (ρ, t) m (kemG (t ++ byteList ρ) m).2), h, listBytes_byteList])]
      exact (byteList_listBytes _ (SHAKE256_length _ _)).symm

/-! ## The code computes the algorithms of the games -/

section
open Verif.Model

/-- C81. `crypto_kem_keypair_derand` makes a key pair of the game, and `crypto_kem_dec` with it computes the decapsulation of the game. -/
theorem C81_code_keypair_dec (p : ParamSet) (fuel : Nat) (pk sk coins : Mem UInt8) (d : List UInt8) (z ρ σ : Bytes 32) (hd : coins.Holds 0 d) (hdl : d.length = 32)
    (hz : coins.Holds 32 (byteList z)) (hpk : ekLen (fips p) ≤ pk.size) (hsk : dkLen (fips p) ≤ sk.size) (hG : G (d ++ [UInt8.ofNat (fips p).k]) = (byteList ρ, byteList σ))
    (hA : (ExpandA (fips p).k (112 + 56 * fuel) (byteList ρ)).isSome) :
    let Q := kPke (fips p) (expandMat (fips p) (112 + 56 * fuel))
    let ek := (Q.ek (ρ, σ)).2 ++ byteList ρ
    ∃ dk, Runs (crypto_kem_keypair_derand p fuel pk sk coins) (fun s => pk.Wrote s.1 0 ek ∧ sk.Wrote s.2.1 0 dk ∧ s.2.2 = 0) ∧
      ∀ (c : Ciphertext (fips p)) (ss ct sk' : Mem UInt8), ct.Holds 0 (byteList c) → sk'.Holds 0 dk → 32 ≤ ss.size →
        Runs (crypto_kem_dec p fuel ss ct sk') (fun s => ss.Wrote s.1 0 (byteList (kemDecaps Q (kemG ek) (kemJ _) (ρ, σ) z c)) ∧ s.2 = 0) := by
  intro Q ek
  obtain ⟨ek', dk, h1, h2, -⟩ := C81_decaps (fips p) (112 + 56 * fuel) d ρ σ z (fun _ => 0) hG hA
  refine ⟨dk, ?_, fun c ss ct sk' hc hk hs => ?_⟩
  · have h := C01_keypair p fuel pk sk coins d (byteList z) hd hdl hz (byteList_length _) hpk hsk ek' dk h1
    rw [h2] at h
    exact h
  · obtain ⟨ek'', dk', h1', h2', h3⟩ := C81_decaps (fips p) (112 + 56 * fuel) d ρ σ z c hG hA
    obtain ⟨rfl, rfl⟩ := Prod.mk.inj (Option.some.inj (h1.symm.trans h1'))
    rw [h2] at h3
    refine C03_dec p fuel ss ct sk' (byteList c) dk hc (by rw [byteList_length]; rfl) hk ?_ hs _ h3
    obtain ⟨s, hs', hdk⟩ := keygen_inv h1
    obtain ⟨l1, l2⟩ := keygen_length hs'
    have l3 : (H ek').length = 32 := SHA3_256_length ek'
    dsimp only at l1 l2
    rw [hdk, List.length_append, List.length_append, List.length_append, l1, l2, l3, byteList_length]
    unfold dkLen
    omega

/-- C81. `crypto_kem_enc_derand` computes the encapsulation of the game. -/
theorem C81_code_enc (p : ParamSet) (fuel : Nat) (ct ss pk coins : Mem UInt8) (ρ m : Bytes 32) (t : List UInt8) (hm : coins.Holds 0 (byteList m)) (ht : t.length = 384 * (fips p).k)
    (hek : pk.Holds 0 (t ++ byteList ρ)) (hct : ctLen (fips p) ≤ ct.size) (hss : 32 ≤ ss.size) (hA : (ExpandA (fips p).k (112 + 56 * fuel) (byteList ρ)).isSome) :
    Runs (crypto_kem_enc_derand p fuel ct ss pk coins) (fun s =>
      ct.Wrote s.1 0 (byteList ((kPke (fips p) (expandMat (fips p) (112 + 56 * fuel))).enc (ρ, t) m (kemG (t ++ byteList ρ) m).2)) ∧
      ss.Wrote s.2.1 0 (byteList (kemG (t ++ byteList ρ) m).1) ∧ s.2.2 = 0) :=
  C02_enc p fuel ct ss pk coins _ (byteList m) hm (byteList_length _) hek (by rw [List.length_append, ht, byteList_length]; rfl) hct hss _ _ (C81_encaps (fips p) _ ρ t ht m hA)

/-- C81. `crypto_kem_keypair_derand` of the AVX2 code makes a key pair of the game, and its `crypto_kem_dec` with it computes the decapsulation of the game. -/
theorem C81_avx_keypair_dec (p : ParamSet) (junk : Junk) (fuel : Nat) (pk sk coins : Mem UInt8) (d : List UInt8) (z ρ σ : Bytes 32) (hd : coins.Holds 0 d) (hdl : d.length = 32)
    (hz : coins.Holds 32 (byteList z)) (hpk : ekLen (fips p) ≤ pk.size) (hsk : dkLen (fips p) ≤ sk.size) (hG : G (d ++ [UInt8.ofNat (fips p).k]) = (byteList ρ, byteList σ))
    (hA : (ExpandA (fips p).k (112 + 56 * fuel) (byteList ρ)).isSome) :
    let Q := kPke (fips p) (expandMat (fips p) (112 + 56 * fuel))
    let ek := (Q.ek (ρ, σ)).2 ++ byteList ρ
    ∃ dk, Runs (Avx.crypto_kem_keypair_derand p junk fuel pk sk coins) (fun s => pk.Wrote s.1 0 ek ∧ sk.Wrote s.2.1 0 dk ∧ s.2.2 = 0) ∧
      ∀ (c : Ciphertext (fips p)) (ss ct sk' : Mem UInt8), ct.Holds 0 (byteList c) → sk'.Holds 0 dk → 32 ≤ ss.size →
        Runs (Avx.crypto_kem_dec p junk fuel ss ct sk') (fun s => ss.Wrote s.1 0 (byteList (kemDecaps Q (kemG ek) (kemJ _) (ρ, σ) z c)) ∧ s.2 = 0) := by
  intro Q ek
  obtain ⟨ek', dk, h1, h2, -⟩ := C81_decaps (fips p) (112 + 56 * fuel) d ρ σ z (fun _ => 0) hG hA
  refine ⟨dk, ?_, fun c ss ct sk' hc hk hs => ?_⟩
  · have h := C48_keypair p junk fuel pk sk coins d (byteList z) hd hdl hz (byteList_length _) hpk hsk ek' dk h1
    rw [h2] at h
    exact h
  · obtain ⟨ek'', dk', h1', h2', h3⟩ := C81_decaps (fips p) (112 + 56 * fuel) d ρ σ z c hG hA
    obtain ⟨rfl, rfl⟩ := Prod.mk.inj (Option.some.inj (h1.symm.trans h1'))
    rw [h2] at h3
    refine C50_dec p junk fuel ss ct sk' (byteList c) dk hc (by rw [byteList_length]; rfl) hk ?_ hs _ h3
    obtain ⟨s, hs', hdk⟩ := keygen_inv h1
    obtain ⟨l1, l2⟩ := keygen_length hs'
    have l3 : (H ek').length = 32 := SHA3_256_length ek'
    dsimp only at l1 l2
    rw [hdk, List.length_append, List.length_append, List.length_append, l1, l2, l3, byteList_length]
    unfold dkLen
    omega

/-- C81. `crypto_kem_enc_derand` of the AVX2 code computes the encapsulation of the game. -/
theorem C81_avx_enc (p : ParamSet) (junk : Junk) (fuel : Nat) (ct ss pk coins : Mem UInt8) (ρ m : Bytes 32) (t : List UInt8) (hm : coins.Holds 0 (byteList m)) (ht : t.length = 384 * (fips p).k)
    (hek : pk.Holds 0 (t ++ byteList ρ)) (hct : ctLen (fips p) ≤ ct.size) (hss : 32 ≤ ss.size) (hA : (ExpandA (fips p).k (112 + 56 * fuel) (byteList ρ)).isSome) :
    Runs (Avx.crypto_kem_enc_derand p junk fuel ct ss pk coins) (fun s =>
      ct.Wrote s.1 0 (byteList ((kPke (fips p) (expandMat (fips p) (112 + 56 * fuel))).enc (ρ, t) m (kemG (t ++ byteList ρ) m).2)) ∧
      ss.Wrote s.2.1 0 (byteList (kemG (t ++ byteList ρ) m).1) ∧ s.2.2 = 0) :=
  C49_enc p junk fuel ct ss pk coins _ (byteList m) hm (byteList_length _) hek (by rw [List.length_append, ht, byteList_length]; rfl) hct hss _ _ (C81_encaps (fips p) _ ρ t ht m hA)

end

/-! ## C80: chosen-plaintext security of K-PKE -/

/-- C80. The distance of the two chosen-plaintext games is a sum of advantages against PRF and against Module-LWE with a matrix from a seed. There is no other term. -/
theorem C80_cpa (P : Params) {S : Type} [Fintype S] (mat : S → Fin P.k → Fin P.k → Rq) {Tape : Type} [Fintype Tape] (B : CpaAttack (S × List UInt8) (Bytes 32) (Ciphertext P) Tape) :
    cpaProb (kPke P mat) B true - cpaProb (kPke P mat) B false =
      distAdv (prfKey P) (keyExpansionTest (seedPke P mat) (prfCoins P) B true) - distAdv (prfKey P) (keyExpansionTest (seedPke P mat) (prfCoins P) B false) +
      (distAdv (prfCoins P) (coinExpansionTest (seedPke P mat) B true) - distAdv (prfCoins P) (coinExpansionTest (seedPke P mat) B false)) +
      (seedAdv mat (seedKeyTest mat B true) - seedAdv mat (seedKeyTest mat B false)) + (seedAdv' mat (seedCipherTest B true) - seedAdv' mat (seedCipherTest B false)) := kpke_cpa mat B

/-- C80. If the seeds are the matrices, then the problems with a matrix from a seed are Module-LWE. -/
theorem C80_uniform_key (P : Params) (D : (Fin P.k → Fin P.k → Rq) → (Fin P.k → Rq) → ℚ) : seedAdv (fun A i j => NTT (A i j)) D = mlweAdv P.k P.k P.η₁ P.η₁ D := by
  unfold seedAdv mlweAdv seedReal mlweReal
  refine congrArg₂ (· - ·) (congrArg E (funext fun x => congrArg (D x.1) (funext fun i => ?_))) rfl
  simp only [nttInv_ntt]

theorem C80_uniform_cipher (P : Params) (D : (Fin P.k → Fin P.k → Rq) → (Fin P.k → Rq) → (Fin P.k → Rq) → Rq → ℚ) : seedAdv' (fun A i j => NTT (A i j)) D =
    mlweAdv (P.k + 1) P.k P.η₁ P.η₂ fun A w => D (fun i j => A j.castSucc i) (A (Fin.last P.k)) (fun i => w i.castSucc) (w (Fin.last P.k)) := by
  unfold seedAdv' mlweAdv
  refine congrArg₂ (· - ·) ?_ ?_
  · unfold seedReal' mlweReal
    rw [← E_equiv (Equiv.prodCongr (stack P.k) (Equiv.prodCongr (Equiv.refl (Fin P.k → Bytes (64 * P.η₁))) (snocEquiv P.k (Bytes (64 * P.η₂)))))]
    refine congrArg E (funext fun x => ?_)
    obtain ⟨⟨A, t⟩, y, e1, e2⟩ := x
    have he : (Equiv.prodCongr (stack P.k) (Equiv.prodCongr (Equiv.refl (Fin P.k → Bytes (64 * P.η₁))) (snocEquiv P.k (Bytes (64 * P.η₂))))) ((A, t), y, e1, e2) =
      (stack P.k (A, t), y, snocEquiv P.k _ (e1, e2)) := rfl
    rw [he]
    simp only [nttInv_ntt, stack_cast, stack_last, snoc_cast, snoc_last']
  · unfold seedUniform' mlweUniform
    rw [← E_equiv (Equiv.prodCongr (stack P.k) (snocEquiv P.k Rq))]
    refine congrArg E (funext fun x => ?_)
    obtain ⟨⟨A, t⟩, u, v⟩ := x
    have he : (Equiv.prodCongr (stack P.k) (snocEquiv P.k Rq)) ((A, t), u, v) = (stack P.k (A, t), snocEquiv P.k _ (u, v)) := rfl
    rw [he]
    simp only [stack_cast, stack_last, snoc_cast, snoc_last']

/-! ## C81: chosen-ciphertext security of ML-KEM -/

/-- C81. The probability that a key pair and the coins of an encryption make some message decrypt wrongly differs from that of C76 by the advantages of explicit distinguishers. -/
theorem C81_fail (P : Params) {S : Type} [Fintype S] (mat : S → Fin P.k → Fin P.k → Rq) : failProb (kPke P mat) = failProb (mlPke P) + distAdv mat (matrixFailTest P) +
    distAdv (prfKey P) (keyFailTest (seedPke P mat) (prfCoins P)) + distAdv (prfCoins P) (coinFailTest (seedPke P mat)) := kpke_fail mat

theorem kpke_fail_le (P : Params) (F : Nat) (hF : failProb (mlPke P) ≤ 1 / 2 ^ F) {S : Type} [Fintype S] (mat : S → Fin P.k → Fin P.k → Rq) :
    failProb (kPke P mat) ≤ 1 / 2 ^ F + failDistance P mat := by
  rw [C81_fail]
  unfold failDistance
  have a1 := le_abs_self (distAdv mat (matrixFailTest P))
  have a2 := le_abs_self (distAdv (prfKey P) (keyFailTest (seedPke P mat) (prfCoins P)))
  have a3 := le_abs_self (distAdv (prfCoins P) (coinFailTest (seedPke P mat)))
  linarith

theorem seed_bound (P : Params) (F : Nat) (hF : failProb (mlPke P) ≤ 1 / 2 ^ F) {S : Type} [Fintype S] [Nonempty S] (mat : S → Fin P.k → Fin P.k → Rq) (A : SeedAttack P S) {qG qJ : Nat}
    (hG : ∀ pk c k, (A pk c k).QueriesG qG) (hJ : ∀ pk c k, (A pk c k).QueriesJ qJ) :
    |ccaProb (kPke P mat) A true - ccaProb (kPke P mat) A false| ≤
      hardness P mat (reduction (kPke P mat) A) + (2 * qJ + qG) / 2 ^ 256 + 3 * (qG + 1) * (1 / 2 ^ F + failDistance P mat) := by
  have h := C76_fo (kPke P mat) A hG hJ
  rw [C80_cpa, card_bytes] at h
  have hp : (((256 ^ 32 : Nat)) : ℚ) = 2 ^ 256 := by norm_num
  rw [hp] at h
  have hq : (0 : ℚ) ≤ qG + 1 := by positivity
  have hf := kpke_fail_le P F hF mat
  have h3 := mul_le_mul_of_nonneg_left hf hq
  have ht : ∀ a b c d a' b' c' d' : ℚ, |a - b + (c - d) + (a' - b') + (c' - d')| ≤ |a| + |b| + |c| + |d| + |a'| + |b'| + |c'| + |d'| := fun a b c d a' b' c' d' => by
    have := abs_add_le (a - b + (c - d) + (a' - b')) (c' - d')
    have := abs_add_le (a - b + (c - d)) (a' - b')
    have := abs_add_le (a - b) (c - d)
    have := abs_sub a b
    have := abs_sub c d
    have := abs_sub a' b'
    have := abs_sub c' d'
    linarith
  refine h.trans ?_
  refine (add_le_add_left (add_le_add_left (add_le_add_left (ht _ _ _ _ _ _ _ _) _) _) _).trans ?_
  unfold hardness
  have h5 : 2 * ((qJ : ℚ) / 2 ^ 256) + qG / 2 ^ 256 = (2 * qJ + qG) / 2 ^ 256 := by ring
  linarith

/-- C81. ML-KEM-512. -/
theorem C81_512 {S : Type} [Fintype S] [Nonempty S] (mat : S → Fin 2 → Fin 2 → Rq) (A : SeedAttack ML_KEM_512 S) {qG qJ : Nat}
    (hG : ∀ pk c k, (A pk c k).QueriesG qG) (hJ : ∀ pk c k, (A pk c k).QueriesJ qJ) :
    |ccaProb (kPke ML_KEM_512 mat) A true - ccaProb (kPke ML_KEM_512 mat) A false| ≤
      hardness ML_KEM_512 mat (reduction (kPke ML_KEM_512 mat) A) + (2 * qJ + qG) / 2 ^ 256 + 3 * (qG + 1) * (1 / 2 ^ 123 + failDistance ML_KEM_512 mat) :=
  seed_bound ML_KEM_512 123 C76_fail.1 mat A hG hJ

/-- C81. ML-KEM-768. -/
theorem C81_768 {S : Type} [Fintype S] [Nonempty S] (mat : S → Fin 3 → Fin 3 → Rq) (A : SeedAttack ML_KEM_768 S) {qG qJ : Nat}
    (hG : ∀ pk c k, (A pk c k).QueriesG qG) (hJ : ∀ pk c k, (A pk c k).QueriesJ qJ) :
    |ccaProb (kPke ML_KEM_768 mat) A true - ccaProb (kPke ML_KEM_768 mat) A false| ≤
      hardness ML_KEM_768 mat (reduction (kPke ML_KEM_768 mat) A) + (2 * qJ + qG) / 2 ^ 256 + 3 * (qG + 1) * (1 / 2 ^ 148 + failDistance ML_KEM_768 mat) :=
  seed_bound ML_KEM_768 148 C76_fail.2.1 mat A hG hJ

/-- C81. ML-KEM-1024. -/
theorem C81_1024 {S : Type} [Fintype S] [Nonempty S] (mat : S → Fin 4 → Fin 4 → Rq) (A : SeedAttack ML_KEM_1024 S) {qG qJ : Nat}
    (hG : ∀ pk c k, (A pk c k).QueriesG qG) (hJ : ∀ pk c k, (A pk c k).QueriesJ qJ) :
    |ccaProb (kPke ML_KEM_1024 mat) A true - ccaProb (kPke ML_KEM_1024 mat) A false| ≤
      hardness ML_KEM_1024 mat (reduction (kPke ML_KEM_1024 mat) A) + (2 * qJ + qG) / 2 ^ 256 + 3 * (qG + 1) * (1 / 2 ^ 161 + failDistance ML_KEM_1024 mat) :=
  seed_bound ML_KEM_1024 161 C76_fail.2.2 mat A hG hJ

/-! ## Concrete cases -/

/-- The key pair of the seed 0. -/
example (z : Bytes 32) (c : Ciphertext ML_KEM_512) : ∃ ρ σ ek dk, KeyGen_internal ML_KEM_512 168 (List.replicate 32 0) (byteList z) = some (ek, dk) ∧
    Decaps_internal ML_KEM_512 168 dk (byteList c) = some (byteList (kemDecaps (kPke ML_KEM_512 (expandMat ML_KEM_512 168)) (kemG ek) (kemJ _) (ρ, σ) z c)) := by
  have h1 : byteList (listBytes 32 katRho) = katRho := byteList_listBytes _ (by decide)
  have h2 : byteList (listBytes 32 (G katIn).2) = (G katIn).2 := byteList_listBytes _ (G_snd_length _)
  obtain ⟨A, hA⟩ := kat_expandA
  obtain ⟨ek, dk, h3, -, h4⟩ := C81_decaps ML_KEM_512 168 (List.replicate 32 0) (listBytes 32 katRho) (listBytes 32 (G katIn).2) z c
    (by rw [h1, h2, show List.replicate 32 0 ++ [UInt8.ofNat ML_KEM_512.k] = katIn from rfl, ← kat_rho]) (by rw [h1, show ML_KEM_512.k = 2 from rfl, hA]; rfl)
  exact ⟨_, _, ek, dk, h3, h4⟩

/-- The advantage is not always 0: a constant is not a uniform byte. -/
example : distAdv (fun _ : Unit => (0 : Fin 256)) (fun y => if y = 0 then 1 else 0) = 1 - 1 / 256 := by
  unfold distAdv E
  decide +kernel

/-- Nor is that of Module-LWE: from seeds with the matrix 0, and without noise. -/
example : 0 < seedAdv (P := { ML_KEM_512 with k := 1, η₁ := 0, η₂ := 0 }) (S := Unit) (fun _ _ _ => 0) (fun _ b => ind (b 0 = 0)) := by
  have h0 : ∀ b : Bytes (64 * 0), cbd 0 b = 0 := fun b => by
    funext i
    simp [cbd, SamplePolyCBD]
  have hm : ∀ a : Rq, mulRq a 0 = 0 := fun a => by
    funext i
    simp [mulRq]
  have hr : seedReal (P := { ML_KEM_512 with k := 1, η₁ := 0, η₂ := 0 }) (S := Unit) (fun _ _ _ => 0) (fun _ b => ind (b 0 = 0)) = 1 := by
    unfold seedReal
    refine Eq.trans (congrArg E (funext fun x => if_pos ?_)) (E_const 1)
    show ∑ j : Fin 1, mulRq (NTTInv 0) (cbd 0 (x.2.1 j)) + cbd 0 (x.2.2 0) = 0
    simp [h0, hm]
  have hu : seedUniform (P := { ML_KEM_512 with k := 1, η₁ := 0, η₂ := 0 }) (S := Unit) (fun _ b => ind (b 0 = 0)) < 1 := by
    unfold seedUniform
    rw [E_prod]
    refine lt_of_eq_of_lt (Eq.trans (congrArg E (funext fun x => ?_)) (E_const (1 / 3329 ^ 256 : ℚ))) (by norm_num)
    rw [← E_equiv (Equiv.funUnique (Fin 1) Rq).symm]
    show E (fun f : Rq => ind (f = 0)) = _
    have hi : ∀ f : Rq, ind (f = 0) = if f = 0 then 1 else 0 := fun f => by
      unfold ind
      by_cases h : f = 0
      · rw [if_pos h, if_pos h]
      · rw [if_neg h, if_neg h]
    have hs : (∑ f : Rq, ind (f = 0)) = 1 := (Finset.sum_congr rfl fun f _ => hi f).trans ((Finset.sum_ite_eq' univ (0 : Rq) _).trans (if_pos (mem_univ _)))
    unfold E
    rw [hs, Fintype.card_fun, ZMod.card, Fintype.card_fin]
    norm_num
  unfold seedAdv
  rw [hr]
  linarith

end Verif.Props
