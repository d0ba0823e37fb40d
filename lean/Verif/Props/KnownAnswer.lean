import Verif.Proof.KnownAnswer
import Verif.Proof.KatStream
import Verif.Props.Programs

/-! # C88: known answers

For every parameter set the first test vector of test_vectors.c is given in literals (Spec/KnownAnswer.lean), and what decapsulation returns after one bit of the ciphertext was
changed. The theorems say that the specification and both implementations compute exactly these bytes, and that test_vectors.c prints them. For `fuel` see Props/Kem.lean; two extra
blocks for each entry of the matrix are enough here. -/

set_option autoImplicit false

namespace Verif.Props
open Verif.Model Verif.Spec Verif.Proof

/-- The known answer of a parameter set. -/
def knownAnswer : ParamSet → KnownAnswer
  | .k2 => ka512
  | .k3 => ka768
  | .k4 => ka1024

theorem knownAnswer_length (p : ParamSet) : (knownAnswer p).d.length = 32 ∧ (knownAnswer p).z.length = 32 ∧ (knownAnswer p).m.length = 32 ∧
    (knownAnswer p).ek.length = ekLen (fips p) ∧ (knownAnswer p).dk.length = dkLen (fips p) ∧ (knownAnswer p).c.length = ctLen (fips p) ∧
    (knownAnswer p).c'.length = ctLen (fips p) ∧ (knownAnswer p).r.length = ctLen (fips p) := by
  cases p <;> refine ⟨?_, ?_, ?_, ?_, ?_, ?_, ?_, ?_⟩ <;> simp [knownAnswer, ka512, ka768, ka1024, hexBytes] <;> decide

/-! ## The specification -/

section
variable (p : ParamSet) (N : Nat) (hN : 224 ≤ N)
include hN

/-- C88. Key generation of the standard. -/
theorem C88_keygen : KeyGen_internal (fips p) N (knownAnswer p).d (knownAnswer p).z = some ((knownAnswer p).ek, (knownAnswer p).dk) := by
  cases p <;> simp only [knownAnswer]
  · rw [ka512_d, ka512_z, ka512_ek, ka512_dk]; exact KeyGen_internal_mono (Nat.le_trans (by omega) hN) kat2_keygen
  · rw [ka768_d, ka768_z, ka768_ek, ka768_dk]; exact KeyGen_internal_mono (Nat.le_trans (by omega) hN) kat3_keygen
  · rw [ka1024_d, ka1024_z, ka1024_ek, ka1024_dk]; exact KeyGen_internal_mono hN kat4_keygen

/-- C88. Encapsulation of the standard to that key. -/
theorem C88_encaps : Encaps_internal (fips p) N (knownAnswer p).ek (knownAnswer p).m = some ((knownAnswer p).K, (knownAnswer p).c) := by
  cases p <;> simp only [knownAnswer]
  · rw [ka512_ek, ka512_m, ka512_K, ka512_c]; exact Encaps_internal_mono (Nat.le_trans (by omega) hN) kat2_encaps
  · rw [ka768_ek, ka768_m, ka768_K, ka768_c]; exact Encaps_internal_mono (Nat.le_trans (by omega) hN) kat3_encaps
  · rw [ka1024_ek, ka1024_m, ka1024_K, ka1024_c]; exact Encaps_internal_mono hN kat4_encaps

/-- C88. Decapsulation of the standard recovers the key. -/
theorem C88_decaps : Decaps_internal (fips p) N (knownAnswer p).dk (knownAnswer p).c = some (knownAnswer p).K := by
  cases p <;> simp only [knownAnswer]
  · rw [ka512_dk, ka512_K, ka512_c]; exact Decaps_internal_mono (Nat.le_trans (by omega) hN) kat2_decaps
  · rw [ka768_dk, ka768_K, ka768_c]; exact Decaps_internal_mono (Nat.le_trans (by omega) hN) kat3_decaps
  · rw [ka1024_dk, ka1024_K, ka1024_c]; exact Decaps_internal_mono hN kat4_decaps

/-- C88. Decapsulation of the standard for the changed ciphertext. -/
theorem C88_reject : Decaps_internal (fips p) N (knownAnswer p).dk (knownAnswer p).c' = some (knownAnswer p).K' := by
  cases p <;> simp only [knownAnswer]
  · rw [ka512_dk, ka512_KR, ka512_cR]; exact Decaps_internal_mono (Nat.le_trans (by omega) hN) kat2_reject
  · rw [ka768_dk, ka768_KR, ka768_cR]; exact Decaps_internal_mono (Nat.le_trans (by omega) hN) kat3_reject
  · rw [ka1024_dk, ka1024_KR, ka1024_cR]; exact Decaps_internal_mono hN kat4_reject

/-- C88. Decapsulation of the standard for the random ciphertext. -/
theorem C88_random : Decaps_internal (fips p) N (knownAnswer p).dk (knownAnswer p).r = some (knownAnswer p).Kr := by
  cases p <;> simp only [knownAnswer]
  · rw [ka512_dk, ka512_Kr, ka512_r]; exact Decaps_internal_mono (Nat.le_trans (by omega) hN) kat2_random
  · rw [ka768_dk, ka768_Kr, ka768_r]; exact Decaps_internal_mono (Nat.le_trans (by omega) hN) kat3_random
  · rw [ka1024_dk, ka1024_Kr, ka1024_r]; exact Decaps_internal_mono hN kat4_random

end

/-! ## The code -/

section
variable (p : ParamSet) (junk : Junk) (f : Nat) (hf : 2 ≤ f)
include hf

/-- C88. `crypto_kem_keypair_derand` of ref/ on the coins d ‖ z. -/
theorem C88_ref_keypair (pk sk coins : Mem UInt8) (hd : coins.Holds 0 (knownAnswer p).d) (hz : coins.Holds 32 (knownAnswer p).z) (hpk : ekLen (fips p) ≤ pk.size)
    (hsk : dkLen (fips p) ≤ sk.size) :
    Runs (crypto_kem_keypair_derand p f pk sk coins) (fun s => pk.Wrote s.1 0 (knownAnswer p).ek ∧ sk.Wrote s.2.1 0 (knownAnswer p).dk ∧ s.2.2 = 0) :=
  C01_keypair p f pk sk coins _ _ hd (knownAnswer_length p).1 hz (knownAnswer_length p).2.1 hpk hsk _ _ (C88_keygen p _ (by omega))

/-- C88. `crypto_kem_enc_derand` of ref/ on that public key and the coins m. -/
theorem C88_ref_enc (ct ss pk coins : Mem UInt8) (hm : coins.Holds 0 (knownAnswer p).m) (hek : pk.Holds 0 (knownAnswer p).ek) (hct : ctLen (fips p) ≤ ct.size) (hss : 32 ≤ ss.size) :
    Runs (crypto_kem_enc_derand p f ct ss pk coins) (fun s => ct.Wrote s.1 0 (knownAnswer p).c ∧ ss.Wrote s.2.1 0 (knownAnswer p).K ∧ s.2.2 = 0) :=
  C02_enc p f ct ss pk coins _ _ hm (knownAnswer_length p).2.2.1 hek (knownAnswer_length p).2.2.2.1 hct hss _ _ (C88_encaps p _ (by omega))

/-- C88. `crypto_kem_dec` of ref/ on that secret key and ciphertext. -/
theorem C88_ref_dec (ss ct sk : Mem UInt8) (hc : ct.Holds 0 (knownAnswer p).c) (hdk : sk.Holds 0 (knownAnswer p).dk) (hss : 32 ≤ ss.size) :
    Runs (crypto_kem_dec p f ss ct sk) (fun s => ss.Wrote s.1 0 (knownAnswer p).K ∧ s.2 = 0) :=
  C03_dec p f ss ct sk _ _ hc (knownAnswer_length p).2.2.2.2.2.1 hdk (knownAnswer_length p).2.2.2.2.1 hss _ (C88_decaps p _ (by omega))

/-- C88. `crypto_kem_dec` of ref/ on the changed ciphertext: it returns 0 and writes another key. -/
theorem C88_ref_reject (ss ct sk : Mem UInt8) (hc : ct.Holds 0 (knownAnswer p).c') (hdk : sk.Holds 0 (knownAnswer p).dk) (hss : 32 ≤ ss.size) :
    Runs (crypto_kem_dec p f ss ct sk) (fun s => ss.Wrote s.1 0 (knownAnswer p).K' ∧ s.2 = 0) :=
  C03_dec p f ss ct sk _ _ hc (knownAnswer_length p).2.2.2.2.2.2.1 hdk (knownAnswer_length p).2.2.2.2.1 hss _ (C88_reject p _ (by omega))

/-- C88. `crypto_kem_dec` of ref/ on the random ciphertext. -/
theorem C88_ref_random (ss ct sk : Mem UInt8) (hc : ct.Holds 0 (knownAnswer p).r) (hdk : sk.Holds 0 (knownAnswer p).dk) (hss : 32 ≤ ss.size) :
    Runs (crypto_kem_dec p f ss ct sk) (fun s => ss.Wrote s.1 0 (knownAnswer p).Kr ∧ s.2 = 0) :=
  C03_dec p f ss ct sk _ _ hc (knownAnswer_length p).2.2.2.2.2.2.2 hdk (knownAnswer_length p).2.2.2.2.1 hss _ (C88_random p _ (by omega))

/-- C88. `crypto_kem_keypair_derand` of avx2/. -/
theorem C88_avx_keypair (pk sk coins : Mem UInt8) (hd : coins.Holds 0 (knownAnswer p).d) (hz : coins.Holds 32 (knownAnswer p).z) (hpk : ekLen (fips p) ≤ pk.size)
    (hsk : dkLen (fips p) ≤ sk.size) :
    Runs (Avx.crypto_kem_keypair_derand p junk f pk sk coins) (fun s => pk.Wrote s.1 0 (knownAnswer p).ek ∧ sk.Wrote s.2.1 0 (knownAnswer p).dk ∧ s.2.2 = 0) :=
  C48_keypair p junk f pk sk coins _ _ hd (knownAnswer_length p).1 hz (knownAnswer_length p).2.1 hpk hsk _ _ (C88_keygen p _ (by omega))

/-- C88. `crypto_kem_enc_derand` of avx2/. -/
theorem C88_avx_enc (ct ss pk coins : Mem UInt8) (hm : coins.Holds 0 (knownAnswer p).m) (hek : pk.Holds 0 (knownAnswer p).ek) (hct : ctLen (fips p) ≤ ct.size) (hss : 32 ≤ ss.size) :
    Runs (Avx.crypto_kem_enc_derand p junk f ct ss pk coins) (fun s => ct.Wrote s.1 0 (knownAnswer p).c ∧ ss.Wrote s.2.1 0 (knownAnswer p).K ∧ s.2.2 = 0) :=
  C49_enc p junk f ct ss pk coins _ _ hm (knownAnswer_length p).2.2.1 hek (knownAnswer_length p).2.2.2.1 hct hss _ _ (C88_encaps p _ (by omega))

/-- C88. `crypto_kem_dec` of avx2/. -/
theorem C88_avx_dec (ss ct sk : Mem UInt8) (hc : ct.Holds 0 (knownAnswer p).c) (hdk : sk.Holds 0 (knownAnswer p).dk) (hss : 32 ≤ ss.size) :
    Runs (Avx.crypto_kem_dec p junk f ss ct sk) (fun s => ss.Wrote s.1 0 (knownAnswer p).K ∧ s.2 = 0) :=
  C50_dec p junk f ss ct sk _ _ hc (knownAnswer_length p).2.2.2.2.2.1 hdk (knownAnswer_length p).2.2.2.2.1 hss _ (C88_decaps p _ (by omega))

/-- C88. `crypto_kem_dec` of avx2/ on the changed ciphertext. -/
theorem C88_avx_reject (ss ct sk : Mem UInt8) (hc : ct.Holds 0 (knownAnswer p).c') (hdk : sk.Holds 0 (knownAnswer p).dk) (hss : 32 ≤ ss.size) :
    Runs (Avx.crypto_kem_dec p junk f ss ct sk) (fun s => ss.Wrote s.1 0 (knownAnswer p).K' ∧ s.2 = 0) :=
  C50_dec p junk f ss ct sk _ _ hc (knownAnswer_length p).2.2.2.2.2.2.1 hdk (knownAnswer_length p).2.2.2.2.1 hss _ (C88_reject p _ (by omega))

/-- C88. `crypto_kem_dec` of avx2/ on the random ciphertext. -/
theorem C88_avx_random (ss ct sk : Mem UInt8) (hc : ct.Holds 0 (knownAnswer p).r) (hdk : sk.Holds 0 (knownAnswer p).dk) (hss : 32 ≤ ss.size) :
    Runs (Avx.crypto_kem_dec p junk f ss ct sk) (fun s => ss.Wrote s.1 0 (knownAnswer p).Kr ∧ s.2 = 0) :=
  C50_dec p junk f ss ct sk _ _ hc (knownAnswer_length p).2.2.2.2.2.2.2 hdk (knownAnswer_length p).2.2.2.2.1 hss _ (C88_random p _ (by omega))

end

/-- C88. The noise of the known answer is within the decoding threshold; so every premise of `C04_correct` can be met for every parameter set. -/
theorem C88_threshold (p : ParamSet) : ∃ A : Nat → Nat → Rq,
    (∀ i < (fips p).k, ∀ j < (fips p).k, SampleNTT 224 ((G ((knownAnswer p).d ++ [UInt8.ofNat (fips p).k])).1 ++ [UInt8.ofNat j, UInt8.ofNat i]) = some (A i j)) ∧
    WithinThreshold (knownAnswer p).m (decryptionNoise (fips p) A (G ((knownAnswer p).d ++ [UInt8.ofNat (fips p).k])).2 (knownAnswer p).m
      (G ((knownAnswer p).m ++ H (knownAnswer p).ek)).2) := by
  cases p
  · have hG : G ((knownAnswer .k2).d ++ [UInt8.ofNat (fips .k2).k]) = (nb 32 kat2RhoN, nb 32 kat2SigN) := by
      rw [show (knownAnswer .k2).d = nb 32 katDN from ka512_d]; exact kat2_g
    have hA : ∀ i < (fips .k2).k, ∀ j < (fips .k2).k, SampleNTT 224 ((G ((knownAnswer .k2).d ++ [UInt8.ofNat (fips .k2).k])).1 ++ [UInt8.ofNat j, UInt8.ofNat i]) = some (kat2A i j) := by
      rw [hG]; exact fun i hi j hj => sampleNTT_mono _ _ (by omega) _ _ (kat2_sample i hi j hj)
    have hm : (knownAnswer .k2).m = nb 32 katMN := ka512_m
    have he : (knownAnswer .k2).ek = nb 800 kat2EkN := ka512_ek
    refine ⟨kat2A, hA, ?_⟩
    rw [hm, he, kat2_h, kat2_gm]
    exact (decrypt_encrypt_iff (P := ML_KEM_512) (by decide) (by decide) (by decide) (by decide) hA (nb_length _ _) ((congrArg _ ka512_d).trans (kat2_pke_keygen.trans (by rw [kat2_ek]))) kat2_encrypt).1 kat2_decrypt
  · have hG : G ((knownAnswer .k3).d ++ [UInt8.ofNat (fips .k3).k]) = (nb 32 kat3RhoN, nb 32 kat3SigN) := by
      rw [show (knownAnswer .k3).d = nb 32 katDN from ka768_d]; exact kat3_g
    have hA : ∀ i < (fips .k3).k, ∀ j < (fips .k3).k, SampleNTT 224 ((G ((knownAnswer .k3).d ++ [UInt8.ofNat (fips .k3).k])).1 ++ [UInt8.ofNat j, UInt8.ofNat i]) = some (kat3A i j) := by
      rw [hG]; exact fun i hi j hj => sampleNTT_mono _ _ (by omega) _ _ (kat3_sample i hi j hj)
    have hm : (knownAnswer .k3).m = nb 32 katMN := ka768_m
    have he : (knownAnswer .k3).ek = nb 1184 kat3EkN := ka768_ek
    refine ⟨kat3A, hA, ?_⟩
    rw [hm, he, kat3_h, kat3_gm]
    exact (decrypt_encrypt_iff (P := ML_KEM_768) (by decide) (by decide) (by decide) (by decide) hA (nb_length _ _) ((congrArg _ ka768_d).trans (kat3_pke_keygen.trans (by rw [kat3_ek]))) kat3_encrypt).1 kat3_decrypt
  · have hG : G ((knownAnswer .k4).d ++ [UInt8.ofNat (fips .k4).k]) = (nb 32 kat4RhoN, nb 32 kat4SigN) := by
      rw [show (knownAnswer .k4).d = nb 32 katDN from ka1024_d]; exact kat4_g
    have hA : ∀ i < (fips .k4).k, ∀ j < (fips .k4).k, SampleNTT 224 ((G ((knownAnswer .k4).d ++ [UInt8.ofNat (fips .k4).k])).1 ++ [UInt8.ofNat j, UInt8.ofNat i]) = some (kat4A i j) := by
      rw [hG]; exact fun i hi j hj => kat4_sample i hi j hj
    have hm : (knownAnswer .k4).m = nb 32 katMN := ka1024_m
    have he : (knownAnswer .k4).ek = nb 1568 kat4EkN := ka1024_ek
    refine ⟨kat4A, hA, ?_⟩
    rw [hm, he, kat4_h, kat4_gm]
    exact (decrypt_encrypt_iff (P := ML_KEM_1024) (by decide) (by decide) (by decide) (by decide) hA (nb_length _ _) ((congrArg _ ka1024_d).trans (kat4_pke_keygen.trans (by rw [kat4_ek]))) kat4_encrypt).1 kat4_decrypt

/-! ## The test program -/

/-- What test_vectors.c prints for the first test. -/
def firstVector (p : ParamSet) : List Char :=
  hexLine "Public Key: " (knownAnswer p).ek ++ hexLine "Secret Key: " (knownAnswer p).dk ++ hexLine "Ciphertext: " (knownAnswer p).c ++ hexLine "Shared Secret B: " (knownAnswer p).K ++
    hexLine "Shared Secret A: " (knownAnswer p).K ++ hexLine "Pseudorandom shared Secret A: " (knownAnswer p).Kr

/-- C88. The inputs of the known answers are the first bytes of SHAKE128 of the empty string. -/
theorem C88_inputs (p : ParamSet) : streamAt shakeStream 0 32 = (knownAnswer p).d ∧ streamAt shakeStream 32 32 = (knownAnswer p).z ∧ streamAt shakeStream 64 32 = (knownAnswer p).m ∧
    streamAt shakeStream 96 (ctLen (fips p)) = (knownAnswer p).r := by
  cases p <;> simp only [knownAnswer]
  · rw [ka512_d, ka512_z, ka512_m, ka512_r]
    exact ⟨stream_lit (by omega) (by decide +kernel), stream_lit (by omega) (by decide +kernel), stream_lit (by omega) (by decide +kernel),
      stream_lit (k := 768) (by omega) (by decide +kernel)⟩
  · rw [ka768_d, ka768_z, ka768_m, ka768_r]
    exact ⟨stream_lit (by omega) (by decide +kernel), stream_lit (by omega) (by decide +kernel), stream_lit (by omega) (by decide +kernel),
      stream_lit (k := 1088) (by omega) (by decide +kernel)⟩
  · rw [ka1024_d, ka1024_z, ka1024_m, ka1024_r]
    exact ⟨stream_lit (by omega) (by decide +kernel), stream_lit (by omega) (by decide +kernel), stream_lit (by omega) (by decide +kernel),
      stream_lit (k := 1568) (by omega) (by decide +kernel)⟩

theorem testVectors_first (p : ParamSet) (N : Nat) (hN : 224 ≤ N) (n : Nat) : testVectors (fips p) N shakeStream (n + 1) 0 =
    (testVectors (fips p) N shakeStream n (96 + ctLen (fips p))).map fun o => (firstVector p ++ o.1, o.2.1, o.2.2) := by
  obtain ⟨h1, h2, h3, h4⟩ := C88_inputs p
  rw [testVectors, Nat.zero_add, Nat.zero_add, h1, h2, h3, C88_keygen p N hN]
  simp only [Option.bind_eq_bind, Option.bind_some, C88_encaps p N hN, C88_decaps p N hN, if_true]
  rw [show (32 * ((fips p).du * (fips p).k + (fips p).dv)) = ctLen (fips p) from rfl, Nat.zero_add, h4, C88_random p N hN]
  cases testVectors (fips p) N shakeStream n (96 + ctLen (fips p)) <;> rfl

section
variable (p : ParamSet) (f : Nat) (hf : 2 ≤ f)
include hf

/-- C88. test_vectors.c with one test, linked to the reference build, prints the known answer and returns 0. -/
theorem C88_ref_vector : outcomeOf (tvMain p (fun _ => refApi p f) tv_randombytes rngstate 1) = .returned (firstVector p, [], 0) := by
  rw [C63_ref, testVectors_first p _ (by omega) 0, testVectors]
  simp [expected]

/-- C88. The same for the AVX2 build. -/
theorem C88_avx_vector (junk : Nat → Junk) : outcomeOf (tvMain p (fun i => Avx.avxApi p (junk i) f) tv_randombytes rngstate 1) = .returned (firstVector p, [], 0) := by
  rw [C63_avx2, testVectors_first p _ (by omega) 0, testVectors]
  simp [expected]

/-- C88. Whatever the program with its 10000 tests writes begins with the known answer. -/
theorem C88_prefix (out err : List Char) (ret : Int) (h : outcomeOf (test_vectors p fun _ => refApi p f) = .returned (out, err, ret)) : firstVector p <+: out := by
  unfold test_vectors at h
  rw [C63_ref, testVectors_first p _ (by omega) 9999] at h
  cases ht : testVectors (fips p) (112 + 56 * f) shakeStream 9999 (96 + ctLen (fips p)) with
  | none => rw [ht] at h; cases h
  | some r =>
    rw [ht] at h
    injection h with h
    rw [show out = firstVector p ++ r.1 from (congrArg Prod.fst h).symm]
    exact List.prefix_append _ _

end

/-! ## Cases -/

/-- The buffers of the theorems exist. -/
example (p : ParamSet) (b : List UInt8) : (Mem.ofList b).Holds 0 b ∧ ekLen (fips p) ≤ (Mem.uninit UInt8 (ekLen (fips p))).size :=
  ⟨Mem.holds_ofList b, by rw [Mem.size_uninit]⟩

/-- The known answers are not degenerate: for every parameter set the two ciphertexts differ in exactly one byte and the three keys differ. -/
example (p : ParamSet) : (((knownAnswer p).c.zip (knownAnswer p).c').filter fun x => x.1 ≠ x.2).length = 1 ∧ (knownAnswer p).K ≠ (knownAnswer p).K' ∧
    (knownAnswer p).K ≠ (knownAnswer p).Kr := by
  cases p <;> decide +kernel

/-- The beginning of what is printed. -/
example : (firstVector .k2).take 28 = "Public Key: c29ac66c84bee3f1".toList := by decide +kernel

end Verif.Props
