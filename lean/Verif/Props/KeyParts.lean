import Verif.Props.Bind

/-! # C90: what the parts of a secret key are for

A secret key is s ‖ ek ‖ h ‖ z. FIPS 203, section 7.3, asks that h be the hash of ek; the keys that the code makes have this, and the code does not check it. The theorems say what `crypto_kem_dec`
of either build returns for two secret keys that differ in one part, whoever made them. -/

set_option autoImplicit false

namespace Verif.Props
open Verif.Model Verif.Spec Verif.Proof

/-- FIPS 203, section 7.3, step 3 (hash check). -/
def hashCheck (P : Params) (dk : List UInt8) : Prop := SHA3_256 (dkEk P dk) = dkH P dk

/-! ## The hash check -/

/-- C90. The secret keys that the code makes pass the hash check, in both builds. -/
theorem C90_ref_keypair (p : ParamSet) (fuel : Nat) (pk sk coins : Mem UInt8) (d z : List UInt8) (hd : coins.Holds 0 d) (hdl : d.length = 32) (hz : coins.Holds 32 z) (hzl : z.length = 32)
    (hpk : ekLen (fips p) ≤ pk.size) (hsk : dkLen (fips p) ≤ sk.size) (v : Mem UInt8 × Mem UInt8 × Int) (t : Trace) (hr : crypto_kem_keypair_derand p fuel pk sk coins = .ok v t) :
    ∃ dk, sk.Wrote v.2.1 0 dk ∧ dk.length = dkLen (fips p) ∧ hashCheck (fips p) dk := by
  obtain ⟨⟨ek, dk⟩, ho, _, h2, _⟩ := ok_of_runsO (keypair_ref p fuel pk sk coins d z hd hdl hz hzl hpk hsk) hr
  obtain ⟨l, e, h, _, _⟩ := keygen_parts hzl ho
  exact ⟨dk, h2, l, by unfold hashCheck; rw [e, h]; rfl⟩

theorem C90_avx_keypair (p : ParamSet) (junk : Junk) (fuel : Nat) (pk sk coins : Mem UInt8) (d z : List UInt8) (hd : coins.Holds 0 d) (hdl : d.length = 32) (hz : coins.Holds 32 z) (hzl : z.length = 32)
    (hpk : ekLen (fips p) ≤ pk.size) (hsk : dkLen (fips p) ≤ sk.size) (v : Mem UInt8 × Mem UInt8 × Int) (t : Trace) (hr : Avx.crypto_kem_keypair_derand p junk fuel pk sk coins = .ok v t) :
    ∃ dk, sk.Wrote v.2.1 0 dk ∧ dk.length = dkLen (fips p) ∧ hashCheck (fips p) dk := by
  obtain ⟨⟨ek, dk⟩, ho, _, h2, _⟩ := ok_of_runsO (keypair_avx p junk fuel pk sk coins d z hd hdl hz hzl hpk hsk) hr
  obtain ⟨l, e, h, _, _⟩ := keygen_parts hzl ho
  exact ⟨dk, h2, l, by unfold hashCheck; rw [e, h]; rfl⟩

/-- C90. The code does not make the check: it decapsulates with every string of the right length whose seed gives a matrix, and returns 0. -/
theorem C90_not_checked (p : ParamSet) (N : Nat) (dk c : List UInt8) (hdk : dk.length = dkLen (fips p)) (hc : c.length = ctLen (fips p))
    (hA : (ExpandA (fips p).k N (bytes (dkEk (fips p) dk) (384 * (fips p).k) (384 * (fips p).k + 32))).isSome) (fuel : Nat) (hN : N ≤ fuel) (ss ct sk : Mem UInt8) (hss : 32 ≤ ss.size)
    (hct : ct.Holds 0 c) (hsk : sk.Holds 0 dk) :
    ∃ K, K.length = 32 ∧ Runs (crypto_kem_dec p fuel ss ct sk) (fun s => ss.Wrote s.1 0 K ∧ s.2 = 0) ∧
      ∀ junk, Runs (Avx.crypto_kem_dec p junk fuel ss ct sk) (fun s => ss.Wrote s.1 0 K ∧ s.2 = 0) := by
  obtain ⟨K, e⟩ := decaps_isSome hA c
  exact ⟨K, decaps_length e, C03_terminates p fuel ss ct sk c dk hct hc hsk hdk hss N K e hN, fun junk => C50_terminates p junk fuel ss ct sk c dk hct hc hsk hdk hss N K e hN⟩

/-! ## Two secret keys -/

theorem calls_spec {p : ParamSet} {c1 c2 dk1 dk2 K1 K2 : List UInt8} (h1 : DecCall p c1 dk1 K1) (h2 : DecCall p c2 dk2 K2) :
    ∃ N, Decaps_internal (fips p) N dk1 c1 = some K1 ∧ Decaps_internal (fips p) N dk2 c2 = some K2 := by
  obtain ⟨N1, s1⟩ := h1.spec
  obtain ⟨N2, s2⟩ := h2.spec
  exact ⟨max N1 N2, Decaps_internal_mono (Nat.le_max_left _ _) s1, Decaps_internal_mono (Nat.le_max_right _ _) s2⟩

/-- C90. Two secret keys that differ in z only, and one ciphertext: either both accept it, and return the same secret; or both reject it, and each returns the rejection value of its z. -/
theorem C90_z (p : ParamSet) (c dk1 dk2 K1 K2 : List UInt8) (h1 : DecCall p c dk1 K1) (h2 : DecCall p c dk2 K2) (hs : dkPke (fips p) dk1 = dkPke (fips p) dk2)
    (he : dkEk (fips p) dk1 = dkEk (fips p) dk2) (hh : dkH (fips p) dk1 = dkH (fips p) dk2) :
    (K1 = K2 ∧ K1 = (SHA3_512 (decMsg (fips p) dk1 c ++ dkH (fips p) dk1)).take 32) ∨
    (K1 = SHAKE256 (dkZ (fips p) dk1 ++ c) 32 ∧ K2 = SHAKE256 (dkZ (fips p) dk2 ++ c) 32) := by
  obtain ⟨N, s1, s2⟩ := calls_spec h1 h2
  have hm : decMsg (fips p) dk2 c = decMsg (fips p) dk1 c := by unfold decMsg; rw [hs]
  have ha : Accepted (fips p) N dk1 c ↔ Accepted (fips p) N dk2 c := by unfold Accepted; rw [hm, he, hh]
  rcases decaps_cases s1 with ⟨a1, e1⟩ | ⟨a1, e1⟩ <;> rcases decaps_cases s2 with ⟨a2, e2⟩ | ⟨a2, e2⟩
  · exact Or.inl ⟨by rw [e1, e2, hm, hh], e1⟩
  · exact absurd (ha.1 a1) a2
  · exact absurd (ha.2 a2) a1
  · exact Or.inr ⟨e1, e2⟩

/-- C90. Two secret keys whose 12-bit integers for s and for t agree modulo q, with the same seed, h and z: they return the same secret for every ciphertext. -/
theorem C90_residues (p : ParamSet) (c dk1 dk2 K1 K2 : List UInt8) (h1 : DecCall p c dk1 K1) (h2 : DecCall p c dk2 K2)
    (hs : ∀ i < (fips p).k, ByteDecode12 (bytes (dkPke (fips p) dk1) (384 * i) (384 * (i + 1))) = ByteDecode12 (bytes (dkPke (fips p) dk2) (384 * i) (384 * (i + 1))))
    (ht : ∀ i < (fips p).k, ByteDecode12 (bytes (dkEk (fips p) dk1) (384 * i) (384 * (i + 1))) = ByteDecode12 (bytes (dkEk (fips p) dk2) (384 * i) (384 * (i + 1))))
    (hρ : bytes (dkEk (fips p) dk1) (384 * (fips p).k) (384 * (fips p).k + 32) = bytes (dkEk (fips p) dk2) (384 * (fips p).k) (384 * (fips p).k + 32))
    (hh : dkH (fips p) dk1 = dkH (fips p) dk2) (hz : dkZ (fips p) dk1 = dkZ (fips p) dk2) : K1 = K2 := by
  obtain ⟨N, s1, s2⟩ := calls_spec h1 h2
  have hm : decMsg (fips p) dk1 c = decMsg (fips p) dk2 c := by
    unfold decMsg K_PKE_Decrypt
    dsimp only
    rw [dotNTT_congr hs fun _ _ => rfl]
  have henc : ∀ m r, K_PKE_Encrypt (fips p) N (dkEk (fips p) dk1) m r = K_PKE_Encrypt (fips p) N (dkEk (fips p) dk2) m r := fun m r => by
    rw [K_PKE_Encrypt_eq, K_PKE_Encrypt_eq, hρ]
    have h3 : encOut (fips p) (dkEk (fips p) dk1) m r = encOut (fips p) (dkEk (fips p) dk2) m r := by
      funext A
      unfold encOut encV
      rw [dotNTT_congr (fun i hi => show encT _ i = encT _ i from ht i hi) fun _ _ => rfl]
    rw [h3]
  rw [Decaps_eq, hm, hh, hz, henc, ← Decaps_eq, s2] at s1
  exact (Option.some.inj s1).symm

/-- C90. Two secret keys that differ in h only, and a ciphertext that the first one accepts: the returned secrets differ, or the inputs of the hash functions are an explicit collision. -/
theorem C90_hash (p : ParamSet) (c dk1 dk2 K1 K2 : List UInt8) (h1 : DecCall p c dk1 K1) (h2 : DecCall p c dk2 K2) (hs : dkPke (fips p) dk1 = dkPke (fips p) dk2)
    (hh : dkH (fips p) dk1 ≠ dkH (fips p) dk2) (hz : dkZ (fips p) dk1 = dkZ (fips p) dk2) (hK : K1 ≠ SHAKE256 (dkZ (fips p) dk1 ++ c) 32) :
    K1 ≠ K2 ∨ CollG (decMsg (fips p) dk1 c ++ dkH (fips p) dk1) (decMsg (fips p) dk1 c ++ dkH (fips p) dk2) := by
  obtain ⟨N, s1, s2⟩ := calls_spec h1 h2
  have hm : decMsg (fips p) dk2 c = decMsg (fips p) dk1 c := by unfold decMsg; rw [hs]
  rcases decaps_cases s1 with ⟨a1, e1⟩ | ⟨a1, e1⟩
  · rcases decaps_cases s2 with ⟨a2, e2⟩ | ⟨a2, e2⟩
    · by_cases e : K1 = K2
      · refine Or.inr ⟨append_ne hh, ?_⟩
        rw [e1, e2, hm] at e
        exact e
      · exact Or.inl e
    · refine Or.inl fun e => hK ?_
      rw [e, e2, hz]
      rfl
  · exact absurd e1 hK

/-- C90. A ciphertext that two secret keys with the same z both reject gives the same secret, however else the keys differ. (N iterations suffice for the matrices of both keys.) -/
theorem C90_rejected (p : ParamSet) (N : Nat) (c dk1 dk2 K1 K2 : List UInt8) (h1 : DecCall p c dk1 K1) (h2 : DecCall p c dk2 K2) (hz : dkZ (fips p) dk1 = dkZ (fips p) dk2)
    (hA1 : (ExpandA (fips p).k N (bytes (dkEk (fips p) dk1) (384 * (fips p).k) (384 * (fips p).k + 32))).isSome)
    (hA2 : (ExpandA (fips p).k N (bytes (dkEk (fips p) dk2) (384 * (fips p).k) (384 * (fips p).k + 32))).isSome) (a1 : ¬ Accepted (fips p) N dk1 c) (a2 : ¬ Accepted (fips p) N dk2 c) :
    K1 = K2 := by
  obtain ⟨N', s1, s2⟩ := calls_spec h1 h2
  obtain ⟨k1, e1⟩ := decaps_isSome hA1 c
  obtain ⟨k2, e2⟩ := decaps_isSome hA2 c
  have u : ∀ {dk k k' : List UInt8}, Decaps_internal (fips p) N dk c = some k → Decaps_internal (fips p) N' dk c = some k' → k = k' := fun h h' => by
    have a := Decaps_internal_mono (Nat.le_max_left N N') h
    rw [Decaps_internal_mono (Nat.le_max_right N N') h'] at a
    exact (Option.some.inj a).symm
  rw [← u e1 s1, ← u e2 s2, decaps_rejected e1 a1, decaps_rejected e2 a2, hz]

/-! ## Cases -/

/-- A secret key of the given four parts. -/
def keyOf (s ek h z : List UInt8) : List UInt8 := s ++ ek ++ h ++ z

theorem keyOf_call {s h z c : List UInt8} (hs : s.length = 768) (hh : h.length = 32) (hz : z.length = 32) (hc : c.length = 768) :
    ∃ K, DecCall .k2 c (keyOf s (List.replicate 768 0 ++ katRho) h z) K := by
  have l1 : (List.replicate 768 0 ++ katRho).length = 800 := by decide +kernel
  have hp := dk_parts (k := 2) (s := s) (ek := List.replicate 768 0 ++ katRho) (h := h) (z := z) hs l1 hh hz
  have hl : (keyOf s (List.replicate 768 0 ++ katRho) h z).length = dkLen (fips .k2) := by
    unfold keyOf
    rw [List.length_append, List.length_append, List.length_append, hs, l1, hh, hz]
    rfl
  obtain ⟨A, hA⟩ := kat_expandA
  have hb1 : bytes (List.replicate 768 0 ++ katRho) 768 800 = katRho := by decide +kernel
  have hA' : (ExpandA (fips .k2).k 168 (bytes (dkEk (fips .k2) (keyOf s (List.replicate 768 0 ++ katRho) h z)) (384 * (fips .k2).k) (384 * (fips .k2).k + 32))).isSome := by
    rw [show dkEk (fips .k2) (keyOf s (List.replicate 768 0 ++ katRho) h z) = List.replicate 768 0 ++ katRho from hp.2.1]
    show (ExpandA 2 168 (bytes _ 768 800)).isSome = true
    rw [hb1, hA]
    rfl
  obtain ⟨K, hK, h, -⟩ := C90_not_checked .k2 168 _ c hl hc hA' 168 (Nat.le_refl _) (Mem.uninit UInt8 32) (Mem.ofList c) (Mem.ofList _) (by simp) (Mem.holds_ofList c) (Mem.holds_ofList _)
  obtain ⟨v, t, e, hw, _⟩ := h.exists_ok
  exact ⟨K, .ref 168 _ _ _ v t (Mem.holds_ofList c) hc (Mem.holds_ofList _) hl (by simp) e hw.holds hK⟩

/-- A case of `C90_z`, and of a secret key that fails the hash check and is used all the same. -/
example : ∃ c dk1 dk2 K1 K2, DecCall .k2 c dk1 K1 ∧ DecCall .k2 c dk2 K2 ∧ dkZ (fips .k2) dk1 ≠ dkZ (fips .k2) dk2 ∧ dkPke (fips .k2) dk1 = dkPke (fips .k2) dk2 ∧
    dkEk (fips .k2) dk1 = dkEk (fips .k2) dk2 ∧ dkH (fips .k2) dk1 = dkH (fips .k2) dk2 := by
  have r : ∀ b : UInt8, (List.replicate 32 b).length = 32 := fun b => List.length_replicate
  have l1 : (List.replicate 768 0 ++ katRho).length = 800 := by decide +kernel
  have hp : ∀ z : List UInt8, z.length = 32 → _ := fun z hz => dk_parts (k := 2) (s := List.replicate 768 0) (ek := List.replicate 768 0 ++ katRho) (h := List.replicate 32 5) (z := z) List.length_replicate l1 (r 5) hz
  obtain ⟨K1, h1⟩ := keyOf_call (s := List.replicate 768 0) (h := List.replicate 32 5) (z := List.replicate 32 0) (c := List.replicate 768 0) List.length_replicate (r 5) (r 0) List.length_replicate
  obtain ⟨K2, h2⟩ := keyOf_call (s := List.replicate 768 0) (h := List.replicate 32 5) (z := List.replicate 32 1) (c := List.replicate 768 0) List.length_replicate (r 5) (r 1) List.length_replicate
  have p1 := hp _ (r 0)
  have p2 := hp _ (r 1)
  refine ⟨_, _, _, K1, K2, h1, h2, fun e => ?_, p1.1.trans p2.1.symm, p1.2.1.trans p2.2.1.symm, p1.2.2.1.trans p2.2.2.1.symm⟩
  have e' := (p1.2.2.2.symm.trans e).trans p2.2.2.2
  revert e'
  decide

/-- A case of `C90_residues`: 0 and 3329 as the first integer of s. -/
example : ByteDecode12 (List.replicate 384 0) = ByteDecode12 (0x01 :: 0x0D :: List.replicate 382 0) ∧ List.replicate 384 (0 : UInt8) ≠ 0x01 :: 0x0D :: List.replicate 382 0 := by
  refine ⟨funext fun i => ?_, by decide +kernel⟩
  revert i
  decide +kernel

end Verif.Props
