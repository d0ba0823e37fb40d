import Verif.Proof.Bind
import Verif.Props.AvxKem

/-! # Binding of the shared secret (C72)

Two calls of `crypto_kem_dec` that return the same shared secret. The collisions are given by their inputs (that collisions exist is clear). -/

set_option autoImplicit false

namespace Verif.Props
open Verif.Model Verif.Spec Verif.Proof

/-- Two different strings whose values under SHA3-512 agree in the first 32 bytes. -/
def CollG (x y : List UInt8) : Prop := x ≠ y ∧ (SHA3_512 x).take 32 = (SHA3_512 y).take 32
/-- Two different strings with the same 32 bytes of SHAKE256. -/
def CollJ (x y : List UInt8) : Prop := x ≠ y ∧ SHAKE256 x 32 = SHAKE256 y 32
/-- Two different strings with the same SHA3-256. -/
def CollH (x y : List UInt8) : Prop := x ≠ y ∧ SHA3_256 x = SHA3_256 y
/-- A string whose SHA3-512 begins with the 32 bytes of SHAKE256 of another. -/
def CrossGJ (x y : List UInt8) : Prop := (SHA3_512 x).take 32 = SHAKE256 y 32

/-- A call of decapsulation that returned, by either build: the ciphertext is `c`, the secret key `dk`, the shared secret `K`. -/
inductive DecCall (p : ParamSet) (c dk : List UInt8) (K : List UInt8) : Prop
  | ref (fuel : Nat) (ss ct sk : Mem UInt8) (v : Mem UInt8 × Int) (t : Trace) (hc : ct.Holds 0 c) (hcl : c.length = ctLen (fips p)) (hdk : sk.Holds 0 dk)
      (hdkl : dk.length = dkLen (fips p)) (hss : 32 ≤ ss.size) (hr : crypto_kem_dec p fuel ss ct sk = .ok v t) (hK : v.1.Holds 0 K) (hKl : K.length = 32)
  | avx2 (junk : Junk) (fuel : Nat) (ss ct sk : Mem UInt8) (v : Mem UInt8 × Int) (t : Trace) (hc : ct.Holds 0 c) (hcl : c.length = ctLen (fips p))
      (hdk : sk.Holds 0 dk) (hdkl : dk.length = dkLen (fips p)) (hss : 32 ≤ ss.size) (hr : Avx.crypto_kem_dec p junk fuel ss ct sk = .ok v t) (hK : v.1.Holds 0 K) (hKl : K.length = 32)

theorem holds_unique {m : Mem UInt8} {o : Nat} {l l' : List UInt8} (h : m.Holds o l) (h' : m.Holds o l') (e : l.length = l'.length) : l = l' := by
  refine List.ext_getElem e fun i h1 h2 => ?_
  have a := h i h1
  rw [h' i h2] at a
  exact (Option.some.inj (Option.some.inj a)).symm

theorem decaps_length {P : Params} {N : Nat} {dk c K : List UInt8} (h : Decaps_internal P N dk c = some K) : K.length = 32 := by
  rcases decaps_cases h with ⟨_, rfl⟩ | ⟨_, rfl⟩
  · exact G_fst_length _
  · exact SHAKE256_length _ _

theorem DecCall.spec {p : ParamSet} {c dk K : List UInt8} (h : DecCall p c dk K) : ∃ N, Decaps_internal (fips p) N dk c = some K := by
  cases h with
  | ref fuel ss ct sk v t hc hcl hdk hdkl hss hr hK hKl =>
    obtain ⟨K', hK', hw, _⟩ := ok_of_runsO (dec_ref p fuel ss ct sk c dk hc hcl hdk hdkl hss) hr
    exact ⟨_, by rw [hK', holds_unique hw.holds hK (by rw [decaps_length hK', hKl])]⟩
  | avx2 junk fuel ss ct sk v t hc hcl hdk hdkl hss hr hK hKl =>
    obtain ⟨K', hK', hw, _⟩ := ok_of_runsO (dec_avx p junk fuel ss ct sk c dk hc hcl hdk hdkl hss) hr
    exact ⟨_, by rw [hK', holds_unique hw.holds hK (by rw [decaps_length hK', hKl])]⟩

theorem DecCall.lengths {p : ParamSet} {c dk K : List UInt8} (h : DecCall p c dk K) : c.length = ctLen (fips p) ∧ dk.length = dkLen (fips p) := by
  cases h with
  | ref fuel ss ct sk v t hc hcl hdk hdkl hss hr hK hKl => exact ⟨hcl, hdkl⟩
  | avx2 junk fuel ss ct sk v t hc hcl hdk hdkl hss hr hK hKl => exact ⟨hcl, hdkl⟩

theorem dkZ_length {P : Params} {dk : List UInt8} (h : dk.length = dkLen P) : (dkZ P dk).length = 32 := by
  unfold dkZ
  rw [bytes_length (by omega) (by rw [h]; exact Nat.le_refl _)]
  omega

theorem append_ne {a b c : List UInt8} (h : b ≠ c) : a ++ b ≠ a ++ c := fun e => h (List.append_cancel_left e)

/-- C72. One secret key, honest or not, and two different ciphertexts. If the two calls return the same shared secret then one of four explicit pairs is a collision: the inputs of
SHA3-512, those of SHAKE256, or one of each. -/
theorem C72_ciphertext (p : ParamSet) (dk c1 c2 K : List UInt8) (h1 : DecCall p c1 dk K) (h2 : DecCall p c2 dk K) (hne : c1 ≠ c2) :
    CollG (decMsg (fips p) dk c1 ++ dkH (fips p) dk) (decMsg (fips p) dk c2 ++ dkH (fips p) dk) ∨
    CollJ (dkZ (fips p) dk ++ c1) (dkZ (fips p) dk ++ c2) ∨
    CrossGJ (decMsg (fips p) dk c1 ++ dkH (fips p) dk) (dkZ (fips p) dk ++ c2) ∨
    CrossGJ (decMsg (fips p) dk c2 ++ dkH (fips p) dk) (dkZ (fips p) dk ++ c1) := by
  obtain ⟨N1, s1⟩ := h1.spec
  obtain ⟨N2, s2⟩ := h2.spec
  rcases bind_ct (Decaps_internal_mono (Nat.le_max_left N1 N2) s1) (Decaps_internal_mono (Nat.le_max_right N1 N2) s2) hne with ⟨e, h⟩ | h | h | h
  · exact Or.inl ⟨fun e' => e (List.append_cancel_right e'), h⟩
  · exact Or.inr (Or.inl ⟨append_ne hne, h⟩)
  · exact Or.inr (Or.inr (Or.inl h))
  · exact Or.inr (Or.inr (Or.inr h))

/-- C72. Two secret keys with different public keys, each with the right hash of its public key, and with different rejection secrets. If two calls return the same shared secret, for
any ciphertexts, then one of five explicit pairs is a collision. -/
theorem C72_key (p : ParamSet) (dk1 dk2 c1 c2 K : List UInt8) (h1 : DecCall p c1 dk1 K) (h2 : DecCall p c2 dk2 K)
    (hh1 : dkH (fips p) dk1 = SHA3_256 (dkEk (fips p) dk1)) (hh2 : dkH (fips p) dk2 = SHA3_256 (dkEk (fips p) dk2)) (hek : dkEk (fips p) dk1 ≠ dkEk (fips p) dk2)
    (hz : dkZ (fips p) dk1 ≠ dkZ (fips p) dk2) :
    CollG (decMsg (fips p) dk1 c1 ++ dkH (fips p) dk1) (decMsg (fips p) dk2 c2 ++ dkH (fips p) dk2) ∨
    CollH (dkEk (fips p) dk1) (dkEk (fips p) dk2) ∨
    CollJ (dkZ (fips p) dk1 ++ c1) (dkZ (fips p) dk2 ++ c2) ∨
    CrossGJ (decMsg (fips p) dk1 c1 ++ dkH (fips p) dk1) (dkZ (fips p) dk2 ++ c2) ∨
    CrossGJ (decMsg (fips p) dk2 c2 ++ dkH (fips p) dk2) (dkZ (fips p) dk1 ++ c1) := by
  obtain ⟨N1, s1⟩ := h1.spec
  obtain ⟨N2, s2⟩ := h2.spec
  rcases bind_key s1 s2 with ⟨e, _⟩ | ⟨e, h⟩ | ⟨h, _⟩ | h | h
  · refine Or.inr (Or.inl ⟨hek, ?_⟩)
    rw [← hh1, ← hh2]
    exact (List.append_inj e (by unfold decMsg; rw [decrypt_length, decrypt_length])).2
  · exact Or.inl ⟨e, h⟩
  · refine Or.inr (Or.inr (Or.inl ⟨fun e => hz (List.append_inj e ?_).1, h⟩))
    rw [dkZ_length h1.lengths.2, dkZ_length h2.lengths.2]
  · exact Or.inr (Or.inr (Or.inr (Or.inl h)))
  · exact Or.inr (Or.inr (Or.inr (Or.inr h)))

/-- A call of encapsulation that returned, by either build: the public key is `ek`, the message `m`, the shared secret `K`. -/
inductive EncCall (p : ParamSet) (ek m K : List UInt8) : Prop
  | ref (fuel : Nat) (ct ss pk coins : Mem UInt8) (v : Mem UInt8 × Mem UInt8 × Int) (t : Trace) (hm : coins.Holds 0 m) (hml : m.length = 32) (hek : pk.Holds 0 ek)
      (hekl : ek.length = ekLen (fips p)) (hct : ctLen (fips p) ≤ ct.size) (hss : 32 ≤ ss.size) (hr : crypto_kem_enc_derand p fuel ct ss pk coins = .ok v t) (hK : v.2.1.Holds 0 K) (hKl : K.length = 32)
  | avx2 (junk : Junk) (fuel : Nat) (ct ss pk coins : Mem UInt8) (v : Mem UInt8 × Mem UInt8 × Int) (t : Trace) (hm : coins.Holds 0 m) (hml : m.length = 32) (hek : pk.Holds 0 ek)
      (hekl : ek.length = ekLen (fips p)) (hct : ctLen (fips p) ≤ ct.size) (hss : 32 ≤ ss.size) (hr : Avx.crypto_kem_enc_derand p junk fuel ct ss pk coins = .ok v t) (hK : v.2.1.Holds 0 K) (hKl : K.length = 32)

theorem EncCall.spec {p : ParamSet} {ek m K : List UInt8} (h : EncCall p ek m K) : m.length = 32 ∧ (SHA3_512 (m ++ SHA3_256 ek)).take 32 = K := by
  have key : ∀ {fuel : Nat} {K' c : List UInt8}, Encaps_internal (fips p) (112 + 56 * fuel) ek m = some (K', c) → K' = (SHA3_512 (m ++ SHA3_256 ek)).take 32 := fun {fuel K' c} h => by
    unfold Encaps_internal at h
    dsimp only at h
    cases he : K_PKE_Encrypt (fips p) (112 + 56 * fuel) ek m (G (m ++ H ek)).2 with
    | none => rw [he] at h; cases h
    | some c' =>
      rw [he] at h
      exact (congrArg Prod.fst (Option.some.inj h)).symm
  have kl : ((SHA3_512 (m ++ SHA3_256 ek)).take 32).length = 32 := G_fst_length _
  cases h with
  | ref fuel ct ss pk coins v t hm hml hek hekl hct hss hr hK hKl =>
    obtain ⟨⟨K', c⟩, hK', _, hw, _⟩ := ok_of_runsO (enc_ref p fuel ct ss pk coins ek m hm hml hek hekl hct hss) hr
    obtain rfl := key hK'
    exact ⟨hml, holds_unique hw.holds hK (kl.trans hKl.symm)⟩
  | avx2 junk fuel ct ss pk coins v t hm hml hek hekl hct hss hr hK hKl =>
    obtain ⟨⟨K', c⟩, hK', _, hw, _⟩ := ok_of_runsO (enc_avx p junk fuel ct ss pk coins ek m hm hml hek hekl hct hss) hr
    obtain rfl := key hK'
    exact ⟨hml, holds_unique hw.holds hK (kl.trans hKl.symm)⟩

/-- C72. Two calls of encapsulation with the same shared secret: they have the same public key and the same message, or there is an explicit collision of SHA3-512 or SHA3-256. -/
theorem C72_encaps (p : ParamSet) (ek1 ek2 m1 m2 K : List UInt8) (h1 : EncCall p ek1 m1 K) (h2 : EncCall p ek2 m2 K) :
    (ek1 = ek2 ∧ m1 = m2) ∨ CollG (m1 ++ SHA3_256 ek1) (m2 ++ SHA3_256 ek2) ∨ CollH ek1 ek2 := by
  obtain ⟨l1, e1⟩ := h1.spec
  obtain ⟨l2, e2⟩ := h2.spec
  by_cases h : m1 ++ SHA3_256 ek1 = m2 ++ SHA3_256 ek2
  · obtain ⟨a, b⟩ := List.append_inj h (l1.trans l2.symm)
    by_cases he : ek1 = ek2
    · exact Or.inl ⟨he, a⟩
    · exact Or.inr (Or.inr ⟨he, b⟩)
  · exact Or.inr (Or.inl ⟨h, e1.trans e2.symm⟩)

/-- C72. The condition on the rejection secrets in `C72_key` is needed: for any two secret keys with the same rejection secret, honest or not, whose matrices can be sampled, there is a
ciphertext for which both builds return the same shared secret under both keys. -/
theorem C72_same_z (p : ParamSet) (N : Nat) (dk1 dk2 : List UInt8) (hl1 : dk1.length = dkLen (fips p)) (hl2 : dk2.length = dkLen (fips p)) (hz : dkZ (fips p) dk1 = dkZ (fips p) dk2)
    (hA1 : (ExpandA (fips p).k N (bytes (dkEk (fips p) dk1) (384 * (fips p).k) (384 * (fips p).k + 32))).isSome)
    (hA2 : (ExpandA (fips p).k N (bytes (dkEk (fips p) dk2) (384 * (fips p).k) (384 * (fips p).k + 32))).isSome) :
    ∃ c K, c.length = ctLen (fips p) ∧ K.length = 32 ∧ ∀ (fuel : Nat) (ss ct sk : Mem UInt8), N ≤ fuel → 32 ≤ ss.size → ct.Holds 0 c → (sk.Holds 0 dk1 ∨ sk.Holds 0 dk2) →
      Runs (crypto_kem_dec p fuel ss ct sk) (fun s => ss.Wrote s.1 0 K ∧ s.2 = 0) ∧ ∀ junk, Runs (Avx.crypto_kem_dec p junk fuel ss ct sk) (fun s => ss.Wrote s.1 0 K ∧ s.2 = 0) := by
  obtain ⟨c, K, hc, e1, e2⟩ := same_z dk1 dk2 hz hA1 hA2 (n := ctLen (fips p)) (by cases p <;> decide)
  refine ⟨c, K, hc, decaps_length e1, fun fuel ss ct sk hN hss hct hsk => ?_⟩
  rcases hsk with h | h
  · exact ⟨C03_terminates p fuel ss ct sk c dk1 hct hc h hl1 hss N K e1 hN, fun junk => C50_terminates p junk fuel ss ct sk c dk1 hct hc h hl1 hss N K e1 hN⟩
  · exact ⟨C03_terminates p fuel ss ct sk c dk2 hct hc h hl2 hss N K e2 hN, fun junk => C50_terminates p junk fuel ss ct sk c dk2 hct hc h hl2 hss N K e2 hN⟩

/-- C72. In particular for the keys that key generation makes from any `d₁`, `d₂` and the same `z`. -/
theorem C72_same_z_keys (p : ParamSet) (N : Nat) (d1 d2 z ek1 dk1 ek2 dk2 : List UInt8) (hz : z.length = 32) (h1 : KeyGen_internal (fips p) N d1 z = some (ek1, dk1))
    (h2 : KeyGen_internal (fips p) N d2 z = some (ek2, dk2)) :
    ∃ c K, c.length = ctLen (fips p) ∧ K.length = 32 ∧ ∀ (fuel : Nat) (ss ct sk : Mem UInt8), N ≤ fuel → 32 ≤ ss.size → ct.Holds 0 c → (sk.Holds 0 dk1 ∨ sk.Holds 0 dk2) →
      Runs (crypto_kem_dec p fuel ss ct sk) (fun s => ss.Wrote s.1 0 K ∧ s.2 = 0) ∧ ∀ junk, Runs (Avx.crypto_kem_dec p junk fuel ss ct sk) (fun s => ss.Wrote s.1 0 K ∧ s.2 = 0) := by
  obtain ⟨l1, a1, _, z1, e1⟩ := keygen_parts hz h1
  obtain ⟨l2, a2, _, z2, e2⟩ := keygen_parts hz h2
  exact C72_same_z p N dk1 dk2 l1 l2 (z1.trans z2.symm) (by rw [a1]; exact e1) (by rw [a2]; exact e2)

/-- C72. At most 2^256 of the ciphertexts are accepted, whatever the secret key: all others give a secret from the rejection. -/
theorem C72_accepted (p : ParamSet) (N : Nat) (dk : List UInt8) :
    Set.ncard {b : Fin (ctLen (fips p)) → Fin 256 | Accepted (fips p) N dk (List.ofFn fun i => UInt8.ofNat (b i).val)} ≤ 2 ^ 256 := accepted_count dk _

/-- C72. What acceptance means for a call of either build. -/
theorem C72_meaning (p : ParamSet) (c dk K : List UInt8) (h : DecCall p c dk K) : ∃ N,
    (Accepted (fips p) N dk c → K = (SHA3_512 (decMsg (fips p) dk c ++ dkH (fips p) dk)).take 32) ∧ (¬ Accepted (fips p) N dk c → K = SHAKE256 (dkZ (fips p) dk ++ c) 32) := by
  obtain ⟨N, hN⟩ := h.spec
  rcases decaps_cases hN with ⟨a, e⟩ | ⟨a, e⟩
  · exact ⟨N, fun _ => e, fun h => absurd a h⟩
  · exact ⟨N, fun h => absurd h a, fun _ => e⟩

/-! ## Cases -/

/-- A secret key with the given public key, its hash, and zero bytes in the other parts. -/
def keyWith (ek : List UInt8) : List UInt8 := List.replicate 768 0 ++ ek ++ SHA3_256 ek ++ List.replicate 32 0

theorem keyWith_parts {ek : List UInt8} (h : ek.length = 800) : dkEk ML_KEM_512 (keyWith ek) = ek ∧ dkH ML_KEM_512 (keyWith ek) = SHA3_256 ek ∧
    dkZ ML_KEM_512 (keyWith ek) = List.replicate 32 0 ∧ (keyWith ek).length = 1632 := by
  have hp := dk_parts (k := 2) (s := List.replicate 768 0) (ek := ek) (h := SHA3_256 ek) (z := List.replicate 32 0) List.length_replicate h (SHA3_256_length ek) List.length_replicate
  refine ⟨hp.2.1, hp.2.2.1, hp.2.2.2, ?_⟩
  unfold keyWith
  simp only [List.length_append, List.length_replicate, h, SHA3_256_length]

/-- A case of `C72_same_z`: two secret keys with different public keys, each with the right hash. -/
example : ∃ dk1 dk2 c K, dkEk ML_KEM_512 dk1 ≠ dkEk ML_KEM_512 dk2 ∧ dkH ML_KEM_512 dk1 = SHA3_256 (dkEk ML_KEM_512 dk1) ∧ dkH ML_KEM_512 dk2 = SHA3_256 (dkEk ML_KEM_512 dk2) ∧
    DecCall .k2 c dk1 K ∧ DecCall .k2 c dk2 K := by
  have l1 : (List.replicate 768 0 ++ katRho).length = 800 := by decide +kernel
  have l2 : (List.replicate 768 1 ++ katRho).length = 800 := by decide +kernel
  obtain ⟨p1, q1, r1, s1⟩ := keyWith_parts l1
  obtain ⟨p2, q2, r2, s2⟩ := keyWith_parts l2
  obtain ⟨A, hA⟩ := kat_expandA
  have hb1 : bytes (List.replicate 768 0 ++ katRho) 768 800 = katRho := by decide +kernel
  have hb2 : bytes (List.replicate 768 1 ++ katRho) 768 800 = katRho := by decide +kernel
  obtain ⟨c, K, hc, hK, h⟩ := C72_same_z .k2 168 (keyWith (List.replicate 768 0 ++ katRho)) (keyWith (List.replicate 768 1 ++ katRho)) s1 s2 (r1.trans r2.symm)
    (by rw [show fips .k2 = ML_KEM_512 from rfl, p1]; show (ExpandA 2 168 (bytes _ 768 800)).isSome = true; rw [hb1, hA]; rfl)
    (by rw [show fips .k2 = ML_KEM_512 from rfl, p2]; show (ExpandA 2 168 (bytes _ 768 800)).isSome = true; rw [hb2, hA]; rfl)
  have call : ∀ dk : List UInt8, dk.length = 1632 → ((Mem.ofList dk).Holds 0 (keyWith (List.replicate 768 0 ++ katRho)) ∨ (Mem.ofList dk).Holds 0 (keyWith (List.replicate 768 1 ++ katRho))) →
      DecCall .k2 c dk K := fun dk hdk hh => by
    obtain ⟨v, t, e, hw, _⟩ := (h 168 (Mem.uninit UInt8 32) (Mem.ofList c) (Mem.ofList dk) (Nat.le_refl _) (by simp) (Mem.holds_ofList c) hh).1.exists_ok
    exact .ref 168 _ _ _ v t (Mem.holds_ofList c) hc (Mem.holds_ofList dk) hdk (by simp) e hw.holds hK
  refine ⟨_, _, c, K, ?_, ?_, ?_, call _ s1 (Or.inl (Mem.holds_ofList _)), call _ s2 (Or.inr (Mem.holds_ofList _))⟩
  · rw [p1, p2]; decide +kernel
  · rw [p1, q1]
  · rw [p2, q2]

end Verif.Props
