import Verif.Proof.AliasRef
import Verif.Avx.AliasProof
import Verif.Props.Kem

/-! # Arguments that share memory (C70)

All arguments of a KEM call are offsets into one memory `X`, so that they may overlap in any way. Encapsulation and decapsulation are right without any condition on the offsets
(except that of two overlapping outputs the later written wins). Key generation needs the public key, the secret key and the second half of the coins to be disjoint; what happens
otherwise is stated as well. -/

set_option autoImplicit false

namespace Verif.Props
open Verif.Model Verif.Spec Verif.Proof

/-- `P` are the functions of one of the two builds, for any contents of the uninitialised bytes the AVX2 build hashes. -/
def IsBuild (P : Pke) (p : ParamSet) (fuel : Nat) : Prop := P = refPke p fuel ∨ ∃ junk, P = Avx.avxPke p junk fuel

theorem IsBuild.spec {P : Pke} {p : ParamSet} {fuel : Nat} (h : IsBuild P p fuel) : PkeSpec P p fuel := by
  rcases h with rfl | ⟨junk, rfl⟩
  · exact refPke_spec p fuel
  · exact Avx.avxPke_spec p junk fuel

/-- C70. The parts of ref/indcpa.c the calls are made of give the functions of the model with separate objects. -/
theorem C70_cut_ref (p : ParamSet) (fuel : Nat) :
    (∀ pk sk coins, indcpa_keypair_derand p fuel pk sk coins = (do
      let (skpv, pkpv, buf) ← (refPke p fuel).keypair coins
      let sk ← (refPke p fuel).pack_sk sk skpv
      let pk ← (refPke p fuel).pack_pk pk pkpv buf
      pure (pk, sk))) ∧
    ∀ c m mo pk po coins co, indcpa_enc p fuel c m mo pk po coins co = (do
      let (b, v) ← (refPke p fuel).enc m mo pk po coins co
      (refPke p fuel).pack_ciphertext c b v) :=
  ⟨fun pk sk coins => indcpa_keypair_cut p fuel pk sk coins, fun c m mo pk po coins co => indcpa_enc_cut p fuel c m mo pk po coins co⟩

/-- C70. The same for avx2/indcpa.c. -/
theorem C70_cut_avx (p : ParamSet) (junk : Nat → Fin 4 → Nat → UInt8) (fuel : Nat) :
    (∀ pk sk coins, Avx.indcpa_keypair_derand p junk fuel pk sk coins = (do
      let (skpv, pkpv, buf) ← (Avx.avxPke p junk fuel).keypair coins
      let sk ← (Avx.avxPke p junk fuel).pack_sk sk skpv
      let pk ← (Avx.avxPke p junk fuel).pack_pk pk pkpv buf
      pure (pk, sk))) ∧
    ∀ c m mo pk po coins co, Avx.indcpa_enc p junk fuel c m mo pk po coins co = (do
      let (b, v) ← (Avx.avxPke p junk fuel).enc m mo pk po coins co
      (Avx.avxPke p junk fuel).pack_ciphertext c b v) :=
  ⟨fun pk sk coins => Avx.indcpa_keypair_cut p junk fuel pk sk coins, fun c m mo pk po coins co => Avx.indcpa_enc_cut p junk fuel c m mo pk po coins co⟩

/-- Two strings of memory have no cell in common. -/
def Apart (a n b m : Nat) : Prop := a + n ≤ b ∨ b + m ≤ a

theorem encaps_lens {P : Params} {N : Nat} {ek m K c : List UInt8} (h : Encaps_internal P N ek m = some (K, c)) : c.length = ctLen P ∧ K.length = 32 := by
  unfold Encaps_internal at h
  have hg := G_fst_length (m ++ H ek)
  generalize G (m ++ H ek) = g at *
  obtain ⟨K', r⟩ := g
  dsimp only at h hg
  cases he : K_PKE_Encrypt P N ek m r with
  | none => rw [he] at h; simp at h
  | some c' =>
    rw [he] at h
    have h : (K', c') = (K, c) := Option.some.inj h
    cases h
    exact ⟨encrypt_length he, hg⟩

section
variable (P : Pke) (p : ParamSet) (fuel : Nat) (hP : IsBuild P p fuel) (X : Mem UInt8)
include hP

/-! ## Encapsulation -/

section
variable (ct ss pk coins : Nat) (ek m : List UInt8) (hm : X.Holds coins m) (hml : m.length = 32) (hek : X.Holds pk ek) (hekl : ek.length = ekLen (fips p))
  (hct : ct + ctLen (fips p) ≤ X.size) (hss : ss + 32 ≤ X.size)
include hm hml hek hekl hct hss

/-- C70. Encapsulation writes the ciphertext of the standard and then the shared secret of the standard, and nothing else, wherever its four arguments lie. -/
theorem C70_enc (K c : List UInt8) (h : Encaps_internal (fips p) (112 + 56 * fuel) ek m = some (K, c)) :
    Runs (kem_enc_in P p X ct ss pk coins) fun s => (∃ X1, X.Wrote X1 ct c ∧ X1.Wrote s.1 ss K) ∧ s.2 = 0 :=
  (kem_enc_in_runsO hP.spec hm hml hek (by rw [hekl, pk_size']; rfl) (by rw [ct_size']; exact hct) hss).runs h

theorem C70_enc_diverges (h : Encaps_internal (fips p) (112 + 56 * fuel) ek m = none) : kem_enc_in P p X ct ss pk coins = .diverge := by
  have := kem_enc_in_runsO hP.spec hm hml hek (by rw [hekl, pk_size']; rfl) (by rw [ct_size']; exact hct) hss
  rwa [show iters fuel = 112 + 56 * fuel from rfl, h, runsO_none] at this

/-- C70. If the two outputs are apart, both are right, though they may overwrite the public key and the coins. -/
theorem C70_enc_outputs (K c : List UInt8) (h : Encaps_internal (fips p) (112 + 56 * fuel) ek m = some (K, c)) (hd : Apart ct (ctLen (fips p)) ss 32) :
    Runs (kem_enc_in P p X ct ss pk coins) fun s => s.1.size = X.size ∧ s.1.Holds ct c ∧ s.1.Holds ss K ∧
      ∀ j, (j < ct ∨ ct + ctLen (fips p) ≤ j) → (j < ss ∨ ss + 32 ≤ j) → s.1[j]? = X[j]? := by
  have hcl := encaps_lens h
  refine (C70_enc P p fuel hP X ct ss pk coins ek m hm hml hek hekl hct hss K c h).mono fun s hs => ?_
  obtain ⟨⟨X1, h1, h2⟩, -⟩ := hs
  unfold Apart at hd
  refine ⟨h2.size.trans h1.size, h2.holds_frame h1.holds (by omega), h2.holds, fun j hj1 hj2 => ?_⟩
  rw [h2.frame j (by omega), h1.frame j (by omega)]

/-- C70. If the buffer of the shared secret lies in that of the ciphertext, the ciphertext that is sent contains the shared secret. -/
theorem C70_enc_exposed (K c : List UInt8) (h : Encaps_internal (fips p) (112 + 56 * fuel) ek m = some (K, c)) (t : Nat) (ht : ss = ct + t) (ht' : t + 32 ≤ ctLen (fips p)) :
    Runs (kem_enc_in P p X ct ss pk coins) fun s => ∃ sent, sent.length = ctLen (fips p) ∧ s.1.Holds ct sent ∧ slice sent t 32 = K := by
  have hcl := encaps_lens h
  refine (C70_enc P p fuel hP X ct ss pk coins ek m hm hml hek hekl hct hss K c h).mono fun s hs => ?_
  obtain ⟨⟨X1, h1, h2⟩, -⟩ := hs
  obtain ⟨sent, hsl, hs⟩ := (Mem.Wrote.init h2 (Mem.Holds.init h1.holds)).holds
  refine ⟨sent, by omega, hs, ?_⟩
  have e := hs.slice t 32 (by omega)
  rw [← ht] at e
  exact e.unique h2.holds (by rw [length_slice (by omega)]; omega)

end

/-! ## Decapsulation -/

section
variable (ss ct sk : Nat) (c dk : List UInt8) (hc : X.Holds ct c) (hcl : c.length = ctLen (fips p)) (hdk : X.Holds sk dk) (hdkl : dk.length = dkLen (fips p))
  (hss : ss + 32 ≤ X.size)
include hc hcl hdk hdkl hss

/-- C70. Decapsulation writes the shared secret of the standard and nothing else, wherever its three arguments lie: the secret may overwrite the ciphertext or the key. -/
theorem C70_dec (K : List UInt8) (h : Decaps_internal (fips p) (112 + 56 * fuel) dk c = some K) :
    Runs (kem_dec_in P p X ss ct sk) fun s => X.Wrote s.1 ss K ∧ s.2 = 0 :=
  (kem_dec_in_runsO hP.spec hc (by rw [hcl, ct_size']; rfl) hdk (by rw [hdkl, sk_size]; rfl) hss).runs h

theorem C70_dec_diverges (h : Decaps_internal (fips p) (112 + 56 * fuel) dk c = none) : kem_dec_in P p X ss ct sk = .diverge := by
  have := kem_dec_in_runsO hP.spec hc (by rw [hcl, ct_size']; rfl) hdk (by rw [hdkl, sk_size]; rfl) hss
  rwa [show iters fuel = 112 + 56 * fuel from rfl, h, runsO_none] at this

end

/-! ## Key generation -/

section
variable (pk sk coins : Nat) (d z : List UInt8) (hd : X.Holds coins d) (hdl : d.length = 32) (hz : X.Holds (coins + 32) z) (hzl : z.length = 32)
  (hpk : pk + ekLen (fips p) ≤ X.size) (hsk : sk + dkLen (fips p) ≤ X.size)
include hd hdl hpk hsk

/-- C70. Key generation does not return if the sampling needs more iterations than the fuel allows, and otherwise it is undefined if the public key overlaps the place in the
secret key it is copied to. -/
theorem C70_keypair_ub_pk (h : K_PKE_KeyGen (fips p) (112 + 56 * fuel) d ≠ none) (ho : ¬ Apart pk (ekLen (fips p)) (sk + 384 * (fips p).k) (ekLen (fips p))) :
    kem_keypair_in P p X pk sk coins = .ub .alias := by
  unfold Apart at ho
  have e1 : KYBER_PUBLICKEYBYTES p = ekLen (fips p) := pk_size' p
  have e2 := isk_size p
  have e3 : KYBER_SECRETKEYBYTES p = dkLen (fips p) := sk_size p
  exact kem_keypair_in_ub1 hP.spec hd hdl (by omega) (by omega) (by omega) (by omega) h

/-- C70. It is undefined if the second half of the coins overlaps the place in the secret key it is copied to, even if it is that place. -/
theorem C70_keypair_ub_z (h : K_PKE_KeyGen (fips p) (112 + 56 * fuel) d ≠ none) (ho : ¬ Apart (coins + 32) 32 (sk + dkLen (fips p) - 32) 32) :
    kem_keypair_in P p X pk sk coins = .ub .alias := by
  unfold Apart at ho
  have e1 : KYBER_PUBLICKEYBYTES p = ekLen (fips p) := pk_size' p
  have e3 : KYBER_SECRETKEYBYTES p = dkLen (fips p) := sk_size p
  have : 96 ≤ dkLen (fips p) := by unfold dkLen; omega
  exact kem_keypair_in_ub2 hP.spec hd hdl (by omega) (by omega) (by omega) (by omega) h

include hz hzl

theorem keypair_in_all {ek dkPKE : List UInt8} (h : K_PKE_KeyGen (fips p) (112 + 56 * fuel) d = some (ek, dkPKE))
    (h1 : Apart pk (ekLen (fips p)) (sk + 384 * (fips p).k) (ekLen (fips p))) (h2 : Apart (coins + 32) 32 (sk + dkLen (fips p) - 32) 32) :
    ek.length = ekLen (fips p) ∧ dkPKE.length = 384 * (fips p).k ∧ Runs (kem_keypair_in P p X pk sk coins) fun s => s.2 = 0 ∧ ∃ X1 X2 X3 z',
      X.Wrote X1 sk dkPKE ∧ X1.Wrote X2 pk ek ∧ X2.Wrote X3 (sk + 384 * (fips p).k) (ek ++ H ek) ∧
      z'.length = 32 ∧ X3.Holds (coins + 32) z' ∧ X3.Wrote s.1 (sk + dkLen (fips p) - 32) z' := by
  unfold Apart at h1 h2
  have e1 : KYBER_PUBLICKEYBYTES p = ekLen (fips p) := pk_size' p
  have e2 := isk_size p
  have e3 : KYBER_SECRETKEYBYTES p = dkLen (fips p) := sk_size p
  have : 96 ≤ dkLen (fips p) := by unfold dkLen; omega
  obtain ⟨l1, l2⟩ := keygen_length h
  have hi := Mem.Holds.init hz
  rw [hzl] at hi
  have hr := (kem_keypair_in_runsO hP.spec (pk := pk) (sk := sk) hd hdl hi (by omega) (by omega) (by omega) (by omega)).runs h
  rw [e2, e3] at hr
  exact ⟨l1, l2, hr⟩

/-- C70. Key generation writes exactly the keys of the standard if the keys and the second half of the coins are apart. The first half of the coins may lie anywhere, and the keys
may overwrite it. -/
theorem C70_keypair (ek dk : List UInt8) (h : KeyGen_internal (fips p) (112 + 56 * fuel) d z = some (ek, dk))
    (h1 : Apart pk (ekLen (fips p)) sk (dkLen (fips p))) (h2 : Apart (coins + 32) 32 pk (ekLen (fips p))) (h3 : Apart (coins + 32) 32 sk (dkLen (fips p))) :
    Runs (kem_keypair_in P p X pk sk coins) fun s => s.2 = 0 ∧ s.1.size = X.size ∧ s.1.Holds pk ek ∧ s.1.Holds sk dk ∧
      ∀ j, (j < pk ∨ pk + ekLen (fips p) ≤ j) → (j < sk ∨ sk + dkLen (fips p) ≤ j) → s.1[j]? = X[j]? := by
  obtain ⟨dkPKE, hk, rfl⟩ := keygen_inv h
  unfold Apart at h1 h2 h3
  have el : ekLen (fips p) = 384 * (fips p).k + 32 := rfl
  have dl : dkLen (fips p) = 768 * (fips p).k + 96 := rfl
  obtain ⟨l1, l2, hr⟩ := keypair_in_all P p fuel hP X pk sk coins d z hd hdl hz hzl hpk hsk hk (by unfold Apart; omega) (by unfold Apart; omega)
  have lH : (H ek).length = 32 := SHA3_256_length ek
  refine hr.mono fun s hs => ?_
  obtain ⟨h0, X1, X2, X3, z', w1, w2, w3, lz, hz', w4⟩ := hs
  have hz3 : X3.Holds (coins + 32) z := w3.holds_frame (w2.holds_frame (w1.holds_frame hz (by omega)) (by omega)) (by rw [List.length_append]; omega)
  obtain rfl := hz'.unique hz3 (by omega)
  refine ⟨h0, by rw [w4.size, w3.size, w2.size, w1.size], ?_, ?_, fun j hj1 hj2 => ?_⟩
  · exact w4.holds_frame (w3.holds_frame w2.holds (by rw [List.length_append]; omega)) (by omega)
  · rw [List.append_assoc, Mem.Holds.append, Mem.Holds.append]
    refine ⟨⟨?_, ?_⟩, ?_⟩
    · exact w4.holds_frame (w3.holds_frame (w2.holds_frame w1.holds (by omega)) (by omega)) (by omega)
    · exact w4.holds_frame ((Mem.Holds.append.1 (l2 ▸ w3.holds)).1) (by omega)
    · rw [Mem.Holds.append, List.length_append, l1, l2]
      refine ⟨?_, ?_⟩
      · have := w4.holds_frame (Mem.Holds.append.1 w3.holds).2 (by omega)
        rw [l1] at this
        rwa [← Nat.add_assoc]
      · rw [lH, show sk + (384 * (fips p).k + ekLen (fips p)) + 32 = sk + dkLen (fips p) - 32 from by omega]
        exact w4.holds
  · rw [w4.frame j (by omega), w3.frame j (by rw [List.length_append]; omega), w2.frame j (by omega), w1.frame j (by omega)]

/-- C70. If the second half of the coins lies in the public key, the secret of implicit rejection that is stored is a part of the public key: everyone knows it. -/
theorem C70_keypair_exposed (ek dk : List UInt8) (h : KeyGen_internal (fips p) (112 + 56 * fuel) d z = some (ek, dk))
    (h1 : Apart pk (ekLen (fips p)) sk (dkLen (fips p))) (t : Nat) (ht : coins + 32 = pk + t) (ht' : t + 32 ≤ ekLen (fips p)) :
    Runs (kem_keypair_in P p X pk sk coins) fun s => s.2 = 0 ∧ s.1.Holds pk ek ∧ s.1.Holds (sk + dkLen (fips p) - 32) (slice ek t 32) := by
  obtain ⟨dkPKE, hk, rfl⟩ := keygen_inv h
  unfold Apart at h1
  have el : ekLen (fips p) = 384 * (fips p).k + 32 := rfl
  have dl : dkLen (fips p) = 768 * (fips p).k + 96 := rfl
  obtain ⟨l1, l2, hr⟩ := keypair_in_all P p fuel hP X pk sk coins d z hd hdl hz hzl hpk hsk hk (by unfold Apart; omega) (by unfold Apart; omega)
  have lH : (H ek).length = 32 := SHA3_256_length ek
  refine hr.mono fun s hs => ?_
  obtain ⟨h0, X1, X2, X3, z', w1, w2, w3, lz, hz', w4⟩ := hs
  have hp3 : X3.Holds pk ek := w3.holds_frame w2.holds (by rw [List.length_append]; omega)
  have hz3 := hp3.slice t 32 (by omega)
  rw [← ht] at hz3
  obtain rfl := hz'.unique hz3 (by rw [length_slice (by omega)]; omega)
  exact ⟨h0, w4.holds_frame hp3 (by omega), w4.holds⟩

/-- C70. If the public key ends where the secret key's copy of it begins, nothing is undefined, but the decryption key is overwritten: the secret key consists of public values
and z. -/
theorem C70_keypair_clobbered (ek dk : List UInt8) (h : KeyGen_internal (fips p) (112 + 56 * fuel) d z = some (ek, dk))
    (h1 : sk = pk + 32) (h2 : Apart (coins + 32) 32 pk (ekLen (fips p))) (h3 : Apart (coins + 32) 32 sk (dkLen (fips p))) :
    Runs (kem_keypair_in P p X pk sk coins) fun s => s.2 = 0 ∧ s.1.Holds pk ek ∧ s.1.Holds sk (slice ek 32 (384 * (fips p).k) ++ ek ++ H ek ++ z) := by
  obtain ⟨dkPKE, hk, rfl⟩ := keygen_inv h
  unfold Apart at h2 h3
  have el : ekLen (fips p) = 384 * (fips p).k + 32 := rfl
  have dl : dkLen (fips p) = 768 * (fips p).k + 96 := rfl
  obtain ⟨l1, l2, hr⟩ := keypair_in_all P p fuel hP X pk sk coins d z hd hdl hz hzl hpk hsk hk (by unfold Apart; omega) (by unfold Apart; omega)
  have lH : (H ek).length = 32 := SHA3_256_length ek
  refine hr.mono fun s hs => ?_
  obtain ⟨h0, X1, X2, X3, z', w1, w2, w3, lz, hz', w4⟩ := hs
  have hz3 : X3.Holds (coins + 32) z := w3.holds_frame (w2.holds_frame (w1.holds_frame hz (by omega)) (by omega)) (by rw [List.length_append]; omega)
  obtain rfl := hz'.unique hz3 (by omega)
  have hp : s.1.Holds pk ek := w4.holds_frame (w3.holds_frame w2.holds (by omega)) (by omega)
  have ls : (slice ek 32 (384 * (fips p).k)).length = 384 * (fips p).k := length_slice (by omega)
  refine ⟨h0, hp, ?_⟩
  rw [List.append_assoc, Mem.Holds.append, Mem.Holds.append]
  refine ⟨⟨?_, ?_⟩, ?_⟩
  · have := hp.slice 32 (384 * (fips p).k) (by omega)
    rwa [← h1] at this
  · rw [ls]
    exact w4.holds_frame ((Mem.Holds.append.1 w3.holds).1) (by omega)
  · rw [Mem.Holds.append, List.length_append, l1, ls]
    refine ⟨?_, ?_⟩
    · have := w4.holds_frame (Mem.Holds.append.1 w3.holds).2 (by omega)
      rw [l1] at this
      rwa [← Nat.add_assoc]
    · rw [lH, show sk + (384 * (fips p).k + ekLen (fips p)) + 32 = sk + dkLen (fips p) - 32 from by omega]
      exact w4.holds

end
end

/-! ## Cases -/

/-- Key generation on 2496 zero bytes with the keys side by side and the first half of the coins in the public key; both builds. -/
example (P : Pke) (hP : IsBuild P .k2 1) : ∃ ek dk, Runs (kem_keypair_in P .k2 (Mem.ofList (List.replicate 2496 0)) 0 832 768) fun s => s.1.Holds 0 ek ∧ s.1.Holds 832 dk := by
  obtain ⟨ek, dk, h⟩ := kat_keygen (List.replicate 32 0)
  have h1 : (Mem.ofList (List.replicate 2496 (0 : UInt8))).Holds 768 (List.replicate 32 0) := holds_replicate (by omega)
  have h2 : (Mem.ofList (List.replicate 2496 (0 : UInt8))).Holds (768 + 32) (List.replicate 32 0) := holds_replicate (by omega)
  have hl : (List.replicate 32 (0 : UInt8)).length = 32 := List.length_replicate
  have hs : (Mem.ofList (List.replicate 2496 (0 : UInt8))).size = 2496 := by
    unfold Mem.ofList
    rw [List.size_toArray, List.length_map, List.length_replicate]
  refine ⟨ek, dk, ?_⟩
  generalize List.replicate 32 (0 : UInt8) = d at *
  generalize Mem.ofList (List.replicate 2496 (0 : UInt8)) = X at *
  exact (C70_keypair P .k2 1 hP X 0 832 768 d d h1 hl h2 hl (by rw [hs]; decide) (by rw [hs]; decide) ek dk h (by unfold Apart; decide) (by unfold Apart; decide)
    (by unfold Apart; decide)).mono fun s hs => ⟨hs.2.2.1, hs.2.2.2.1⟩

/-- The same with the coins at the start of the public key: the rejection secret is bytes 32 to 63 of the public key. -/
example (P : Pke) (hP : IsBuild P .k2 1) : ∃ ek, Runs (kem_keypair_in P .k2 (Mem.ofList (List.replicate 2496 0)) 0 832 0) fun s =>
    s.1.Holds 0 ek ∧ s.1.Holds (832 + 1632 - 32) (slice ek 32 32) := by
  obtain ⟨ek, dk, h⟩ := kat_keygen (List.replicate 32 0)
  have h1 : (Mem.ofList (List.replicate 2496 (0 : UInt8))).Holds 0 (List.replicate 32 0) := holds_replicate (by omega)
  have h2 : (Mem.ofList (List.replicate 2496 (0 : UInt8))).Holds (0 + 32) (List.replicate 32 0) := holds_replicate (by omega)
  have hl : (List.replicate 32 (0 : UInt8)).length = 32 := List.length_replicate
  have hs : (Mem.ofList (List.replicate 2496 (0 : UInt8))).size = 2496 := by
    unfold Mem.ofList
    rw [List.size_toArray, List.length_map, List.length_replicate]
  refine ⟨ek, ?_⟩
  generalize List.replicate 32 (0 : UInt8) = d at *
  generalize Mem.ofList (List.replicate 2496 (0 : UInt8)) = X at *
  exact (C70_keypair_exposed P .k2 1 hP X 0 832 0 d d h1 hl h2 hl (by rw [hs]; decide) (by rw [hs]; decide) ek dk h (by unfold Apart; decide) 32 rfl (by decide)).mono fun s hs =>
    ⟨hs.2.1, hs.2.2⟩

/-- Decapsulation with the shared secret over the ciphertext, and encapsulation with both outputs over the inputs; both builds. -/
example (P : Pke) (hP : IsBuild P .k2 1) (c : List UInt8) (hcl : c.length = 768) : ∃ K,
    Runs (kem_dec_in P .k2 (Mem.ofList (c ++ (List.replicate 1536 0 ++ katRho ++ List.replicate 64 0))) 0 0 768) fun s => s.1.Holds 0 K := by
  obtain ⟨K, h⟩ := kat_decaps (dk := List.replicate 1536 0 ++ katRho ++ List.replicate 64 0) (by decide +kernel) c
  have hk : (List.replicate 1536 (0 : UInt8) ++ katRho ++ List.replicate 64 0).length = 1632 := by decide +kernel
  generalize List.replicate 1536 (0 : UInt8) ++ katRho ++ List.replicate 64 0 = dk at *
  have hX := Mem.Holds.append.1 (Mem.holds_ofList (c ++ dk))
  rw [Nat.zero_add, hcl] at hX
  refine ⟨K, (C70_dec P .k2 1 hP _ 0 0 768 c dk hX.1 hcl hX.2 hk (by
    unfold Mem.ofList
    rw [List.size_toArray, List.length_map, List.length_append]
    omega) K h).mono fun s hs => hs.1.holds⟩

example (P : Pke) (hP : IsBuild P .k2 1) (m : List UInt8) (hml : m.length = 32) : ∃ K c,
    Runs (kem_enc_in P .k2 (Mem.ofList ((List.replicate 768 0 ++ katRho) ++ m)) 0 800 0 800) fun s => s.1.Holds 0 c ∧ s.1.Holds 800 K := by
  obtain ⟨K, c, h⟩ := kat_encaps (ek := List.replicate 768 0 ++ katRho) (by decide +kernel) m
  have hk : (List.replicate 768 (0 : UInt8) ++ katRho).length = 800 := by decide +kernel
  generalize List.replicate 768 (0 : UInt8) ++ katRho = ek at *
  have hX := Mem.Holds.append.1 (Mem.holds_ofList (ek ++ m))
  rw [Nat.zero_add, hk] at hX
  have hs : (Mem.ofList (ek ++ m)).size = 832 := by
    unfold Mem.ofList
    rw [List.size_toArray, List.length_map, List.length_append]
    omega
  exact ⟨K, c, (C70_enc_outputs P .k2 1 hP _ 0 800 0 800 ek m hX.2 hml hX.1 hk (by rw [hs]; decide) (by rw [hs]) K c h (by unfold Apart; decide)).mono fun s hs =>
    ⟨hs.2.1, hs.2.2.1⟩⟩

/-- The undefined cases occur: the public key on the start of the secret key, and the coins at the end of the secret key. -/
example (P : Pke) (hP : IsBuild P .k2 1) : kem_keypair_in P .k2 (Mem.ofList (List.replicate 1696 0)) 0 0 1632 = .ub .alias ∧
    kem_keypair_in P .k2 (Mem.ofList (List.replicate 2496 0)) 1632 0 1568 = .ub .alias := by
  obtain ⟨ek, dk, h⟩ := kat_keygen (List.replicate 32 0)
  obtain ⟨o, ho, -⟩ := keygen_inv h
  have h1 : (Mem.ofList (List.replicate 1696 (0 : UInt8))).Holds 1632 (List.replicate 32 0) := holds_replicate (by omega)
  have h2 : (Mem.ofList (List.replicate 2496 (0 : UInt8))).Holds 1568 (List.replicate 32 0) := holds_replicate (by omega)
  have hl : (List.replicate 32 (0 : UInt8)).length = 32 := List.length_replicate
  have hs1 : (Mem.ofList (List.replicate 1696 (0 : UInt8))).size = 1696 := by
    unfold Mem.ofList
    rw [List.size_toArray, List.length_map, List.length_replicate]
  have hs2 : (Mem.ofList (List.replicate 2496 (0 : UInt8))).size = 2496 := by
    unfold Mem.ofList
    rw [List.size_toArray, List.length_map, List.length_replicate]
  generalize List.replicate 32 (0 : UInt8) = d at *
  generalize Mem.ofList (List.replicate 1696 (0 : UInt8)) = X1 at *
  generalize Mem.ofList (List.replicate 2496 (0 : UInt8)) = X2 at *
  exact ⟨C70_keypair_ub_pk P .k2 1 hP X1 0 0 1632 d h1 hl (by rw [hs1]; decide) (by rw [hs1]; decide) (by
      rw [show fips .k2 = ML_KEM_512 from rfl, ho]; simp) (by unfold Apart; decide),
    C70_keypair_ub_z P .k2 1 hP X2 1632 0 1568 d h2 hl (by rw [hs2]; decide) (by rw [hs2]; decide) (by
      rw [show fips .k2 = ML_KEM_512 from rfl, ho]; simp) (by unfold Apart; decide)⟩

end Verif.Props
