import Verif.Proof.Programs
import Verif.Avx.Needs
import Verif.Model.Api
import Verif.Props.Kem
import Verif.Props.AvxKem

/-! # The announced sizes (C73)

Buffers of the sizes of api.h are enough for every call of either build, and all of each output is written. They are also needed: with a smaller output buffer, or an input of
which one byte is missing or uninitialised, no call returns. -/

set_option autoImplicit false

namespace Verif.Props
open Verif.Model Verif.Spec Verif.Proof

/-- C73. The numbers of api.h and of the META files, the macros of params.h, and table 3 of FIPS 203 are the same; the coins are the 32 + 32 and 32 bytes of
ML-KEM.KeyGen_internal and ML-KEM.Encaps_internal. -/
theorem C73_sizes (p : ParamSet) :
    api p = ⟨KYBER_SECRETKEYBYTES p, KYBER_PUBLICKEYBYTES p, KYBER_CIPHERTEXTBYTES p, 2 * KYBER_SYMBYTES, KYBER_SYMBYTES, KYBER_SSBYTES⟩ ∧
    api p = ⟨dkLen (fips p), ekLen (fips p), ctLen (fips p), 32 + 32, 32, 32⟩ ∧
    metaYml p = ((api p).publicKey, (api p).ciphertext, (api p).secretKey, (api p).shared) := by
  cases p <;> decide

/-- The buffers of a call of key generation. -/
structure KeypairBuffers (p : ParamSet) (pk sk coins : Mem UInt8) : Prop where
  pk : (api p).publicKey ≤ pk.size
  sk : (api p).secretKey ≤ sk.size
  coins : ∀ i, i < (api p).keypairCoin → ∃ v, coins[i]? = some (some v)

/-- The buffers of a call of encapsulation. -/
structure EncBuffers (p : ParamSet) (ct ss pk coins : Mem UInt8) : Prop where
  ct : (api p).ciphertext ≤ ct.size
  ss : (api p).shared ≤ ss.size
  pk : ∀ i, i < (api p).publicKey → ∃ v, pk[i]? = some (some v)
  coins : ∀ i, i < (api p).encCoin → ∃ v, coins[i]? = some (some v)

/-- The buffers of a call of decapsulation. -/
structure DecBuffers (p : ParamSet) (ss ct sk : Mem UInt8) : Prop where
  ss : (api p).shared ≤ ss.size
  ct : ∀ i, i < (api p).ciphertext → ∃ v, ct[i]? = some (some v)
  sk : ∀ i, i < (api p).secretKey → ∃ v, sk[i]? = some (some v)

/-- `m'` is a buffer of the size of `m` whose first `n` bytes are initialised. -/
def AllWritten (m m' : Mem UInt8) (n : Nat) : Prop := m'.size = m.size ∧ ∀ i, i < n → ∃ v, m'[i]? = some (some v)

/-- What a call does if and only if its buffers are as announced: no undefined behaviour, and if it returns, `Q`. -/
def Exactly {α : Type} (m : C α) (Buffers : Prop) (Q : α → Prop) : Prop :=
  (Buffers → NoUB m ∧ ∀ v t, m = .ok v t → Q v) ∧ (¬ Buffers → ∀ v t, m ≠ .ok v t)

theorem exactly_of {α β : Type} {m : C α} {o : Option β} {R : β → α → Prop} {B : Prop} {Q : α → Prop} (h1 : B → RunsO m o R ∧ ∀ b v, o = some b → R b v → Q v)
    (h2 : Post m fun _ => B) : Exactly m B Q := by
  refine ⟨fun hB => ⟨noUB_of_runsO (h1 hB).1, fun v t hm => ?_⟩, fun hB v t hm => hB (h2.ok hm)⟩
  obtain ⟨b, hb, hR⟩ := ok_of_runsO (h1 hB).1 hm
  exact (h1 hB).2 b v hb hR

theorem init_iff {m : Mem UInt8} {n : Nat} : m.Init 0 n ↔ ∀ i, i < n → ∃ v, m[i]? = some (some v) :=
  ⟨fun h i hi => by simpa using h i hi, fun h i hi => by simpa using h i hi⟩

theorem allWritten_of {m m' : Mem UInt8} {l : List UInt8} {n : Nat} (h : m.Wrote m' 0 l) (hl : l.length = n) : AllWritten m m' n :=
  ⟨h.size, init_iff.1 (hl ▸ h.holds.init)⟩

theorem api_pk (p : ParamSet) : (api p).publicKey = ekLen (fips p) ∧ (api p).publicKey = KYBER_PUBLICKEYBYTES p := by cases p <;> decide
theorem api_sk (p : ParamSet) : (api p).secretKey = dkLen (fips p) ∧ (api p).secretKey = KYBER_SECRETKEYBYTES p := by cases p <;> decide
theorem api_ct (p : ParamSet) : (api p).ciphertext = ctLen (fips p) ∧ (api p).ciphertext = KYBER_CIPHERTEXTBYTES p := by cases p <;> decide
theorem api_small (p : ParamSet) : (api p).keypairCoin = 64 ∧ (api p).encCoin = 32 ∧ (api p).shared = 32 := by cases p <;> decide

/-- The two halves of the coins of key generation. -/
theorem coins_halves {coins : Mem UInt8} (h : coins.Init 0 64) : ∃ d z : List UInt8, d.length = 32 ∧ z.length = 32 ∧ coins.Holds 0 d ∧ coins.Holds 32 z := by
  obtain ⟨d, hd, hd'⟩ := (show coins.Init 0 32 from fun i hi => h i (by omega)).holds
  obtain ⟨z, hz, hz'⟩ := (show coins.Init 32 32 from fun i hi => by
    obtain ⟨v, hv⟩ := h (32 + i) (by omega)
    exact ⟨v, by rwa [Nat.zero_add] at hv⟩).holds
  exact ⟨d, z, hd, hz, hd', hz'⟩

theorem keypairBuffers_iff {p : ParamSet} {pk sk coins : Mem UInt8} :
    KeypairBuffers p pk sk coins ↔ KYBER_PUBLICKEYBYTES p ≤ pk.size ∧ KYBER_SECRETKEYBYTES p ≤ sk.size ∧ coins.Init 0 64 :=
  ⟨fun h => ⟨(api_pk p).2 ▸ h.1, (api_sk p).2 ▸ h.2, init_iff.2 ((api_small p).1 ▸ h.3)⟩,
    fun h => ⟨(api_pk p).2 ▸ h.1, (api_sk p).2 ▸ h.2.1, (api_small p).1 ▸ init_iff.1 h.2.2⟩⟩

theorem encBuffers_iff {p : ParamSet} {ct ss pk coins : Mem UInt8} :
    EncBuffers p ct ss pk coins ↔ KYBER_CIPHERTEXTBYTES p ≤ ct.size ∧ 32 ≤ ss.size ∧ pk.Init 0 (KYBER_PUBLICKEYBYTES p) ∧ coins.Init 0 32 :=
  ⟨fun h => ⟨(api_ct p).2 ▸ h.1, (api_small p).2.2 ▸ h.2, init_iff.2 ((api_pk p).2 ▸ h.3), init_iff.2 ((api_small p).2.1 ▸ h.4)⟩,
    fun h => ⟨(api_ct p).2 ▸ h.1, (api_small p).2.2 ▸ h.2.1, (api_pk p).2 ▸ init_iff.1 h.2.2.1, (api_small p).2.1 ▸ init_iff.1 h.2.2.2⟩⟩

theorem decBuffers_iff {p : ParamSet} {ss ct sk : Mem UInt8} :
    DecBuffers p ss ct sk ↔ 32 ≤ ss.size ∧ ct.Init 0 (KYBER_CIPHERTEXTBYTES p) ∧ sk.Init 0 (KYBER_SECRETKEYBYTES p) :=
  ⟨fun h => ⟨(api_small p).2.2 ▸ h.1, init_iff.2 ((api_ct p).2 ▸ h.2), init_iff.2 ((api_sk p).2 ▸ h.3)⟩,
    fun h => ⟨(api_small p).2.2 ▸ h.1, (api_ct p).2 ▸ init_iff.1 h.2.1, (api_sk p).2 ▸ init_iff.1 h.2.2⟩⟩

/-- The statements for a build whose calls compute ML-KEM and need these buffers. -/
theorem keypair_exact {p : ParamSet} {fuel : Nat} {K : KemApi} (hK : ApiSpec p fuel K) {pk sk coins : Mem UInt8}
    (hn : Post (K.keypair_derand pk sk coins) fun _ => KYBER_PUBLICKEYBYTES p ≤ pk.size ∧ KYBER_SECRETKEYBYTES p ≤ sk.size ∧ coins.Init 0 64) :
    Exactly (K.keypair_derand pk sk coins) (KeypairBuffers p pk sk coins)
      (fun s => AllWritten pk s.1 (api p).publicKey ∧ AllWritten sk s.2.1 (api p).secretKey ∧ s.2.2 = 0) := by
  by_cases hB : KeypairBuffers p pk sk coins
  · have hB' := keypairBuffers_iff.1 hB
    obtain ⟨d, z, hd, hz, hd', hz'⟩ := coins_halves hB'.2.2
    refine exactly_of (fun _ => ⟨hK.keypair hd' hd hz' hz hB'.1 hB'.2.1, ?_⟩) (Post.all fun _ => hB)
    rintro b v hb ⟨h1, h2, h3⟩
    have hl := keyGen_lengths hz hb
    exact ⟨allWritten_of h1 (by rw [hl.1, (api_pk p).2]), allWritten_of h2 (by rw [hl.2, (api_sk p).2]), h3⟩
  · exact ⟨fun h => absurd h hB, fun _ v t hm => hB (keypairBuffers_iff.2 (hn.ok hm))⟩

theorem enc_exact {p : ParamSet} {fuel : Nat} {K : KemApi} (hK : ApiSpec p fuel K) {ct ss pk coins : Mem UInt8}
    (hn : Post (K.enc_derand ct ss pk coins) fun _ => KYBER_CIPHERTEXTBYTES p ≤ ct.size ∧ KYBER_SSBYTES ≤ ss.size ∧ pk.Init 0 (KYBER_PUBLICKEYBYTES p) ∧ coins.Init 0 32) :
    Exactly (K.enc_derand ct ss pk coins) (EncBuffers p ct ss pk coins)
      (fun s => AllWritten ct s.1 (api p).ciphertext ∧ AllWritten ss s.2.1 (api p).shared ∧ s.2.2 = 0) := by
  by_cases hB : EncBuffers p ct ss pk coins
  · obtain ⟨h1, h2, h3, h4⟩ := encBuffers_iff.1 hB
    obtain ⟨ek, hek, hek'⟩ := h3.holds
    obtain ⟨m, hm, hm'⟩ := h4.holds
    refine exactly_of (fun _ => ⟨hK.enc hm' hm hek' hek h1 h2, ?_⟩) (Post.all fun _ => hB)
    rintro b v hb ⟨h1, h2, h3⟩
    have hl := encaps_lengths hb
    exact ⟨allWritten_of h1 (by rw [hl.2, (api_ct p).2]), allWritten_of h2 (by rw [hl.1, (api_small p).2.2]; rfl), h3⟩
  · exact ⟨fun h => absurd h hB, fun _ v t hm => hB (encBuffers_iff.2 (hn.ok hm))⟩

theorem dec_exact {p : ParamSet} {fuel : Nat} {K : KemApi} (hK : ApiSpec p fuel K) {ss ct sk : Mem UInt8}
    (hn : Post (K.dec ss ct sk) fun _ => KYBER_SSBYTES ≤ ss.size ∧ ct.Init 0 (KYBER_CIPHERTEXTBYTES p) ∧ sk.Init 0 (KYBER_SECRETKEYBYTES p)) :
    Exactly (K.dec ss ct sk) (DecBuffers p ss ct sk) (fun s => AllWritten ss s.1 (api p).shared ∧ s.2 = 0) := by
  by_cases hB : DecBuffers p ss ct sk
  · obtain ⟨h1, h2, h3⟩ := decBuffers_iff.1 hB
    obtain ⟨c, hc, hc'⟩ := h2.holds
    obtain ⟨dk, hdk, hdk'⟩ := h3.holds
    refine exactly_of (fun _ => ⟨hK.dec hc' hc hdk' hdk h1, ?_⟩) (Post.all fun _ => hB)
    rintro b v hb ⟨h1, h2⟩
    exact ⟨allWritten_of h1 (by rw [Verif.Proof.decaps_length hb, (api_small p).2.2]; rfl), h2⟩
  · exact ⟨fun h => absurd h hB, fun _ v t hm => hB (decBuffers_iff.2 (hn.ok hm))⟩

section
variable (p : ParamSet) (fuel : Nat)

/-- C73. Key generation of the reference code. -/
theorem C73_keypair (pk sk coins : Mem UInt8) : Exactly (crypto_kem_keypair_derand p fuel pk sk coins) (KeypairBuffers p pk sk coins)
    (fun s => AllWritten pk s.1 (api p).publicKey ∧ AllWritten sk s.2.1 (api p).secretKey ∧ s.2.2 = 0) :=
  keypair_exact (refApi_spec p fuel) keypair_needs

/-- C73. Encapsulation of the reference code. -/
theorem C73_enc (ct ss pk coins : Mem UInt8) : Exactly (crypto_kem_enc_derand p fuel ct ss pk coins) (EncBuffers p ct ss pk coins)
    (fun s => AllWritten ct s.1 (api p).ciphertext ∧ AllWritten ss s.2.1 (api p).shared ∧ s.2.2 = 0) :=
  enc_exact (refApi_spec p fuel) enc_needs

/-- C73. Decapsulation of the reference code. -/
theorem C73_dec (ss ct sk : Mem UInt8) : Exactly (crypto_kem_dec p fuel ss ct sk) (DecBuffers p ss ct sk)
    (fun s => AllWritten ss s.1 (api p).shared ∧ s.2 = 0) :=
  dec_exact (refApi_spec p fuel) dec_needs

variable (junk : Junk)

/-- C73. Key generation of the AVX2 code. -/
theorem C73_keypair_avx2 (pk sk coins : Mem UInt8) : Exactly (Avx.crypto_kem_keypair_derand p junk fuel pk sk coins) (KeypairBuffers p pk sk coins)
    (fun s => AllWritten pk s.1 (api p).publicKey ∧ AllWritten sk s.2.1 (api p).secretKey ∧ s.2.2 = 0) :=
  keypair_exact (avxApi_spec p junk fuel) Avx.keypair_needs

/-- C73. Encapsulation of the AVX2 code. -/
theorem C73_enc_avx2 (ct ss pk coins : Mem UInt8) : Exactly (Avx.crypto_kem_enc_derand p junk fuel ct ss pk coins) (EncBuffers p ct ss pk coins)
    (fun s => AllWritten ct s.1 (api p).ciphertext ∧ AllWritten ss s.2.1 (api p).shared ∧ s.2.2 = 0) :=
  enc_exact (avxApi_spec p junk fuel) Avx.enc_needs

/-- C73. Decapsulation of the AVX2 code. -/
theorem C73_dec_avx2 (ss ct sk : Mem UInt8) : Exactly (Avx.crypto_kem_dec p junk fuel ss ct sk) (DecBuffers p ss ct sk)
    (fun s => AllWritten ss s.1 (api p).shared ∧ s.2 = 0) :=
  dec_exact (avxApi_spec p junk fuel) Avx.dec_needs

end

set_option linter.constructorNameAsVariable false in
/-- A case: with uninitialised buffers of the announced sizes the key generation of ML-KEM-512 from 64 zero bytes returns, and both keys are written; with a public key buffer
of 799 bytes it does not. -/
example : (∃ v t, crypto_kem_keypair_derand .k2 1 (Mem.uninit UInt8 800) (Mem.uninit UInt8 1632) (Mem.ofList (List.replicate 64 0)) = .ok v t ∧
      AllWritten (Mem.uninit UInt8 800) v.1 800 ∧ AllWritten (Mem.uninit UInt8 1632) v.2.1 1632) ∧
    ∀ v t, crypto_kem_keypair_derand .k2 1 (Mem.uninit UInt8 799) (Mem.uninit UInt8 1632) (Mem.ofList (List.replicate 64 0)) ≠ .ok v t := by
  obtain ⟨ek, dk, _, h⟩ := keypair_case
  have h2 := (C73_keypair .k2 1 (Mem.uninit UInt8 799) (Mem.uninit UInt8 1632) (Mem.ofList (List.replicate 64 0))).2
  refine ⟨?_, h2 fun hB => ?_⟩
  · obtain ⟨v, t, hv, _⟩ := h.exists_ok
    have h1 := (C73_keypair .k2 1 (Mem.uninit UInt8 800) (Mem.uninit UInt8 1632) (Mem.ofList (List.replicate 64 0))).1
      (keypairBuffers_iff.2 ((keypair_needs (p := .k2)).ok hv))
    exact ⟨v, t, hv, (h1.2 v t hv).1, (h1.2 v t hv).2.1⟩
  · have := hB.pk
    rw [Mem.size_uninit] at this
    exact absurd this (by decide)

/-- A case: uninitialised output and inputs of the announced sizes are buffers of encapsulation and decapsulation; a ciphertext without its last byte is not, and then neither build
returns. -/
example : EncBuffers .k2 (Mem.uninit UInt8 768) (Mem.uninit UInt8 32) (Mem.ofList (List.replicate 800 0)) (Mem.ofList (List.replicate 32 0)) ∧
    DecBuffers .k2 (Mem.uninit UInt8 32) (Mem.ofList (List.replicate 768 0)) (Mem.ofList (List.replicate 1632 0)) ∧
    ∀ (sk ss : Mem UInt8) fuel v t, crypto_kem_dec .k2 fuel ss (Mem.ofList (List.replicate 767 0)) sk ≠ .ok v t ∧
      ∀ junk v t, Avx.crypto_kem_dec .k2 junk fuel ss (Mem.ofList (List.replicate 767 0)) sk ≠ .ok v t := by
  have r : ∀ n i, i < n → ∃ v, (Mem.ofList (List.replicate n (0 : UInt8)))[i]? = some (some v) := fun n i hi =>
    ⟨0, by simp [Mem.ofList, hi]⟩
  have r' : ∀ n, (Mem.ofList (List.replicate n (0 : UInt8)))[n]? = none := fun n => by simp [Mem.ofList]
  refine ⟨⟨by rw [Mem.size_uninit]; decide, by rw [Mem.size_uninit]; decide, r 800, r 32⟩, ⟨by rw [Mem.size_uninit]; decide, r 768, r 1632⟩, fun sk ss fuel v t => ?_⟩
  have h : ∀ ss sk, ¬ DecBuffers .k2 ss (Mem.ofList (List.replicate 767 0)) sk := fun ss sk hB => by
    obtain ⟨v, hv⟩ := hB.ct 767 (by decide)
    exact absurd hv (by rw [r' 767]; exact fun h => nomatch h)
  exact ⟨(C73_dec .k2 fuel _ _ _).2 (h _ _) v t, fun junk v t => (C73_dec_avx2 .k2 fuel junk _ _ _).2 (h _ _) v t⟩

end Verif.Props
