import Verif.Avx.KemProof
import Verif.Props.Kem

/-! # Properties of the KEM calls of the AVX2 code (C48 to C54)

`junk` gives the values of the uninitialised bytes that the gather instructions of the four-way SHAKE read; all theorems are for all of them. For `fuel` see Props/Kem.lean. -/

set_option autoImplicit false

namespace Verif.Props
open Verif.Model Verif.Spec Verif.Proof

/-- The values of uninitialised bytes: number of the call (0 for `gen_matrix`, 1 and 2 for the calls of `poly_getnoise_*_4x`), number of the input, offset. -/
abbrev Junk := Nat → Fin 4 → Nat → UInt8

section
variable (p : ParamSet) (junk : Junk) (fuel : Nat)

/-! ## C48: key generation -/

section
variable (pk sk coins : Mem UInt8) (d z : List UInt8) (hd : coins.Holds 0 d) (hdl : d.length = 32) (hz : coins.Holds 32 z) (hzl : z.length = 32)
  (hpk : ekLen (fips p) ≤ pk.size) (hsk : dkLen (fips p) ≤ sk.size)
include hd hdl hz hzl hpk hsk

theorem keypair_avx : RunsO (Avx.crypto_kem_keypair_derand p junk fuel pk sk coins) (KeyGen_internal (fips p) (112 + 56 * fuel) d z)
    (fun o s => pk.Wrote s.1 0 o.1 ∧ sk.Wrote s.2.1 0 o.2 ∧ s.2.2 = 0) :=
  Avx.keypair_derand_runsO hd hdl hz hzl (by rw [pk_size']; exact hpk) (by rw [sk_size]; exact hsk)

/-- C48. `crypto_kem_keypair_derand` of the AVX2 code writes exactly the keys of ML-KEM.KeyGen_internal(d, z) and returns 0. -/
theorem C48_keypair (ek dk : List UInt8) (h : KeyGen_internal (fips p) (112 + 56 * fuel) d z = some (ek, dk)) :
    Runs (Avx.crypto_kem_keypair_derand p junk fuel pk sk coins) (fun s => pk.Wrote s.1 0 ek ∧ sk.Wrote s.2.1 0 dk ∧ s.2.2 = 0) :=
  (keypair_avx p junk fuel pk sk coins d z hd hdl hz hzl hpk hsk).runs h

/-- C48. It does not return if the sampling needs more iterations than the fuel allows. -/
theorem C48_diverges (h : KeyGen_internal (fips p) (112 + 56 * fuel) d z = none) : Avx.crypto_kem_keypair_derand p junk fuel pk sk coins = .diverge := by
  have := keypair_avx p junk fuel pk sk coins d z hd hdl hz hzl hpk hsk
  rwa [h, runsO_none] at this

/-- C48. If key generation of the standard ends (with some number N of iterations), the code does, for every fuel from N on, with the same keys. -/
theorem C48_terminates (N : Nat) (ek dk : List UInt8) (h : KeyGen_internal (fips p) N d z = some (ek, dk)) (hN : N ≤ fuel) :
    Runs (Avx.crypto_kem_keypair_derand p junk fuel pk sk coins) (fun s => pk.Wrote s.1 0 ek ∧ sk.Wrote s.2.1 0 dk ∧ s.2.2 = 0) :=
  C48_keypair p junk fuel pk sk coins d z hd hdl hz hzl hpk hsk ek dk (KeyGen_internal_mono (by omega) h)

omit hd hdl hz hzl hpk hsk in
/-- A case: for 64 zero bytes as coins, k = 2 and one extra block per entry, the call returns 0. -/
example : ∃ ek dk, KeyGen_internal ML_KEM_512 168 (List.replicate 32 0) (List.replicate 32 0) = some (ek, dk) ∧
    Runs (Avx.crypto_kem_keypair_derand .k2 junk 1 (Mem.uninit UInt8 800) (Mem.uninit UInt8 1632) (Mem.ofList (List.replicate 64 0)))
      (fun s => (Mem.uninit UInt8 800).Wrote s.1 0 ek ∧ (Mem.uninit UInt8 1632).Wrote s.2.1 0 dk ∧ s.2.2 = 0) := by
  obtain ⟨ek, dk, h⟩ := kat_keygen (List.replicate 32 0)
  have h1 : (Mem.ofList (List.replicate 64 (0 : UInt8))).Holds 0 (List.replicate 32 0) := holds_replicate (by omega)
  have h2 : (Mem.ofList (List.replicate 64 (0 : UInt8))).Holds 32 (List.replicate 32 0) := holds_replicate (by omega)
  have hl : (List.replicate 32 (0 : UInt8)).length = 32 := List.length_replicate
  refine ⟨ek, dk, h, ?_⟩
  generalize List.replicate 32 (0 : UInt8) = d at *
  generalize Mem.ofList (List.replicate 64 (0 : UInt8)) = cm at *
  exact C48_keypair .k2 junk 1 _ _ cm d d h1 hl h2 hl (by rw [Mem.size_uninit]; decide) (by rw [Mem.size_uninit]; decide) ek dk h

end

/-! ## C49: encapsulation -/

section
variable (ct ss pk coins : Mem UInt8) (ek m : List UInt8) (hm : coins.Holds 0 m) (hml : m.length = 32) (hek : pk.Holds 0 ek) (hekl : ek.length = ekLen (fips p))
  (hct : ctLen (fips p) ≤ ct.size) (hss : 32 ≤ ss.size)
include hm hml hek hekl hct hss

theorem enc_avx : RunsO (Avx.crypto_kem_enc_derand p junk fuel ct ss pk coins) (Encaps_internal (fips p) (112 + 56 * fuel) ek m)
    (fun o s => ct.Wrote s.1 0 o.2 ∧ ss.Wrote s.2.1 0 o.1 ∧ s.2.2 = 0) :=
  Avx.enc_derand_runsO hm hml hek (by rw [hekl, pk_size']; rfl) (by rw [ct_size']; exact hct) hss

/-- C49. `crypto_kem_enc_derand` of the AVX2 code writes exactly the ciphertext and the shared secret of ML-KEM.Encaps_internal(ek, m), for every string `ek` of the right
length, and returns 0. -/
theorem C49_enc (K c : List UInt8) (h : Encaps_internal (fips p) (112 + 56 * fuel) ek m = some (K, c)) :
    Runs (Avx.crypto_kem_enc_derand p junk fuel ct ss pk coins) (fun s => ct.Wrote s.1 0 c ∧ ss.Wrote s.2.1 0 K ∧ s.2.2 = 0) :=
  (enc_avx p junk fuel ct ss pk coins ek m hm hml hek hekl hct hss).runs h

theorem C49_diverges (h : Encaps_internal (fips p) (112 + 56 * fuel) ek m = none) : Avx.crypto_kem_enc_derand p junk fuel ct ss pk coins = .diverge := by
  have := enc_avx p junk fuel ct ss pk coins ek m hm hml hek hekl hct hss
  rwa [h, runsO_none] at this

theorem C49_terminates (N : Nat) (K c : List UInt8) (h : Encaps_internal (fips p) N ek m = some (K, c)) (hN : N ≤ fuel) :
    Runs (Avx.crypto_kem_enc_derand p junk fuel ct ss pk coins) (fun s => ct.Wrote s.1 0 c ∧ ss.Wrote s.2.1 0 K ∧ s.2.2 = 0) :=
  C49_enc p junk fuel ct ss pk coins ek m hm hml hek hekl hct hss K c (Encaps_internal_mono (by omega) h)

omit hm hml hek hekl hct hss in
/-- A case: the public key with 768 zero bytes and a seed for which the sampling ends. -/
example (m : List UInt8) (hml : m.length = 32) : ∃ K c, Runs (Avx.crypto_kem_enc_derand .k2 junk 1 (Mem.uninit UInt8 768) (Mem.uninit UInt8 32)
    (Mem.ofList (List.replicate 768 0 ++ katRho)) (Mem.ofList m))
      (fun s => (Mem.uninit UInt8 768).Wrote s.1 0 c ∧ (Mem.uninit UInt8 32).Wrote s.2.1 0 K ∧ s.2.2 = 0) := by
  obtain ⟨K, c, h⟩ := kat_encaps (ek := List.replicate 768 0 ++ katRho) (by decide +kernel) m
  exact ⟨K, c, C49_enc .k2 junk 1 _ _ _ _ _ m (Mem.holds_ofList m) hml (Mem.holds_ofList _) (by decide +kernel) (by simp; decide) (by simp) K c h⟩

end

/-! ## C50: decapsulation -/

section
variable (ss ct sk : Mem UInt8) (c dk : List UInt8) (hc : ct.Holds 0 c) (hcl : c.length = ctLen (fips p)) (hdk : sk.Holds 0 dk) (hdkl : dk.length = dkLen (fips p))
  (hss : 32 ≤ ss.size)
include hc hcl hdk hdkl hss

theorem dec_avx : RunsO (Avx.crypto_kem_dec p junk fuel ss ct sk) (Decaps_internal (fips p) (112 + 56 * fuel) dk c) (fun o s => ss.Wrote s.1 0 o ∧ s.2 = 0) :=
  Avx.crypto_kem_dec_runsO hc (by rw [hcl, ct_size']; rfl) hdk (by rw [hdkl, sk_size]; rfl) hss

/-- C50. `crypto_kem_dec` of the AVX2 code writes exactly the shared secret of ML-KEM.Decaps_internal(dk, c), for all strings `dk`, `c` of the right lengths, valid or not,
and returns 0. -/
theorem C50_dec (K : List UInt8) (h : Decaps_internal (fips p) (112 + 56 * fuel) dk c = some K) :
    Runs (Avx.crypto_kem_dec p junk fuel ss ct sk) (fun s => ss.Wrote s.1 0 K ∧ s.2 = 0) :=
  (dec_avx p junk fuel ss ct sk c dk hc hcl hdk hdkl hss).runs h

theorem C50_diverges (h : Decaps_internal (fips p) (112 + 56 * fuel) dk c = none) : Avx.crypto_kem_dec p junk fuel ss ct sk = .diverge := by
  have := dec_avx p junk fuel ss ct sk c dk hc hcl hdk hdkl hss
  rwa [h, runsO_none] at this

theorem C50_terminates (N : Nat) (K : List UInt8) (h : Decaps_internal (fips p) N dk c = some K) (hN : N ≤ fuel) :
    Runs (Avx.crypto_kem_dec p junk fuel ss ct sk) (fun s => ss.Wrote s.1 0 K ∧ s.2 = 0) :=
  C50_dec p junk fuel ss ct sk c dk hc hcl hdk hdkl hss K (Decaps_internal_mono (by omega) h)

omit hc hcl hdk hdkl hss in
/-- A case: a secret key holding that seed, any ciphertext. -/
example (c : List UInt8) (hcl : c.length = 768) : ∃ K, Runs (Avx.crypto_kem_dec .k2 junk 1 (Mem.uninit UInt8 32) (Mem.ofList c)
    (Mem.ofList (List.replicate 1536 0 ++ katRho ++ List.replicate 64 0))) (fun s => (Mem.uninit UInt8 32).Wrote s.1 0 K ∧ s.2 = 0) := by
  obtain ⟨K, h⟩ := kat_decaps (dk := List.replicate 1536 0 ++ katRho ++ List.replicate 64 0) (by decide +kernel) c
  exact ⟨K, C50_dec .k2 junk 1 _ _ _ c _ (Mem.holds_ofList c) hcl (Mem.holds_ofList _) (by decide +kernel) (by simp) K h⟩

end

/-! ## C51: the AVX2 code and the reference code give the same results -/

/-- Both calls do not return (with the given fuel), or both return, with the same value. -/
def SameResult {α : Type} (m m' : C α) : Prop := (m = .diverge ∧ m' = .diverge) ∨ ∃ v t t', m = .ok v t ∧ m' = .ok v t'

theorem same_of_runsO {α β : Type} {m m' : C α} {o : Option β} {Q : β → α → Prop} (h : RunsO m o Q) (h' : RunsO m' o Q) (hQ : ∀ b v v', Q b v → Q b v' → v = v') :
    SameResult m m' := by
  cases o with
  | none => exact Or.inl ⟨h, h'⟩
  | some b =>
    obtain ⟨v, t, e, hv⟩ := Runs.exists_ok h
    obtain ⟨v', t', e', hv'⟩ := Runs.exists_ok h'
    obtain rfl := hQ b v v' hv hv'
    exact Or.inr ⟨v, t, t', e, e'⟩

theorem wrote_unique {m a b : Mem UInt8} {o : Nat} {l : List UInt8} (ha : m.Wrote a o l) (hb : m.Wrote b o l) : a = b := by
  apply Array.ext_getElem?
  intro i
  by_cases hi : o ≤ i ∧ i < o + l.length
  · obtain ⟨t, rfl⟩ : ∃ t, i = o + t := ⟨i - o, by omega⟩
    rw [ha.holds t (by omega), hb.holds t (by omega)]
  · rw [ha.frame i (by omega), hb.frame i (by omega)]

/-- C51. Key generation: for all coins the two builds write the same bytes (in both buffers, which may hold anything before) and return the same value. -/
theorem C51_keypair (pk sk coins : Mem UInt8) (x : List UInt8) (hx : coins.Holds 0 x) (hxl : x.length = 64)
    (hpk : ekLen (fips p) ≤ pk.size) (hsk : dkLen (fips p) ≤ sk.size) :
    SameResult (Avx.crypto_kem_keypair_derand p junk fuel pk sk coins) (crypto_kem_keypair_derand p fuel pk sk coins) := by
  have e : x = x.take 32 ++ x.drop 32 := (List.take_append_drop 32 x).symm
  rw [e, Mem.Holds.append] at hx
  have l : (x.take 32).length = 32 := by rw [List.length_take]; omega
  have l' : (x.drop 32).length = 32 := by rw [List.length_drop]; omega
  rw [l, Nat.zero_add] at hx
  refine same_of_runsO (keypair_avx p junk fuel pk sk coins _ _ hx.1 l hx.2 l' hpk hsk) (keypair_ref p fuel pk sk coins _ _ hx.1 l hx.2 l' hpk hsk) ?_
  rintro b ⟨v1, v2, v3⟩ ⟨w1, w2, w3⟩ ⟨h1, h2, h3⟩ ⟨g1, g2, g3⟩
  dsimp only at *
  rw [wrote_unique h1 g1, wrote_unique h2 g2, h3, g3]

/-- C51. Encapsulation, for every public key string and all coins. -/
theorem C51_enc (ct ss pk coins : Mem UInt8) (ek m : List UInt8) (hm : coins.Holds 0 m) (hml : m.length = 32) (hek : pk.Holds 0 ek)
    (hekl : ek.length = ekLen (fips p)) (hct : ctLen (fips p) ≤ ct.size) (hss : 32 ≤ ss.size) :
    SameResult (Avx.crypto_kem_enc_derand p junk fuel ct ss pk coins) (crypto_kem_enc_derand p fuel ct ss pk coins) := by
  refine same_of_runsO (enc_avx p junk fuel ct ss pk coins ek m hm hml hek hekl hct hss) (enc_ref p fuel ct ss pk coins ek m hm hml hek hekl hct hss) ?_
  rintro b ⟨v1, v2, v3⟩ ⟨w1, w2, w3⟩ ⟨h1, h2, h3⟩ ⟨g1, g2, g3⟩
  dsimp only at *
  rw [wrote_unique h1 g1, wrote_unique h2 g2, h3, g3]

/-- C51. Decapsulation, for every secret key string and every ciphertext string: also on malformed ones the builds cannot be told apart by their results. -/
theorem C51_dec (ss ct sk : Mem UInt8) (c dk : List UInt8) (hc : ct.Holds 0 c) (hcl : c.length = ctLen (fips p)) (hdk : sk.Holds 0 dk)
    (hdkl : dk.length = dkLen (fips p)) (hss : 32 ≤ ss.size) : SameResult (Avx.crypto_kem_dec p junk fuel ss ct sk) (crypto_kem_dec p fuel ss ct sk) := by
  refine same_of_runsO (dec_avx p junk fuel ss ct sk c dk hc hcl hdk hdkl hss) (dec_ref p fuel ss ct sk c dk hc hcl hdk hdkl hss) ?_
  rintro b ⟨v1, v2⟩ ⟨w1, w2⟩ ⟨h1, h2⟩ ⟨g1, g2⟩
  dsimp only at *
  rw [wrote_unique h1 g1, h2, g2]

set_option linter.constructorNameAsVariable false in
/-- A case in which both return: 64 zero bytes as coins. -/
example : ∃ v t t', Avx.crypto_kem_keypair_derand .k2 junk 1 (Mem.uninit UInt8 800) (Mem.uninit UInt8 1632) (Mem.ofList (List.replicate 64 0)) = .ok v t ∧
    crypto_kem_keypair_derand .k2 1 (Mem.uninit UInt8 800) (Mem.uninit UInt8 1632) (Mem.ofList (List.replicate 64 0)) = .ok v t' := by
  obtain ⟨ek, dk, h, hr⟩ := keypair_case
  have hx : (Mem.ofList (List.replicate 64 (0 : UInt8))).Holds 0 (List.replicate 64 0) := holds_replicate (by omega)
  have hl : (List.replicate 64 (0 : UInt8)).length = 64 := List.length_replicate
  have hs := C51_keypair .k2 junk 1 (Mem.uninit UInt8 800) (Mem.uninit UInt8 1632) _ _ hx hl (by rw [Mem.size_uninit]; decide) (by rw [Mem.size_uninit]; decide)
  generalize Avx.crypto_kem_keypair_derand .k2 junk 1 (Mem.uninit UInt8 800) (Mem.uninit UInt8 1632) (Mem.ofList (List.replicate 64 0)) = a at *
  generalize crypto_kem_keypair_derand .k2 1 (Mem.uninit UInt8 800) (Mem.uninit UInt8 1632) (Mem.ofList (List.replicate 64 0)) = b at *
  rcases hs with ⟨_, rfl⟩ | hs
  · exact absurd hr (by simp [Runs])
  · exact hs

/-! ## C52: no undefined behaviour, writes, implicit rejection -/

/-- C52. No undefined behaviour in key generation: every vector access is within its object, aligned where the instruction needs it, and reads initialised memory (up to the
masked bytes given by `junk`). -/
theorem C52_keypair (pk sk coins : Mem UInt8) (x : List UInt8) (hx : coins.Holds 0 x) (hxl : x.length = 64)
    (hpk : ekLen (fips p) ≤ pk.size) (hsk : dkLen (fips p) ≤ sk.size) : NoUB (Avx.crypto_kem_keypair_derand p junk fuel pk sk coins) := by
  intro u hu
  rcases C51_keypair p junk fuel pk sk coins x hx hxl hpk hsk with ⟨h, _⟩ | ⟨v, t, t', h, _⟩ <;> rw [hu] at h <;> cases h

/-- C52. Encapsulation, whatever the public key and the coins. -/
theorem C52_enc (ct ss pk coins : Mem UInt8) (ek m : List UInt8) (hm : coins.Holds 0 m) (hml : m.length = 32) (hek : pk.Holds 0 ek)
    (hekl : ek.length = ekLen (fips p)) (hct : ctLen (fips p) ≤ ct.size) (hss : 32 ≤ ss.size) : NoUB (Avx.crypto_kem_enc_derand p junk fuel ct ss pk coins) :=
  noUB_of_runsO (enc_avx p junk fuel ct ss pk coins ek m hm hml hek hekl hct hss)

/-- C52. Decapsulation, whatever the secret key and the ciphertext. -/
theorem C52_dec (ss ct sk : Mem UInt8) (c dk : List UInt8) (hc : ct.Holds 0 c) (hcl : c.length = ctLen (fips p)) (hdk : sk.Holds 0 dk)
    (hdkl : dk.length = dkLen (fips p)) (hss : 32 ≤ ss.size) : NoUB (Avx.crypto_kem_dec p junk fuel ss ct sk) :=
  noUB_of_runsO (dec_avx p junk fuel ss ct sk c dk hc hcl hdk hdkl hss)

/-- C52. Key generation writes exactly the documented bytes. -/
theorem C52_keypair_writes (pk sk coins : Mem UInt8) (x : List UInt8) (hx : coins.Holds 0 x) (hxl : x.length = 64)
    (hpk : ekLen (fips p) ≤ pk.size) (hsk : dkLen (fips p) ≤ sk.size) (v : Mem UInt8 × Mem UInt8 × Int) (t : Trace)
    (hr : Avx.crypto_kem_keypair_derand p junk fuel pk sk coins = .ok v t) : WritesFirst pk v.1 (ekLen (fips p)) ∧ WritesFirst sk v.2.1 (dkLen (fips p)) := by
  rcases C51_keypair p junk fuel pk sk coins x hx hxl hpk hsk with ⟨h, _⟩ | ⟨w, s, s', h, h'⟩ <;> rw [hr] at h <;> cases h
  exact C07_keypair p fuel pk sk coins x hx hxl hpk hsk v s' h'

/-- C52. Encapsulation writes exactly the documented bytes, although `polyvec_compress` and `poly_compress` store whole vectors. -/
theorem C52_enc_writes (ct ss pk coins : Mem UInt8) (ek m : List UInt8) (hm : coins.Holds 0 m) (hml : m.length = 32) (hek : pk.Holds 0 ek)
    (hekl : ek.length = ekLen (fips p)) (hct : ctLen (fips p) ≤ ct.size) (hss : 32 ≤ ss.size) (v : Mem UInt8 × Mem UInt8 × Int) (t : Trace)
    (hr : Avx.crypto_kem_enc_derand p junk fuel ct ss pk coins = .ok v t) : WritesFirst ct v.1 (ctLen (fips p)) ∧ WritesFirst ss v.2.1 32 := by
  rcases C51_enc p junk fuel ct ss pk coins ek m hm hml hek hekl hct hss with ⟨h, _⟩ | ⟨w, s, s', h, h'⟩ <;> rw [hr] at h <;> cases h
  exact C07_enc p fuel ct ss pk coins ek m hm hml hek hekl hct hss v s' h'

/-- C52. Implicit rejection, as C05: a returning call returns 0; if the ciphertext is the re-encryption of its decryption the secret is the derived key, otherwise
SHAKE256(z ‖ c). Nothing else is written. -/
theorem C52_implicit_rejection (ss ct sk : Mem UInt8) (c dk : List UInt8) (hc : ct.Holds 0 c) (hcl : c.length = ctLen (fips p)) (hdk : sk.Holds 0 dk)
    (hdkl : dk.length = dkLen (fips p)) (hss : 32 ≤ ss.size) (v : Mem UInt8 × Int) (t : Trace) (hr : Avx.crypto_kem_dec p junk fuel ss ct sk = .ok v t) :
    v.2 = 0 ∧ WritesFirst ss v.1 32 ∧ ∃ (m' c' : List UInt8),
      m' = K_PKE_Decrypt (fips p) (dk.take (384 * (fips p).k)) c ∧
      K_PKE_Encrypt (fips p) (112 + 56 * fuel) (bytes dk (384 * (fips p).k) (768 * (fips p).k + 32)) m'
        ((SHA3_512 (m' ++ bytes dk (768 * (fips p).k + 32) (768 * (fips p).k + 64))).drop 32) = some c' ∧
      (c = c' → ss.Wrote v.1 0 ((SHA3_512 (m' ++ bytes dk (768 * (fips p).k + 32) (768 * (fips p).k + 64))).take 32)) ∧
      (c ≠ c' → ss.Wrote v.1 0 (SHAKE256 (dk.drop (dk.length - 32) ++ c) 32)) := by
  rcases C51_dec p junk fuel ss ct sk c dk hc hcl hdk hdkl hss with ⟨h, _⟩ | ⟨w, s, s', h, h'⟩ <;> rw [hr] at h <;> cases h
  have h5 := C05_implicit_rejection p fuel ss ct sk c dk hc hcl hdk hdkl hss v s' h'
  exact ⟨h5.1, C07_dec p fuel ss ct sk c dk hc hcl hdk hdkl hss v s' h', h5.2⟩

/-! ## C53: uninitialised bytes do not matter -/

theorem SameResult.left {α : Type} {a b c : C α} (h : SameResult a c) (h' : SameResult b c) : SameResult a b := by
  rcases h with ⟨h1, h2⟩ | ⟨v, t, t', h1, h2⟩
  · rcases h' with ⟨g1, g2⟩ | ⟨w, s, s', g1, g2⟩
    · exact Or.inl ⟨h1, g1⟩
    · rw [h2] at g2; cases g2
  · rcases h' with ⟨g1, g2⟩ | ⟨w, s, s', g1, g2⟩
    · rw [h2] at g2; cases g2
    · rw [h2] at g2; cases g2; exact Or.inr ⟨v, t, s, h1, g1⟩

/-- C53. The result of key generation does not depend on the uninitialised bytes that are read. -/
theorem C53_keypair (junk' : Junk) (pk sk coins : Mem UInt8) (x : List UInt8) (hx : coins.Holds 0 x) (hxl : x.length = 64)
    (hpk : ekLen (fips p) ≤ pk.size) (hsk : dkLen (fips p) ≤ sk.size) :
    SameResult (Avx.crypto_kem_keypair_derand p junk fuel pk sk coins) (Avx.crypto_kem_keypair_derand p junk' fuel pk sk coins) :=
  (C51_keypair p junk fuel pk sk coins x hx hxl hpk hsk).left (C51_keypair p junk' fuel pk sk coins x hx hxl hpk hsk)

/-- C53. Encapsulation. -/
theorem C53_enc (junk' : Junk) (ct ss pk coins : Mem UInt8) (ek m : List UInt8) (hm : coins.Holds 0 m) (hml : m.length = 32) (hek : pk.Holds 0 ek)
    (hekl : ek.length = ekLen (fips p)) (hct : ctLen (fips p) ≤ ct.size) (hss : 32 ≤ ss.size) :
    SameResult (Avx.crypto_kem_enc_derand p junk fuel ct ss pk coins) (Avx.crypto_kem_enc_derand p junk' fuel ct ss pk coins) :=
  (C51_enc p junk fuel ct ss pk coins ek m hm hml hek hekl hct hss).left (C51_enc p junk' fuel ct ss pk coins ek m hm hml hek hekl hct hss)

/-- C53. Decapsulation. -/
theorem C53_dec (junk' : Junk) (ss ct sk : Mem UInt8) (c dk : List UInt8) (hc : ct.Holds 0 c) (hcl : c.length = ctLen (fips p)) (hdk : sk.Holds 0 dk)
    (hdkl : dk.length = dkLen (fips p)) (hss : 32 ≤ ss.size) : SameResult (Avx.crypto_kem_dec p junk fuel ss ct sk) (Avx.crypto_kem_dec p junk' fuel ss ct sk) :=
  (C51_dec p junk fuel ss ct sk c dk hc hcl hdk hdkl hss).left (C51_dec p junk' fuel ss ct sk c dk hc hcl hdk hdkl hss)

/-- A case: two different contents, an all-zero ciphertext of the right length, any result. -/
example (dk : List UInt8) (hdkl : dk.length = 1632) : SameResult (Avx.crypto_kem_dec .k2 (fun _ _ _ => 0) 1 (Mem.uninit UInt8 32) (Mem.ofList (List.replicate 768 0)) (Mem.ofList dk))
    (Avx.crypto_kem_dec .k2 (fun _ _ _ => 255) 1 (Mem.uninit UInt8 32) (Mem.ofList (List.replicate 768 0)) (Mem.ofList dk)) :=
  C53_dec .k2 _ 1 _ _ _ _ _ dk (Mem.holds_ofList _) List.length_replicate (Mem.holds_ofList _) hdkl (by rw [Mem.size_uninit])

/-! ## C54: the builds interoperate -/

end

/-- One of the two builds; for the AVX2 build with the values of uninitialised bytes. -/
inductive Build where
  | ref
  | avx2 (junk : Junk)

def keypairOf : Build → ParamSet → Nat → Mem UInt8 → Mem UInt8 → Mem UInt8 → C (Mem UInt8 × Mem UInt8 × Int)
  | .ref => crypto_kem_keypair_derand
  | .avx2 junk => fun p => Avx.crypto_kem_keypair_derand p junk
def encOf : Build → ParamSet → Nat → Mem UInt8 → Mem UInt8 → Mem UInt8 → Mem UInt8 → C (Mem UInt8 × Mem UInt8 × Int)
  | .ref => crypto_kem_enc_derand
  | .avx2 junk => fun p => Avx.crypto_kem_enc_derand p junk
def decOf : Build → ParamSet → Nat → Mem UInt8 → Mem UInt8 → Mem UInt8 → C (Mem UInt8 × Int)
  | .ref => crypto_kem_dec
  | .avx2 junk => fun p => Avx.crypto_kem_dec p junk

theorem SameResult.ok {α : Type} {a b : C α} (h : SameResult a b) {v : α} {t : Trace} (ha : a = .ok v t) : ∃ t', b = .ok v t' := by
  rcases h with ⟨h, _⟩ | ⟨w, s, s', h, h'⟩ <;> rw [ha] at h <;> cases h
  exact ⟨s', h'⟩

theorem SameResult.runs {α : Type} {a b : C α} (h : SameResult a b) {Q : α → Prop} (hb : Runs b Q) : Runs a Q := by
  obtain ⟨v, t, e, hv⟩ := hb.exists_ok
  rcases h with ⟨_, h'⟩ | ⟨w, s, s', h, h'⟩ <;> rw [e] at h' <;> cases h'
  rw [h]; exact hv

/-- C54. A key pair generated by one build, a secret encapsulated to it by a second and decapsulated by a third one, in any combination: if the noise term is within the
decoding threshold, the two shared secrets are equal. -/
theorem C54_interoperate (p : ParamSet) (b1 b2 b3 : Build) (f1 f2 f3 : Nat) (h23 : f2 ≤ f3) (pk sk coins ct ss mc ss2 : Mem UInt8) (d z m : List UInt8)
    (hd : coins.Holds 0 d) (hdl : d.length = 32) (hz : coins.Holds 32 z) (hzl : z.length = 32) (hm : mc.Holds 0 m) (hml : m.length = 32)
    (hpk : ekLen (fips p) ≤ pk.size) (hsk : dkLen (fips p) ≤ sk.size) (hct : ctLen (fips p) ≤ ct.size) (hss : 32 ≤ ss.size) (hss2 : 32 ≤ ss2.size)
    (kv : Mem UInt8 × Mem UInt8 × Int) (kt : Trace) (hk : keypairOf b1 p f1 pk sk coins = .ok kv kt)
    (ev : Mem UInt8 × Mem UInt8 × Int) (et : Trace) (he : encOf b2 p f2 ct ss kv.1 mc = .ok ev et)
    (ρ σ : List UInt8) (hG : (ρ, σ) = G (d ++ [UInt8.ofNat (fips p).k]))
    (N : Nat) (A : Nat → Nat → Rq) (hA : ∀ i < (fips p).k, ∀ j < (fips p).k, SampleNTT N (ρ ++ [UInt8.ofNat j, UInt8.ofNat i]) = some (A i j))
    (ek : List UInt8) (hek : kv.1.Holds 0 ek) (hekl : ek.length = ekLen (fips p))
    (hn : WithinThreshold m (decryptionNoise (fips p) A σ m (G (m ++ H ek)).2)) :
    ∃ K, K.length = 32 ∧ ss.Wrote ev.2.1 0 K ∧ Runs (decOf b3 p f3 ss2 ev.1 kv.2.1) (fun s => ss2.Wrote s.1 0 K ∧ s.2 = 0) := by
  have hx : coins.Holds 0 (d ++ z) := by rw [Mem.Holds.append, hdl]; exact ⟨hd, by rw [Nat.zero_add]; exact hz⟩
  have hxl : (d ++ z).length = 64 := by rw [List.length_append, hdl, hzl]
  have hk' : ∃ kt', crypto_kem_keypair_derand p f1 pk sk coins = .ok kv kt' := by
    cases b1 with
    | ref => exact ⟨kt, hk⟩
    | avx2 junk => exact (C51_keypair p junk f1 pk sk coins _ hx hxl hpk hsk).ok hk
  obtain ⟨kt', hk'⟩ := hk'
  have he' : ∃ et', crypto_kem_enc_derand p f2 ct ss kv.1 mc = .ok ev et' := by
    cases b2 with
    | ref => exact ⟨et, he⟩
    | avx2 junk => exact (C51_enc p junk f2 ct ss kv.1 mc ek m hm hml hek hekl hct hss).ok he
  obtain ⟨et', he'⟩ := he'
  obtain ⟨K, h1, h2, h3⟩ := C04_correct p f1 f2 f3 h23 pk sk coins ct ss mc ss2 d z m hd hdl hz hzl hm hml hpk hsk hct hss hss2 kv kt' hk' ev et' he' ρ σ hG N A hA ek hek hekl hn
  refine ⟨K, h1, h2, ?_⟩
  cases b3 with
  | ref => exact h3
  | avx2 junk =>
    obtain ⟨_, w2⟩ := C07_keypair p f1 pk sk coins _ hx hxl hpk hsk kv kt' hk'
    obtain ⟨w3, _⟩ := C07_enc p f2 ct ss kv.1 mc ek m hm hml hek hekl hct hss ev et' he'
    have str : ∀ {a b : Mem UInt8} {n : Nat}, WritesFirst a b n → ∃ l : List UInt8, l.length = n ∧ b.Holds 0 l := by
      intro a b n h
      choose f hf using h.2.1
      refine ⟨List.ofFn fun j : Fin n => f j.val j.isLt, List.length_ofFn, fun i hi => ?_⟩
      rw [List.length_ofFn] at hi
      rw [Nat.zero_add, hf i hi, List.getElem_ofFn]
    obtain ⟨dk, dl, hdk⟩ := str w2
    obtain ⟨c, cl, hc⟩ := str w3
    exact (C51_dec p junk f3 ss2 ev.1 kv.2.1 c dk hc cl hdk dl hss2).runs h3

end Verif.Props
