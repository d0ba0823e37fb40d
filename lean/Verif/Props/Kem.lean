import Verif.Proof.Correct
import Verif.Proof.Kat

/-! # Properties of the KEM calls (C01 to C07, C11, C14, C31)

`fuel` bounds the number of times the inner loop of `gen_matrix` squeezes another block for an entry; `fuel` rounds examine `112 + 56 * fuel` triples of bytes. The
`_terminates` theorems remove the bound: if the (unbounded) loop of the standard ends for the given input, then every large enough `fuel` gives the result. -/

set_option autoImplicit false

namespace Verif.Props
open Verif.Model Verif.Spec Verif.Proof

/-- No undefined behaviour (and no coefficient leaving its 16-bit type). -/
def NoUB {α : Type} (m : C α) : Prop := ∀ u, m ≠ .ub u

/-- The lengths of table 3 of FIPS 203. -/
def ekLen (P : Params) : Nat := 384 * P.k + 32
def dkLen (P : Params) : Nat := 768 * P.k + 96
def ctLen (P : Params) : Nat := 32 * (P.du * P.k + P.dv)

example : (ekLen ML_KEM_512, dkLen ML_KEM_512, ctLen ML_KEM_512) = (800, 1632, 768) := rfl
example : (ekLen ML_KEM_768, dkLen ML_KEM_768, ctLen ML_KEM_768) = (1184, 2400, 1088) := rfl
example : (ekLen ML_KEM_1024, dkLen ML_KEM_1024, ctLen ML_KEM_1024) = (1568, 3168, 1568) := rfl

theorem iters_eq (fuel : Nat) : iters fuel = 112 + 56 * fuel := rfl

theorem noUB_of_runsO {α β : Type} {m : C α} {o : Option β} {Q : β → α → Prop} (h : RunsO m o Q) : NoUB m := by
  intro u hu
  subst hu
  cases o with
  | some b => exact h
  | none => exact absurd h (by simp [RunsO])

/-- What a returning call satisfies. -/
theorem ok_of_runsO {α β : Type} {m : C α} {o : Option β} {Q : β → α → Prop} (h : RunsO m o Q) {v : α} {t : Trace} (hm : m = .ok v t) : ∃ b, o = some b ∧ Q b v := by
  subst hm
  cases o with
  | some b => exact ⟨b, rfl, h⟩
  | none => exact absurd h (by simp [RunsO])

section
variable (p : ParamSet) (fuel : Nat)

/-! ## C01: key generation -/

section
variable (pk sk coins : Mem UInt8) (d z : List UInt8) (hd : coins.Holds 0 d) (hdl : d.length = 32) (hz : coins.Holds 32 z) (hzl : z.length = 32)
  (hpk : ekLen (fips p) ≤ pk.size) (hsk : dkLen (fips p) ≤ sk.size)
include hd hdl hz hzl hpk hsk

theorem keypair_ref : RunsO (crypto_kem_keypair_derand p fuel pk sk coins) (KeyGen_internal (fips p) (112 + 56 * fuel) d z)
    (fun o s => pk.Wrote s.1 0 o.1 ∧ sk.Wrote s.2.1 0 o.2 ∧ s.2.2 = 0) :=
  keypair_derand_runsO hd hdl hz hzl (by rw [pk_size']; exact hpk) (by rw [sk_size]; exact hsk)

/-- C01. `crypto_kem_keypair_derand` writes exactly the keys of ML-KEM.KeyGen_internal(d, z) for d and z the two halves of the coins, and returns 0. -/
theorem C01_keypair (ek dk : List UInt8) (h : KeyGen_internal (fips p) (112 + 56 * fuel) d z = some (ek, dk)) :
    Runs (crypto_kem_keypair_derand p fuel pk sk coins) (fun s => pk.Wrote s.1 0 ek ∧ sk.Wrote s.2.1 0 dk ∧ s.2.2 = 0) :=
  (keypair_ref p fuel pk sk coins d z hd hdl hz hzl hpk hsk).runs h

/-- C01. It does not return if the sampling needs more iterations than the fuel allows. -/
theorem C01_diverges (h : KeyGen_internal (fips p) (112 + 56 * fuel) d z = none) : crypto_kem_keypair_derand p fuel pk sk coins = .diverge := by
  have := keypair_ref p fuel pk sk coins d z hd hdl hz hzl hpk hsk
  rwa [h, runsO_none] at this

omit hd hdl hz hzl hpk hsk in
/-- C01. If key generation of the standard ends (with some number N of iterations), the code does, for every fuel from N on, with the same keys. -/
theorem C01_terminates (hd : coins.Holds 0 d) (hdl : d.length = 32) (hz : coins.Holds 32 z) (hzl : z.length = 32) (hpk : ekLen (fips p) ≤ pk.size)
    (hsk : dkLen (fips p) ≤ sk.size) (N : Nat) (ek dk : List UInt8) (h : KeyGen_internal (fips p) N d z = some (ek, dk)) (hN : N ≤ fuel) :
    Runs (crypto_kem_keypair_derand p fuel pk sk coins) (fun s => pk.Wrote s.1 0 ek ∧ sk.Wrote s.2.1 0 dk ∧ s.2.2 = 0) :=
  C01_keypair p fuel pk sk coins d z hd hdl hz hzl hpk hsk ek dk (KeyGen_internal_mono (by omega) h)

omit hd hdl hz hzl hpk hsk in
/-- A case: for 64 zero bytes as coins, k = 2 and one extra block per entry, the call returns 0. -/
theorem keypair_case : ∃ ek dk, KeyGen_internal ML_KEM_512 168 (List.replicate 32 0) (List.replicate 32 0) = some (ek, dk) ∧
    Runs (crypto_kem_keypair_derand .k2 1 (Mem.uninit UInt8 800) (Mem.uninit UInt8 1632) (Mem.ofList (List.replicate 64 0)))
      (fun s => (Mem.uninit UInt8 800).Wrote s.1 0 ek ∧ (Mem.uninit UInt8 1632).Wrote s.2.1 0 dk ∧ s.2.2 = 0) := by
  obtain ⟨ek, dk, h⟩ := kat_keygen (List.replicate 32 0)
  have h1 : (Mem.ofList (List.replicate 64 (0 : UInt8))).Holds 0 (List.replicate 32 0) := holds_replicate (by omega)
  have h2 : (Mem.ofList (List.replicate 64 (0 : UInt8))).Holds 32 (List.replicate 32 0) := holds_replicate (by omega)
  have hl : (List.replicate 32 (0 : UInt8)).length = 32 := List.length_replicate
  refine ⟨ek, dk, h, ?_⟩
  generalize List.replicate 32 (0 : UInt8) = d at *
  generalize Mem.ofList (List.replicate 64 (0 : UInt8)) = cm at *
  exact C01_keypair .k2 1 _ _ cm d d h1 hl h2 hl (by rw [Mem.size_uninit]; decide) (by rw [Mem.size_uninit]; decide) ek dk h

end

/-! ## C02: encapsulation -/

section
variable (ct ss pk coins : Mem UInt8) (ek m : List UInt8) (hm : coins.Holds 0 m) (hml : m.length = 32) (hek : pk.Holds 0 ek) (hekl : ek.length = ekLen (fips p))
  (hct : ctLen (fips p) ≤ ct.size) (hss : 32 ≤ ss.size)
include hm hml hek hekl hct hss

theorem enc_ref : RunsO (crypto_kem_enc_derand p fuel ct ss pk coins) (Encaps_internal (fips p) (112 + 56 * fuel) ek m)
    (fun o s => ct.Wrote s.1 0 o.2 ∧ ss.Wrote s.2.1 0 o.1 ∧ s.2.2 = 0) :=
  enc_derand_runsO hm hml hek (by rw [hekl, pk_size']; rfl) (by rw [ct_size']; exact hct) hss

/-- C02. `crypto_kem_enc_derand` writes exactly the ciphertext and the shared secret of ML-KEM.Encaps_internal(ek, m), for every string `ek` of the right length, and
returns 0. -/
theorem C02_enc (K c : List UInt8) (h : Encaps_internal (fips p) (112 + 56 * fuel) ek m = some (K, c)) :
    Runs (crypto_kem_enc_derand p fuel ct ss pk coins) (fun s => ct.Wrote s.1 0 c ∧ ss.Wrote s.2.1 0 K ∧ s.2.2 = 0) :=
  (enc_ref p fuel ct ss pk coins ek m hm hml hek hekl hct hss).runs h

theorem C02_diverges (h : Encaps_internal (fips p) (112 + 56 * fuel) ek m = none) : crypto_kem_enc_derand p fuel ct ss pk coins = .diverge := by
  have := enc_ref p fuel ct ss pk coins ek m hm hml hek hekl hct hss
  rwa [h, runsO_none] at this

theorem C02_terminates (N : Nat) (K c : List UInt8) (h : Encaps_internal (fips p) N ek m = some (K, c)) (hN : N ≤ fuel) :
    Runs (crypto_kem_enc_derand p fuel ct ss pk coins) (fun s => ct.Wrote s.1 0 c ∧ ss.Wrote s.2.1 0 K ∧ s.2.2 = 0) :=
  C02_enc p fuel ct ss pk coins ek m hm hml hek hekl hct hss K c (Encaps_internal_mono (by omega) h)

omit hm hml hek hekl hct hss in
/-- A case: the public key with 768 zero bytes and a seed for which the sampling ends. -/
example (m : List UInt8) (hml : m.length = 32) : ∃ K c, Runs (crypto_kem_enc_derand .k2 1 (Mem.uninit UInt8 768) (Mem.uninit UInt8 32)
    (Mem.ofList (List.replicate 768 0 ++ katRho)) (Mem.ofList m))
      (fun s => (Mem.uninit UInt8 768).Wrote s.1 0 c ∧ (Mem.uninit UInt8 32).Wrote s.2.1 0 K ∧ s.2.2 = 0) := by
  obtain ⟨K, c, h⟩ := kat_encaps (ek := List.replicate 768 0 ++ katRho) (by decide +kernel) m
  exact ⟨K, c, C02_enc .k2 1 _ _ _ _ _ m (Mem.holds_ofList m) hml (Mem.holds_ofList _) (by decide +kernel) (by simp; decide) (by simp) K c h⟩

end

/-! ## C03: decapsulation -/

section
variable (ss ct sk : Mem UInt8) (c dk : List UInt8) (hc : ct.Holds 0 c) (hcl : c.length = ctLen (fips p)) (hdk : sk.Holds 0 dk) (hdkl : dk.length = dkLen (fips p))
  (hss : 32 ≤ ss.size)
include hc hcl hdk hdkl hss

theorem dec_ref : RunsO (crypto_kem_dec p fuel ss ct sk) (Decaps_internal (fips p) (112 + 56 * fuel) dk c) (fun o s => ss.Wrote s.1 0 o ∧ s.2 = 0) :=
  crypto_kem_dec_runsO hc (by rw [hcl, ct_size']; rfl) hdk (by rw [hdkl, sk_size]; rfl) hss

/-- C03. `crypto_kem_dec` writes exactly the shared secret of ML-KEM.Decaps_internal(dk, c), for all strings `dk`, `c` of the right lengths, and returns 0. -/
theorem C03_dec (K : List UInt8) (h : Decaps_internal (fips p) (112 + 56 * fuel) dk c = some K) :
    Runs (crypto_kem_dec p fuel ss ct sk) (fun s => ss.Wrote s.1 0 K ∧ s.2 = 0) :=
  (dec_ref p fuel ss ct sk c dk hc hcl hdk hdkl hss).runs h

theorem C03_diverges (h : Decaps_internal (fips p) (112 + 56 * fuel) dk c = none) : crypto_kem_dec p fuel ss ct sk = .diverge := by
  have := dec_ref p fuel ss ct sk c dk hc hcl hdk hdkl hss
  rwa [h, runsO_none] at this

theorem C03_terminates (N : Nat) (K : List UInt8) (h : Decaps_internal (fips p) N dk c = some K) (hN : N ≤ fuel) :
    Runs (crypto_kem_dec p fuel ss ct sk) (fun s => ss.Wrote s.1 0 K ∧ s.2 = 0) :=
  C03_dec p fuel ss ct sk c dk hc hcl hdk hdkl hss K (Decaps_internal_mono (by omega) h)

omit hc hcl hdk hdkl hss in
/-- A case: a secret key holding that seed, any ciphertext. -/
example (c : List UInt8) (hcl : c.length = 768) : ∃ K, Runs (crypto_kem_dec .k2 1 (Mem.uninit UInt8 32) (Mem.ofList c)
    (Mem.ofList (List.replicate 1536 0 ++ katRho ++ List.replicate 64 0))) (fun s => (Mem.uninit UInt8 32).Wrote s.1 0 K ∧ s.2 = 0) := by
  obtain ⟨K, h⟩ := kat_decaps (dk := List.replicate 1536 0 ++ katRho ++ List.replicate 64 0) (by decide +kernel) c
  exact ⟨K, C03_dec .k2 1 _ _ _ c _ (Mem.holds_ofList c) hcl (Mem.holds_ofList _) (by decide +kernel) (by simp) K h⟩

/-! ## C05: implicit rejection -/

/-- C05. Whatever the secret key and the ciphertext, a call of `crypto_kem_dec` that returns returns 0. With `m'` the decryption, `h` and `z` the last two 32-byte parts of the
secret key and `(K', r') = SHA3-512(m' ‖ h)`: if `c` is the re-encryption of `m'` with `r'` the secret is K', otherwise it is SHAKE256(z ‖ c). -/
theorem C05_implicit_rejection (v : Mem UInt8 × Int) (t : Trace) (hr : crypto_kem_dec p fuel ss ct sk = .ok v t) :
    v.2 = 0 ∧ ∃ (m' c' : List UInt8),
      m' = K_PKE_Decrypt (fips p) (dk.take (384 * (fips p).k)) c ∧
      K_PKE_Encrypt (fips p) (112 + 56 * fuel) (bytes dk (384 * (fips p).k) (768 * (fips p).k + 32)) m'
        ((SHA3_512 (m' ++ bytes dk (768 * (fips p).k + 32) (768 * (fips p).k + 64))).drop 32) = some c' ∧
      (c = c' → ss.Wrote v.1 0 ((SHA3_512 (m' ++ bytes dk (768 * (fips p).k + 32) (768 * (fips p).k + 64))).take 32)) ∧
      (c ≠ c' → ss.Wrote v.1 0 (SHAKE256 (dk.drop (dk.length - 32) ++ c) 32)) := by
  obtain ⟨K, hK, hw, h0⟩ := ok_of_runsO (dec_ref p fuel ss ct sk c dk hc hcl hdk hdkl hss) hr
  have hz : bytes dk (768 * (fips p).k + 64) (768 * (fips p).k + 96) = dk.drop (dk.length - 32) := by
    have e : dk.length = 768 * (fips p).k + 96 := hdkl
    unfold bytes
    rw [e, show 768 * (fips p).k + 96 - 32 = 768 * (fips p).k + 64 from by omega]
    apply List.take_of_length_le
    rw [List.length_drop, e]
  refine ⟨h0, K_PKE_Decrypt (fips p) (dk.take (384 * (fips p).k)) c, ?_⟩
  unfold Decaps_internal at hK
  dsimp only at hK
  rw [hz] at hK
  have e0 : bytes dk 0 (384 * (fips p).k) = dk.take (384 * (fips p).k) := rfl
  rw [e0] at hK
  generalize K_PKE_Decrypt (fips p) (dk.take (384 * (fips p).k)) c = m' at *
  unfold G at hK
  dsimp only at hK
  cases he : K_PKE_Encrypt (fips p) (112 + 56 * fuel) (bytes dk (384 * (fips p).k) (768 * (fips p).k + 32)) m'
        ((SHA3_512 (m' ++ bytes dk (768 * (fips p).k + 32) (768 * (fips p).k + 64))).drop 32) with
  | none => rw [he] at hK; simp at hK
  | some c' =>
    rw [he] at hK
    have hK : (if c = c' then _ else _) = K := Option.some.inj hK
    refine ⟨c', rfl, rfl, fun e => ?_, fun e => ?_⟩
    · rw [if_pos e] at hK; rwa [hK]
    · rw [if_neg e] at hK
      rw [← hK] at hw
      exact hw

end

/-! ## C06: no undefined behaviour -/

/-- C06. Key generation, whatever the coins and whatever the output buffers held before (also if indeterminate). -/
theorem C06_keypair (pk sk coins : Mem UInt8) (x : List UInt8) (hx : coins.Holds 0 x) (hxl : x.length = 64)
    (hpk : ekLen (fips p) ≤ pk.size) (hsk : dkLen (fips p) ≤ sk.size) : NoUB (crypto_kem_keypair_derand p fuel pk sk coins) := by
  have e : x = x.take 32 ++ x.drop 32 := (List.take_append_drop 32 x).symm
  rw [e, Mem.Holds.append] at hx
  have l : (x.take 32).length = 32 := by rw [List.length_take]; omega
  rw [l, Nat.zero_add] at hx
  exact noUB_of_runsO (keypair_ref p fuel pk sk coins _ _ hx.1 l hx.2 (by rw [List.length_drop]; omega) hpk hsk)

/-- C06. Encapsulation, whatever the public key and the coins. -/
theorem C06_enc (ct ss pk coins : Mem UInt8) (ek m : List UInt8) (hm : coins.Holds 0 m) (hml : m.length = 32) (hek : pk.Holds 0 ek)
    (hekl : ek.length = ekLen (fips p)) (hct : ctLen (fips p) ≤ ct.size) (hss : 32 ≤ ss.size) : NoUB (crypto_kem_enc_derand p fuel ct ss pk coins) :=
  noUB_of_runsO (enc_ref p fuel ct ss pk coins ek m hm hml hek hekl hct hss)

/-- C06. Decapsulation, whatever the secret key and the ciphertext. -/
theorem C06_dec (ss ct sk : Mem UInt8) (c dk : List UInt8) (hc : ct.Holds 0 c) (hcl : c.length = ctLen (fips p)) (hdk : sk.Holds 0 dk)
    (hdkl : dk.length = dkLen (fips p)) (hss : 32 ≤ ss.size) : NoUB (crypto_kem_dec p fuel ss ct sk) :=
  noUB_of_runsO (dec_ref p fuel ss ct sk c dk hc hcl hdk hdkl hss)

/-! ## C07: what is written -/

/-- Exactly the first `n` bytes of the buffer are (over)written. -/
def WritesFirst (m m' : Mem UInt8) (n : Nat) : Prop := m'.size = m.size ∧ (∀ j < n, ∃ b : UInt8, m'[j]? = some (some b)) ∧ ∀ j, n ≤ j → m'[j]? = m[j]?

theorem writesFirst_of {m m' : Mem UInt8} {l : List UInt8} {n : Nat} (h : m.Wrote m' 0 l) (hn : l.length = n) : WritesFirst m m' n := by
  refine ⟨h.size, fun j hj => ⟨l[j]'(by omega), ?_⟩, fun j hj => h.frame j (by omega)⟩
  have := h.holds j (by omega)
  rwa [Nat.zero_add] at this

/-- C07. -/
theorem C07_keypair (pk sk coins : Mem UInt8) (x : List UInt8) (hx : coins.Holds 0 x) (hxl : x.length = 64)
    (hpk : ekLen (fips p) ≤ pk.size) (hsk : dkLen (fips p) ≤ sk.size) (v : Mem UInt8 × Mem UInt8 × Int) (t : Trace)
    (hr : crypto_kem_keypair_derand p fuel pk sk coins = .ok v t) : WritesFirst pk v.1 (ekLen (fips p)) ∧ WritesFirst sk v.2.1 (dkLen (fips p)) := by
  have e : x = x.take 32 ++ x.drop 32 := (List.take_append_drop 32 x).symm
  rw [e, Mem.Holds.append] at hx
  have l : (x.take 32).length = 32 := by rw [List.length_take]; omega
  have l' : (x.drop 32).length = 32 := by rw [List.length_drop]; omega
  rw [l, Nat.zero_add] at hx
  obtain ⟨⟨ek, dk⟩, ho, h1, h2, _⟩ := ok_of_runsO (keypair_ref p fuel pk sk coins _ _ hx.1 l hx.2 l' hpk hsk) hr
  obtain ⟨s, hs, e⟩ := keygen_inv ho
  obtain ⟨l1, l2⟩ := keygen_length hs
  refine ⟨writesFirst_of h1 l1, writesFirst_of h2 ?_⟩
  dsimp only at l1 l2 ⊢
  rw [e]
  simp only [List.length_append, l1, l2, l', show (H ek).length = 32 from SHA3_256_length ek, dkLen]
  omega

/-- C07. -/
theorem C07_enc (ct ss pk coins : Mem UInt8) (ek m : List UInt8) (hm : coins.Holds 0 m) (hml : m.length = 32) (hek : pk.Holds 0 ek)
    (hekl : ek.length = ekLen (fips p)) (hct : ctLen (fips p) ≤ ct.size) (hss : 32 ≤ ss.size) (v : Mem UInt8 × Mem UInt8 × Int) (t : Trace)
    (hr : crypto_kem_enc_derand p fuel ct ss pk coins = .ok v t) : WritesFirst ct v.1 (ctLen (fips p)) ∧ WritesFirst ss v.2.1 32 := by
  obtain ⟨⟨K, c⟩, ho, h1, h2, _⟩ := ok_of_runsO (enc_ref p fuel ct ss pk coins ek m hm hml hek hekl hct hss) hr
  obtain ⟨rfl, he⟩ := encaps_inv ho
  exact ⟨writesFirst_of h1 (encrypt_length he), writesFirst_of h2 (G_fst_length _)⟩

/-- C07. -/
theorem C07_dec (ss ct sk : Mem UInt8) (c dk : List UInt8) (hc : ct.Holds 0 c) (hcl : c.length = ctLen (fips p)) (hdk : sk.Holds 0 dk)
    (hdkl : dk.length = dkLen (fips p)) (hss : 32 ≤ ss.size) (v : Mem UInt8 × Int) (t : Trace) (hr : crypto_kem_dec p fuel ss ct sk = .ok v t) :
    WritesFirst ss v.1 32 := by
  obtain ⟨_, m', c', _, _, h1, h2⟩ := C05_implicit_rejection p fuel ss ct sk c dk hc hcl hdk hdkl hss v t hr
  by_cases e : c = c'
  · exact writesFirst_of (h1 e) (G_fst_length _)
  · exact writesFirst_of (h2 e) (SHAKE256_length _ _)

/-! ## C11: layout of the secret key -/

/-- C11. -/
theorem C11_layout (pk sk coins : Mem UInt8) (d z : List UInt8) (hd : coins.Holds 0 d) (hdl : d.length = 32) (hz : coins.Holds 32 z) (hzl : z.length = 32)
    (hpk : ekLen (fips p) ≤ pk.size) (hsk : dkLen (fips p) ≤ sk.size) (v : Mem UInt8 × Mem UInt8 × Int) (t : Trace)
    (hr : crypto_kem_keypair_derand p fuel pk sk coins = .ok v t) :
    ∃ s ek : List UInt8, s.length = 384 * (fips p).k ∧ ek.length = ekLen (fips p) ∧ v.1.Holds 0 ek ∧ v.2.1.Holds 0 (s ++ ek ++ SHA3_256 ek ++ z) := by
  obtain ⟨⟨ek, dk⟩, ho, h1, h2, _⟩ := ok_of_runsO (keypair_ref p fuel pk sk coins _ _ hd hdl hz hzl hpk hsk) hr
  obtain ⟨s, hs, e⟩ := keygen_inv ho
  obtain ⟨l1, l2⟩ := keygen_length hs
  refine ⟨s, ek, l2, l1, h1.holds, ?_⟩
  have := h2.holds
  dsimp only at this
  rw [e] at this
  exact this

/-! ## C14: coefficients stay within 16 bits, for whole calls -/

/-- C14. In the model a coefficient sum or difference that leaves the `int16_t` range ends the run with `ub .narrow`. No KEM call does. -/
theorem C14_keypair (pk sk coins : Mem UInt8) (x : List UInt8) (hx : coins.Holds 0 x) (hxl : x.length = 64)
    (hpk : ekLen (fips p) ≤ pk.size) (hsk : dkLen (fips p) ≤ sk.size) : crypto_kem_keypair_derand p fuel pk sk coins ≠ .ub .narrow :=
  C06_keypair p fuel pk sk coins x hx hxl hpk hsk _

theorem C14_enc (ct ss pk coins : Mem UInt8) (ek m : List UInt8) (hm : coins.Holds 0 m) (hml : m.length = 32) (hek : pk.Holds 0 ek)
    (hekl : ek.length = ekLen (fips p)) (hct : ctLen (fips p) ≤ ct.size) (hss : 32 ≤ ss.size) : crypto_kem_enc_derand p fuel ct ss pk coins ≠ .ub .narrow :=
  C06_enc p fuel ct ss pk coins ek m hm hml hek hekl hct hss _

theorem C14_dec (ss ct sk : Mem UInt8) (c dk : List UInt8) (hc : ct.Holds 0 c) (hcl : c.length = ctLen (fips p)) (hdk : sk.Holds 0 dk)
    (hdkl : dk.length = dkLen (fips p)) (hss : 32 ≤ ss.size) : crypto_kem_dec p fuel ss ct sk ≠ .ub .narrow :=
  C06_dec p fuel ss ct sk c dk hc hcl hdk hdkl hss _

/-- The model does stop on such an addition: `poly_add` of two polynomials with coefficient 32767. -/
example : (match poly_add (polyMem fun _ => 0) (polyMem fun _ => 32767) (polyMem fun _ => 32767) with | .ub .narrow => true | _ => false) = true := by decide +kernel

/-! ## C31: unreduced public keys -/

/-- The key with every 12-bit integer reduced modulo q. -/
def reducedKey (P : Params) (ek : List UInt8) : List UInt8 :=
  concat P.k (fun i => ByteEncode12 (ByteDecode12 (bytes ek (384 * i) (384 * (i + 1))))) ++ bytes ek (384 * P.k) (384 * P.k + 32)

theorem encrypt_reducedKey (P : Params) (N : Nat) (ek m r : List UInt8) (hek : ek.length = ekLen P) :
    K_PKE_Encrypt P N (reducedKey P ek) m r = K_PKE_Encrypt P N ek m r := by
  have h1 : ∀ i < P.k, encT (reducedKey P ek) i = encT ek i := fun i hi => by
    unfold encT reducedKey
    rw [bytes_concat (fun i => byteEncode12_length _) _ hi, byteDecode12_byteEncode12]
  have h2 : bytes (reducedKey P ek) (384 * P.k) (384 * P.k + 32) = bytes ek (384 * P.k) (384 * P.k + 32) := by
    unfold reducedKey
    refine bytes_append_right (concat_length fun i => byteEncode12_length _) ?_
    rw [bytes_length (by omega) (by rw [hek]; exact Nat.le_refl _), Nat.add_sub_cancel_left]
  rw [K_PKE_Encrypt_eq, K_PKE_Encrypt_eq, h2]
  have h3 : encOut P (reducedKey P ek) m r = encOut P ek m r := by
    funext A
    unfold encOut encV
    rw [dotNTT_congr h1 fun _ _ => rfl]
  rw [h3]

/-- C31. Encryption with any key string of the right length and with the reduced key write the same ciphertext, for the same message and randomness (or neither returns). -/
theorem C31_same_ciphertext (pk pk' m coins c : Mem UInt8) (ek M r : List UInt8) (hm : m.Holds 0 M) (hml : M.length = 32) (hek : pk.Holds 0 ek)
    (hekl : ek.length = ekLen (fips p)) (hek' : pk'.Holds 0 (reducedKey (fips p) ek)) (hr : coins.Holds 0 r) (hrl : r.length = 32) (hc : ctLen (fips p) ≤ c.size) :
    (indcpa_enc p fuel c m 0 pk 0 coins 0 = .diverge ∧ indcpa_enc p fuel c m 0 pk' 0 coins 0 = .diverge) ∨
    ∃ out, Runs (indcpa_enc p fuel c m 0 pk 0 coins 0) (fun s => c.Wrote s 0 out) ∧ Runs (indcpa_enc p fuel c m 0 pk' 0 coins 0) (fun s => c.Wrote s 0 out) := by
  have l : (reducedKey (fips p) ek).length = ekLen (fips p) := by
    unfold reducedKey ekLen
    rw [List.length_append, concat_length (w := 384) fun i => byteEncode12_length _, bytes_length (by omega) (by rw [hekl]; exact Nat.le_refl _)]
    omega
  have h1 := enc_runsO (fuel := fuel) hm hml hek (by rw [hekl, pk_size]; rfl) hr hrl (show KYBER_INDCPA_BYTES p ≤ c.size by have e := ct_size' p; unfold KYBER_CIPHERTEXTBYTES at e; rw [e]; exact hc)
  have h2 := enc_runsO (fuel := fuel) hm hml hek' (by rw [l, pk_size]; rfl) hr hrl (show KYBER_INDCPA_BYTES p ≤ c.size by have e := ct_size' p; unfold KYBER_CIPHERTEXTBYTES at e; rw [e]; exact hc)
  rw [encrypt_reducedKey _ _ _ _ _ hekl] at h2
  cases h : K_PKE_Encrypt (fips p) (iters fuel) ek M r with
  | none => rw [h, runsO_none] at h1 h2; exact Or.inl ⟨h1, h2⟩
  | some out => exact Or.inr ⟨out, h1.runs h, h2.runs h⟩

/-- C31. `crypto_kem_enc_derand` makes no check of the modulus: for every key string it returns 0 if it returns, with the ciphertext that the reduced key would give under the
randomness derived from the key string as it is. -/
theorem C31_accepted (ct ss pk coins : Mem UInt8) (ek m : List UInt8) (hm : coins.Holds 0 m) (hml : m.length = 32) (hek : pk.Holds 0 ek) (hekl : ek.length = ekLen (fips p))
    (hct : ctLen (fips p) ≤ ct.size) (hss : 32 ≤ ss.size) (v : Mem UInt8 × Mem UInt8 × Int) (t : Trace) (hr : crypto_kem_enc_derand p fuel ct ss pk coins = .ok v t) :
    v.2.2 = 0 ∧ ∃ c, K_PKE_Encrypt (fips p) (112 + 56 * fuel) (reducedKey (fips p) ek) m ((SHA3_512 (m ++ SHA3_256 ek)).drop 32) = some c ∧ ct.Wrote v.1 0 c := by
  obtain ⟨⟨K, c⟩, ho, h1, _, h0⟩ := ok_of_runsO (enc_ref p fuel ct ss pk coins ek m hm hml hek hekl hct hss) hr
  obtain ⟨_, he⟩ := encaps_inv ho
  exact ⟨h0, c, by rw [encrypt_reducedKey _ _ _ _ _ hekl]; exact he, h1⟩

/-- Reduction does change a key: the key string of all ones bytes (every 12-bit integer 4095). -/
example : reducedKey ML_KEM_512 (List.replicate 800 255) ≠ List.replicate 800 255 := by
  intro h
  have h1 := congrArg (fun l => ByteDecode 12 (bytes l (384 * 0) (384 * (0 + 1))) 0) h
  unfold reducedKey at h1
  rw [bytes_concat (fun i => byteEncode12_length _) _ (by decide)] at h1
  unfold ByteEncode12 at h1
  rw [byteDecode_byteEncode 12 _ fun i => lt_of_lt_of_le zq_val_lt (by norm_num)] at h1
  have e : ByteDecode 12 (bytes (List.replicate 800 255) (384 * 0) (384 * (0 + 1))) 0 = 4095 := by decide +kernel
  have := zq_val_lt (a := ByteDecode12 (bytes (List.replicate 800 255) (384 * 0) (384 * (0 + 1))) 0)
  have h1 : ZMod.val (ByteDecode12 (bytes (List.replicate 800 255) (384 * 0) (384 * (0 + 1))) 0) = _ := h1
  rw [h1, e] at this
  omega

/-! ## C04: correctness when the noise is small -/

theorem fips_d (p : ParamSet) : 0 < (fips p).du ∧ (fips p).du ≤ 11 ∧ 0 < (fips p).dv ∧ (fips p).dv ≤ 11 := by cases p <;> decide

/-- C04. Generate a key pair from coins d ‖ z, encapsulate to it with coins m, decapsulate the ciphertext. If the noise term is within the decoding threshold, the shared secret
that decapsulation writes is the one that encapsulation wrote. (A is the public matrix, ρ and σ the two halves of SHA3-512(d ‖ k), r the encryption randomness.) -/
theorem C04_correct (f1 f2 f3 : Nat) (h23 : f2 ≤ f3) (pk sk coins ct ss mc ss2 : Mem UInt8) (d z m : List UInt8)
    (hd : coins.Holds 0 d) (hdl : d.length = 32) (hz : coins.Holds 32 z) (hzl : z.length = 32) (hm : mc.Holds 0 m) (hml : m.length = 32)
    (hpk : ekLen (fips p) ≤ pk.size) (hsk : dkLen (fips p) ≤ sk.size) (hct : ctLen (fips p) ≤ ct.size) (hss : 32 ≤ ss.size) (hss2 : 32 ≤ ss2.size)
    (kv : Mem UInt8 × Mem UInt8 × Int) (kt : Trace) (hk : crypto_kem_keypair_derand p f1 pk sk coins = .ok kv kt)
    (ev : Mem UInt8 × Mem UInt8 × Int) (et : Trace) (he : crypto_kem_enc_derand p f2 ct ss kv.1 mc = .ok ev et)
    (ρ σ : List UInt8) (hG : (ρ, σ) = G (d ++ [UInt8.ofNat (fips p).k]))
    (N : Nat) (A : Nat → Nat → Rq) (hA : ∀ i < (fips p).k, ∀ j < (fips p).k, SampleNTT N (ρ ++ [UInt8.ofNat j, UInt8.ofNat i]) = some (A i j))
    (ek : List UInt8) (hek : kv.1.Holds 0 ek) (hekl : ek.length = ekLen (fips p))
    (hn : WithinThreshold m (decryptionNoise (fips p) A σ m (G (m ++ H ek)).2)) :
    ∃ K, K.length = 32 ∧ ss.Wrote ev.2.1 0 K ∧ Runs (crypto_kem_dec p f3 ss2 ev.1 kv.2.1) (fun s => ss2.Wrote s.1 0 K ∧ s.2 = 0) := by
  obtain ⟨⟨ek', dk⟩, ho, h1, h2, _⟩ := ok_of_runsO (keypair_ref p f1 pk sk coins d z hd hdl hz hzl hpk hsk) hk
  obtain ⟨s, hs, e⟩ := keygen_inv ho
  obtain ⟨l1, l2⟩ := keygen_length hs
  have hee : ek' = ek := h1.holds.unique hek (by rw [hekl]; exact l1)
  subst hee
  obtain ⟨⟨K, c⟩, ho', h3, h4, _⟩ := ok_of_runsO (enc_ref p f2 ct ss kv.1 mc _ m hm hml hek hekl hct hss) he
  obtain ⟨hK, hc⟩ := encaps_inv ho'
  obtain ⟨hu, hu', hv, hv'⟩ := fips_d p
  have hρ : ρ = (G (d ++ [UInt8.ofNat (fips p).k])).1 := congrArg Prod.fst hG
  have hσ : σ = (G (d ++ [UInt8.ofNat (fips p).k])).2 := congrArg Prod.snd hG
  subst hρ
  subst hσ
  have hD := kem_correct hu hu' hv hv' (show 112 + 56 * f2 ≤ 112 + 56 * f3 by omega) hA hzl hml ho ho' hn
  refine ⟨K, by rw [hK]; exact G_fst_length _, h4, ?_⟩
  refine C03_dec p f3 ss2 ev.1 kv.2.1 c dk h3.holds (encrypt_length hc) h2.holds ?_ hss2 K hD
  rw [e]
  simp only [List.length_append, l2, hzl, show (H ek').length = 32 from SHA3_256_length ek', dkLen]
  dsimp only at l1
  omega

/-- C04. For the encryption scheme inside, the threshold is exact: decryption recovers the message if and only if the noise is within it. -/
theorem C04_pke_exact (N N1 N2 : Nat) (d m r ek dk c : List UInt8) (A : Nat → Nat → Rq)
    (hA : ∀ i < (fips p).k, ∀ j < (fips p).k, SampleNTT N ((G (d ++ [UInt8.ofNat (fips p).k])).1 ++ [UInt8.ofNat j, UInt8.ofNat i]) = some (A i j))
    (hm : m.length = 32) (hk : K_PKE_KeyGen (fips p) N1 d = some (ek, dk)) (hc : K_PKE_Encrypt (fips p) N2 ek m r = some c) :
    K_PKE_Decrypt (fips p) dk c = m ↔ WithinThreshold m (decryptionNoise (fips p) A (G (d ++ [UInt8.ofNat (fips p).k])).2 m r) :=
  have ⟨hu, hu', hv, hv'⟩ := fips_d p
  decrypt_encrypt_iff hu hu' hv hv' hA hm hk hc

/-- The threshold: met by zero noise, not by noise 833, met by 832 for message bits 0 only. -/
example : WithinThreshold (List.replicate 32 0x55) 0 ∧ ¬ WithinThreshold (List.replicate 32 0x55) (fun _ => 833) ∧
    WithinThreshold (List.replicate 32 0) (fun _ => 832) ∧ ¬ WithinThreshold (List.replicate 32 0xFF) (fun _ => 832) := by
  have no : ∀ (z : Int) (n : Nat), (z : Zq) = n → 832 ≤ n → n < 2000 → -832 ≤ z → z ≤ 832 → z = n := by
    intro z n hz h1 h2 h3 h4
    have e : ((z : Int) : Zq) = ((n : Int) : Zq) := by rw [hz]; simp
    rw [ZMod.intCast_eq_intCast_iff_dvd_sub] at e
    obtain ⟨t, ht⟩ := e
    push_cast at ht
    omega
  have b : ByteDecode 1 (List.replicate 32 0xFF) 0 = 1 := by decide +kernel
  refine ⟨fun i => ⟨0, by simp, by omega, by split <;> omega⟩, fun h => ?_, fun i => ⟨832, rfl, by omega, ?_⟩, fun h => ?_⟩
  · obtain ⟨z, hz, h1, h2⟩ := h 0
    have := no z 833 hz (by omega) (by omega) h1 (by split at h2 <;> omega)
    split at h2 <;> omega
  · have : ∀ i : Fin 256, ByteDecode 1 (List.replicate 32 0) i = 0 := by decide +kernel
    rw [this i]; decide
  · obtain ⟨z, hz, h1, h2⟩ := h 0
    have := no z 832 hz (by omega) (by omega) h1 (by split at h2 <;> omega)
    rw [if_pos b] at h2
    omega

set_option linter.constructorNameAsVariable false in
/-- The premises of `C04_correct` before the threshold hold for 64 zero bytes as coins and every m. -/
example (mc : Mem UInt8) (m : List UInt8) (hm : mc.Holds 0 m) (hml : m.length = 32) : ∃ kv kt ev et,
    crypto_kem_keypair_derand .k2 1 (Mem.uninit UInt8 800) (Mem.uninit UInt8 1632) (Mem.ofList (List.replicate 64 0)) = .ok kv kt ∧
    crypto_kem_enc_derand .k2 1 (Mem.uninit UInt8 768) (Mem.uninit UInt8 32) kv.1 mc = .ok ev et := by
  obtain ⟨ek, dk, h, hr⟩ := keypair_case
  obtain ⟨kv, kt, hk, h1, -⟩ := hr.exists_ok
  obtain ⟨s, hs, -⟩ := keygen_inv h
  have hl : ek.length = 800 := (keygen_length hs).1
  obtain ⟨K, c, hc⟩ := kat_encaps (ek := ek) (kat_ek h) m
  obtain ⟨ev, et, he, -⟩ := (C02_enc .k2 1 (Mem.uninit UInt8 768) (Mem.uninit UInt8 32) kv.1 mc ek m hm hml h1.holds hl (by simp; decide) (by simp) K c hc).exists_ok
  exact ⟨kv, kt, ev, et, hk, he⟩

end

end Verif.Props
