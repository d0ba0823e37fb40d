import Verif.Avx.Leak
import Verif.Props.AvxBmi
import Verif.Props.AvxLeak

/-! # C69: the KEM calls of a build with `BMI` defined -/

set_option autoImplicit false

namespace Verif.Props
open Verif.Model Verif.Spec Verif.Proof

/-- The calls of avx2/kem.c linked with the variant of `rej_uniform_avx` (avx2/rejsample.c:274-398). -/
abbrev bmi_keypair_derand := Avx.crypto_kem_keypair_derandW Avx.rej_uniform_avx_bmi
@[inherit_doc bmi_keypair_derand] abbrev bmi_enc_derand := Avx.crypto_kem_enc_derandW Avx.rej_uniform_avx_bmi
@[inherit_doc bmi_keypair_derand] abbrev bmi_dec := Avx.crypto_kem_decW Avx.rej_uniform_avx_bmi

/-- The same outcome: whatever holds of the value one run returns holds of that of the other, both have the same undefined behaviour, or both are still running. -/
def EqualOutcome {α : Type} (m m' : C α) : Prop :=
  (∀ Q : α → Prop, Runs m Q ↔ Runs m' Q) ∧ (∀ u, m = .ub u ↔ m' = .ub u) ∧ (m = .diverge ↔ m' = .diverge)

theorem equalOutcome_of {α : Type} {m m' : C α} (h : SameRes m m') : EqualOutcome m m' := by
  cases m <;> cases m' <;> simp_all [SameRes, EqualOutcome, Runs]

variable (p : ParamSet) (junk junk' : Junk) (fuel : Nat)

/-- C69. Key generation: on all buffers the variant does what the default build does, so C48, C52, C73 hold for it, too. -/
theorem C69_keypair (pk sk coins : Mem UInt8) : EqualOutcome (Avx.crypto_kem_keypair_derand p junk fuel pk sk coins) (bmi_keypair_derand p junk fuel pk sk coins) := by
  rw [← Avx.crypto_kem_keypair_derandW_avx]
  exact equalOutcome_of (Avx.same_keypair Avx.rejSpec_avx Avx.Bmi.rejSpec_bmi)

/-- C69. Encapsulation (C49, C52, C73). -/
theorem C69_enc (ct ss pk coins : Mem UInt8) : EqualOutcome (Avx.crypto_kem_enc_derand p junk fuel ct ss pk coins) (bmi_enc_derand p junk fuel ct ss pk coins) := by
  rw [← Avx.crypto_kem_enc_derandW_avx]
  exact equalOutcome_of (Avx.same_enc Avx.rejSpec_avx Avx.Bmi.rejSpec_bmi)

/-- C69. Decapsulation (C50, C52, C73). -/
theorem C69_dec (ss ct sk : Mem UInt8) : EqualOutcome (Avx.crypto_kem_dec p junk fuel ss ct sk) (bmi_dec p junk fuel ss ct sk) := by
  rw [← Avx.crypto_kem_decW_avx]
  exact equalOutcome_of (Avx.same_dec Avx.rejSpec_avx Avx.Bmi.rejSpec_bmi)

theorem EqualOutcome.noUB {α : Type} {m m' : C α} (h : EqualOutcome m m') (hm : NoUB m) : NoUB m' := fun u e => hm u ((h.2.1 u).2 e)

/-- C69. The variant has other branches and addresses, but they leak as little (compare C56). Key generation. -/
theorem C69_leak_keypair (pk sk coins pk' sk' coins' : Mem UInt8) (d z d' z' : List UInt8) (hd : coins.Holds 0 d) (hdl : d.length = 32) (hz : coins.Holds 32 z)
    (hzl : z.length = 32) (hpk : ekLen (fips p) ≤ pk.size) (hsk : dkLen (fips p) ≤ sk.size) (hd' : coins'.Holds 0 d') (hdl' : d'.length = 32) (hz' : coins'.Holds 32 z')
    (hzl' : z'.length = 32) (hpk' : ekLen (fips p) ≤ pk'.size) (hsk' : dkLen (fips p) ≤ sk'.size)
    (hρ : (SHA3_512 (d ++ [UInt8.ofNat (fips p).k])).take 32 = (SHA3_512 (d' ++ [UInt8.ofNat (fips p).k])).take 32) :
    SameLeakage (bmi_keypair_derand p junk fuel pk sk coins) (bmi_keypair_derand p junk' fuel pk' sk' coins') := by
  refine sameLeakage_of (Avx.ni_crypto_kem_keypair_derandW Avx.Bmi.rejSpec_bmi hd hdl hd' hdl' ?_)
    ((C69_keypair p junk fuel pk sk coins).noUB (noUB_of_runsO (keypair_avx p junk fuel pk sk coins d z hd hdl hz hzl hpk hsk)))
    ((C69_keypair p junk' fuel pk' sk' coins').noUB (noUB_of_runsO (keypair_avx p junk' fuel pk' sk' coins' d' z' hd' hdl' hz' hzl' hpk' hsk')))
  rw [kbyte]
  exact hρ

/-- C69. The same for encapsulation. -/
theorem C69_leak_enc (ct ss pk coins ct' ss' pk' coins' : Mem UInt8) (ek m ek' m' : List UInt8) (hm : coins.Holds 0 m) (hml : m.length = 32) (hek : pk.Holds 0 ek)
    (hekl : ek.length = ekLen (fips p)) (hct : ctLen (fips p) ≤ ct.size) (hss : 32 ≤ ss.size) (hm' : coins'.Holds 0 m') (hml' : m'.length = 32) (hek' : pk'.Holds 0 ek')
    (hekl' : ek'.length = ekLen (fips p)) (hct' : ctLen (fips p) ≤ ct'.size) (hss' : 32 ≤ ss'.size)
    (hρ : bytes ek (384 * (fips p).k) (384 * (fips p).k + 32) = bytes ek' (384 * (fips p).k) (384 * (fips p).k + 32)) :
    SameLeakage (bmi_enc_derand p junk fuel ct ss pk coins) (bmi_enc_derand p junk' fuel ct' ss' pk' coins') := by
  have e : KYBER_POLYVECBYTES p = 384 * (fips p).k := by cases p <;> rfl
  have l : 384 * (fips p).k + 32 ≤ ek.length := le_of_eq hekl.symm
  have h1 := holds_bytes hek l
  have h2 := holds_bytes hek' (le_of_eq hekl'.symm : 384 * (fips p).k + 32 ≤ ek'.length)
  rw [← hρ] at h2
  rw [← e] at h1 h2
  exact sameLeakage_of (Avx.ni_crypto_kem_enc_derandW Avx.Bmi.rejSpec_bmi h1 h2 (by rw [e]; exact bytes_length32 l))
    ((C69_enc p junk fuel ct ss pk coins).noUB (C52_enc p junk fuel ct ss pk coins ek m hm hml hek hekl hct hss))
    ((C69_enc p junk' fuel ct' ss' pk' coins').noUB (C52_enc p junk' fuel ct' ss' pk' coins' ek' m' hm' hml' hek' hekl' hct' hss'))

/-- C69. The same for decapsulation: only the stored seed of the matrix is leaked. -/
theorem C69_leak_dec (ss ct sk ss' ct' sk' : Mem UInt8) (c dk c' dk' : List UInt8) (hc : ct.Holds 0 c) (hcl : c.length = ctLen (fips p)) (hdk : sk.Holds 0 dk)
    (hdkl : dk.length = dkLen (fips p)) (hss : 32 ≤ ss.size) (hc' : ct'.Holds 0 c') (hcl' : c'.length = ctLen (fips p)) (hdk' : sk'.Holds 0 dk')
    (hdkl' : dk'.length = dkLen (fips p)) (hss' : 32 ≤ ss'.size)
    (hρ : bytes dk (768 * (fips p).k) (768 * (fips p).k + 32) = bytes dk' (768 * (fips p).k) (768 * (fips p).k + 32)) :
    SameLeakage (bmi_dec p junk fuel ss ct sk) (bmi_dec p junk' fuel ss' ct' sk') := by
  have e : KYBER_INDCPA_SECRETKEYBYTES p + KYBER_POLYVECBYTES p = 768 * (fips p).k := by cases p <;> rfl
  have l : 768 * (fips p).k + 32 ≤ dk.length := by rw [hdkl]; unfold dkLen; omega
  have h1 := holds_bytes hdk l
  have h2 := holds_bytes hdk' (by rw [hdkl']; unfold dkLen; omega : 768 * (fips p).k + 32 ≤ dk'.length)
  rw [← hρ] at h2
  rw [← e] at h1 h2
  exact sameLeakage_of (Avx.ni_crypto_kem_decW Avx.Bmi.rejSpec_bmi h1 h2 (by rw [e]; exact bytes_length32 l))
    ((C69_dec p junk fuel ss ct sk).noUB (C52_dec p junk fuel ss ct sk c dk hc hcl hdk hdkl hss))
    ((C69_dec p junk' fuel ss' ct' sk').noUB (C52_dec p junk' fuel ss' ct' sk' c' dk' hc' hcl' hdk' hdkl' hss'))

/-- A case: encapsulation to the key with all coefficients 0 returns. -/
example (junk : Junk) (m : List UInt8) (hml : m.length = 32) : ∃ K c, Runs (bmi_enc_derand .k2 junk 1 (Mem.uninit UInt8 768) (Mem.uninit UInt8 32)
    (Mem.ofList (List.replicate 768 0 ++ katRho)) (Mem.ofList m))
      (fun s => (Mem.uninit UInt8 768).Wrote s.1 0 c ∧ (Mem.uninit UInt8 32).Wrote s.2.1 0 K ∧ s.2.2 = 0) := by
  obtain ⟨K, c, h⟩ := kat_encaps (ek := List.replicate 768 0 ++ katRho) (by decide +kernel) m
  exact ⟨K, c, ((C69_enc .k2 junk 1 _ _ _ _).1 _).1
    (C49_enc .k2 junk 1 _ _ _ _ _ m (Mem.holds_ofList m) hml (Mem.holds_ofList _) (by decide +kernel) (by simp; decide) (by simp) K c h)⟩

/-- A case: so does decapsulation of any ciphertext. -/
example (junk : Junk) (c : List UInt8) (hcl : c.length = 768) : ∃ K, Runs (bmi_dec .k2 junk 1 (Mem.uninit UInt8 32) (Mem.ofList c)
    (Mem.ofList (List.replicate 1536 0 ++ katRho ++ List.replicate 64 0))) (fun s => (Mem.uninit UInt8 32).Wrote s.1 0 K ∧ s.2 = 0) := by
  obtain ⟨K, h⟩ := kat_decaps (dk := List.replicate 1536 0 ++ katRho ++ List.replicate 64 0) (by decide +kernel) c
  exact ⟨K, ((C69_dec .k2 junk 1 _ _ _).1 _).1
    (C50_dec .k2 junk 1 _ _ _ c _ (Mem.holds_ofList c) hcl (Mem.holds_ofList _) (by decide +kernel) (by simp) K h)⟩

end Verif.Props
