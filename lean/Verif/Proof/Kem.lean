import Verif.Proof.Indcpa
import Verif.Proof.Verify
import Verif.Model.Kem

/-! # kem.c (derandomised API) computes the internal algorithms of ML-KEM -/

namespace Verif.Proof
open Verif.Model Verif.Spec

theorem pk_size (p : ParamSet) : KYBER_INDCPA_PUBLICKEYBYTES p = 384 * (fips p).k + 32 := by cases p <;> rfl
theorem pk_size' (p : ParamSet) : KYBER_PUBLICKEYBYTES p = 384 * (fips p).k + 32 := by cases p <;> rfl
theorem isk_size (p : ParamSet) : KYBER_INDCPA_SECRETKEYBYTES p = 384 * (fips p).k := by cases p <;> rfl
theorem sk_size (p : ParamSet) : KYBER_SECRETKEYBYTES p = 768 * (fips p).k + 96 := by cases p <;> rfl
theorem ct_size' (p : ParamSet) : KYBER_CIPHERTEXTBYTES p = 32 * ((fips p).du * (fips p).k + (fips p).dv) := by cases p <;> rfl

theorem concat_length {k w : Nat} {f : Nat → List UInt8} (h : ∀ i, (f i).length = w) : (concat k f).length = w * k := flatMap_length h

theorem byteEncode12_length (f : Rq) : (ByteEncode12 f).length = 384 := byteEncode_length 12 _

theorem keyOut_length (P : Params) (ρ σ : List UInt8) (A : Nat → Nat → Rq) (hρ : ρ.length = 32) :
    (keyOut P ρ σ A).1.length = 384 * P.k + 32 ∧ (keyOut P ρ σ A).2.length = 384 * P.k := by
  unfold keyOut
  constructor
  · rw [List.length_append, concat_length (w := 384) fun i => byteEncode12_length _, hρ]
  · exact concat_length (w := 384) fun i => byteEncode12_length _

theorem keygen_length {P : Params} {N : Nat} {d : List UInt8} {o : List UInt8 × List UInt8} (h : K_PKE_KeyGen P N d = some o) :
    o.1.length = 384 * P.k + 32 ∧ o.2.length = 384 * P.k := by
  rw [K_PKE_KeyGen_eq] at h
  cases hA : ExpandA P.k N (G (d ++ [UInt8.ofNat P.k])).1 with
  | none => rw [hA] at h; simp at h
  | some A =>
    rw [hA] at h
    simp only [Option.map_some, Option.some.injEq] at h
    subst h
    exact keyOut_length P _ _ _ (G_fst_length _)

theorem encrypt_length {P : Params} {N : Nat} {ek m r c : List UInt8} (h : K_PKE_Encrypt P N ek m r = some c) :
    c.length = 32 * (P.du * P.k + P.dv) := by
  rw [K_PKE_Encrypt_eq] at h
  cases hA : ExpandA P.k N (bytes ek (384 * P.k) (384 * P.k + 32)) with
  | none => rw [hA] at h; simp at h
  | some A =>
    rw [hA] at h
    simp only [Option.map_some, Option.some.injEq] at h
    subst h
    unfold encOut
    rw [List.length_append, concat_length (w := 32 * P.du) fun i => byteEncode_length _ _, byteEncode_length]
    rw [Nat.mul_add, Nat.mul_assoc]

theorem RunsO.with {α β : Type} {m : C α} {o : Option β} {Q : β → α → Prop} (h : RunsO m o Q) : RunsO m o (fun b v => o = some b ∧ Q b v) := by
  cases o with
  | some b => exact Runs.mono h fun v hv => ⟨rfl, hv⟩
  | none => exact h

theorem keypair_derand_runsO {p : ParamSet} {fuel : Nat} {pk sk coins : Mem UInt8} {d z : List UInt8} (hd : coins.Holds 0 d) (hdl : d.length = 32)
    (hz : coins.Holds 32 z) (hzl : z.length = 32) (hpk : KYBER_PUBLICKEYBYTES p ≤ pk.size) (hsk : KYBER_SECRETKEYBYTES p ≤ sk.size) :
    RunsO (crypto_kem_keypair_derand p fuel pk sk coins) (KeyGen_internal (fips p) (iters fuel) d z)
      (fun o s => pk.Wrote s.1 0 o.1 ∧ sk.Wrote s.2.1 0 o.2 ∧ s.2.2 = 0) := by
  unfold crypto_kem_keypair_derand KeyGen_internal
  have e1 := pk_size p
  have e1' := pk_size' p
  have e2 := isk_size p
  have e3 := sk_size p
  refine RunsO.bind (RunsO.with (keypair_runsO hd hdl (by omega) (by omega))) fun o s hs => ?_
  obtain ⟨ek, dk⟩ := o
  obtain ⟨pk1, sk1⟩ := s
  obtain ⟨ho, hpk1, hsk1⟩ := hs
  obtain ⟨l1, l2⟩ := keygen_length ho
  dsimp only at hpk1 hsk1 l1 l2 ⊢
  show Runs _ _
  rw [runs_bind, e2, e1', e3, show KYBER_SYMBYTES = 32 from rfl]
  refine (runs_memcpy_str hpk1.holds l1 (by rw [hsk1.size]; omega)).mono fun sk2 hsk2 => ?_
  have h2 : sk.Wrote sk2 0 (dk ++ ek) := hsk1.append (by rwa [l2, Nat.zero_add])
  rw [runs_bind]
  refine (sha3_256_runs hpk1.holds l1 (by rw [h2.size]; omega)).mono fun sk3 hsk3 => ?_
  have h3 : sk.Wrote sk3 0 (dk ++ ek ++ H ek) := h2.append (by
    rw [List.length_append, l1, l2]
    rw [show 0 + (384 * (fips p).k + (384 * (fips p).k + 32)) = 768 * (fips p).k + 96 - 2 * 32 from by omega]
    exact hsk3)
  rw [runs_bind]
  refine (runs_memcpy_str hz hzl (by rw [h3.size]; omega)).mono fun sk4 hsk4 => ?_
  have h4 : sk.Wrote sk4 0 (dk ++ ek ++ H ek ++ z) := h3.append (by
    rw [List.length_append, List.length_append, l1, l2, show (H ek).length = 32 from SHA3_256_length ek]
    rw [show 0 + (384 * (fips p).k + (384 * (fips p).k + 32) + 32) = 768 * (fips p).k + 96 - 32 from by omega]
    exact hsk4)
  exact ⟨hpk1, h4, rfl⟩

theorem enc_derand_runsO {p : ParamSet} {fuel : Nat} {ct ss pk coins : Mem UInt8} {ek m : List UInt8} (hm : coins.Holds 0 m) (hml : m.length = 32)
    (hek : pk.Holds 0 ek) (hekl : ek.length = KYBER_PUBLICKEYBYTES p) (hct : KYBER_CIPHERTEXTBYTES p ≤ ct.size) (hss : KYBER_SSBYTES ≤ ss.size) :
    RunsO (crypto_kem_enc_derand p fuel ct ss pk coins) (Encaps_internal (fips p) (iters fuel) ek m)
      (fun o s => ct.Wrote s.1 0 o.2 ∧ ss.Wrote s.2.1 0 o.1 ∧ s.2.2 = 0) := by
  unfold crypto_kem_enc_derand
  dsimp only
  rw [show KYBER_SYMBYTES = 32 from rfl]
  refine Runs.bindO (runs_memcpy_str (dst := Mem.uninit UInt8 (2 * 32)) hm hml (by rw [Mem.size_uninit]; omega)) fun b1 hb1 => ?_
  refine Runs.bindO (sha3_256_runs (h := b1) (ho := 32) hek hekl (by rw [hb1.size, Mem.size_uninit])) fun b2 hb2 => ?_
  have h2 : (Mem.uninit UInt8 (2 * 32)).Wrote b2 0 (m ++ H ek) := hb1.append (by rw [hml, Nat.zero_add]; exact hb2)
  refine Runs.bindO (hash_g_runs (h := Mem.uninit UInt8 (2 * 32)) (ho := 0) h2.holds (by
    rw [List.length_append, hml, show (H ek).length = 32 from SHA3_256_length ek]) (by rw [Mem.size_uninit])) fun kr hkr => ?_
  obtain ⟨_, hK, hr⟩ := hkr
  unfold Encaps_internal
  have hKl := G_fst_length (m ++ H ek)
  have hrl := G_snd_length (m ++ H ek)
  generalize G (m ++ H ek) = g at *
  obtain ⟨K, r⟩ := g
  dsimp only at hK hr hKl hrl ⊢
  rw [Nat.zero_add] at hr
  have hm2 : b2.Holds 0 m := (Mem.Holds.append.1 h2.holds).1
  refine RunsO.bind (enc_runsO (fuel := fuel) (c := ct) hm2 hml hek hekl hr hrl hct) fun c ct' hct' => ?_
  show Runs _ _
  rw [runs_bind]
  refine (runs_memcpy_str hK hKl (by have : KYBER_SSBYTES = 32 := rfl; omega)).mono fun ss' hss' => ?_
  exact ⟨hct', hss', rfl⟩

theorem bytes_length {B : List UInt8} {a b : Nat} (hab : a ≤ b) (h : b ≤ B.length) : (bytes B a b).length = b - a := length_slice (by omega)

theorem Mem.Holds.bytes {m : Mem UInt8} {o : Nat} {l : List UInt8} (h : m.Holds o l) (a b : Nat) (hab : a ≤ b) (hb : b ≤ l.length) :
    m.Holds (o + a) (bytes l a b) := h.slice a (b - a) (by omega)

theorem decrypt_length (P : Params) (dk c : List UInt8) : (K_PKE_Decrypt P dk c).length = 32 := by
  unfold K_PKE_Decrypt
  exact byteEncode_length 1 _

theorem crypto_kem_dec_runsO {p : ParamSet} {fuel : Nat} {ss ct sk : Mem UInt8} {c dk : List UInt8} (hc : ct.Holds 0 c) (hcl : c.length = KYBER_CIPHERTEXTBYTES p)
    (hdk : sk.Holds 0 dk) (hdkl : dk.length = KYBER_SECRETKEYBYTES p) (hss : KYBER_SSBYTES ≤ ss.size) :
    RunsO (crypto_kem_dec p fuel ss ct sk) (Decaps_internal (fips p) (iters fuel) dk c) (fun o s => ss.Wrote s.1 0 o ∧ s.2 = 0) := by
  have e1 := pk_size p
  have e2 := isk_size p
  have e3 := sk_size p
  have e4 := ct_size' p
  have hss' : 32 ≤ ss.size := hss
  unfold crypto_kem_dec
  dsimp only
  rw [show KYBER_SYMBYTES = 32 from rfl, e2, e3]
  rw [e3] at hdkl
  have hdkPKE := Mem.Holds.bytes hdk 0 (384 * (fips p).k) (by omega) (by omega)
  have hek := Mem.Holds.bytes hdk (384 * (fips p).k) (768 * (fips p).k + 32) (by omega) (by omega)
  have hh := Mem.Holds.bytes hdk (768 * (fips p).k + 32) (768 * (fips p).k + 64) (by omega) (by omega)
  have hz := Mem.Holds.bytes hdk (768 * (fips p).k + 64) (768 * (fips p).k + 96) (by omega) (by omega)
  have ldk := bytes_length (B := dk) (a := 0) (b := 384 * (fips p).k) (by omega) (by omega)
  have lek := bytes_length (B := dk) (a := 384 * (fips p).k) (b := 768 * (fips p).k + 32) (by omega) (by omega)
  have lh := bytes_length (B := dk) (a := 768 * (fips p).k + 32) (b := 768 * (fips p).k + 64) (by omega) (by omega)
  have lz := bytes_length (B := dk) (a := 768 * (fips p).k + 64) (b := 768 * (fips p).k + 96) (by omega) (by omega)
  unfold Decaps_internal
  dsimp only
  generalize bytes dk 0 (384 * (fips p).k) = dkPKE at *
  generalize bytes dk (384 * (fips p).k) (768 * (fips p).k + 32) = ek at *
  generalize bytes dk (768 * (fips p).k + 32) (768 * (fips p).k + 64) = h at *
  generalize bytes dk (768 * (fips p).k + 64) (768 * (fips p).k + 96) = z at *
  rw [Nat.zero_add] at hdkPKE hek hh hz
  refine Runs.bindO (dec_runs (m := Mem.uninit UInt8 (2 * 32)) (mo := 0) rfl hc hcl hdkPKE (by omega) (by rw [Mem.size_uninit]; omega)) fun b1 hb1 => ?_
  have hml := decrypt_length (fips p) dkPKE c
  generalize K_PKE_Decrypt (fips p) dkPKE c = m at *
  rw [show 768 * (fips p).k + 96 - 2 * 32 = 768 * (fips p).k + 32 from by omega, show 768 * (fips p).k + 96 - 32 = 768 * (fips p).k + 64 from by omega]
  refine Runs.bindO (runs_memcpy_str (dst := b1) hh (by omega) (by rw [hb1.size, Mem.size_uninit])) fun b2 hb2 => ?_
  have h2 : (Mem.uninit UInt8 (2 * 32)).Wrote b2 0 (m ++ h) := hb1.append (by rw [hml, Nat.zero_add]; exact hb2)
  refine Runs.bindO (hash_g_runs (h := Mem.uninit UInt8 (2 * 32)) (ho := 0) h2.holds (by
    rw [List.length_append, hml, lh]; omega) (by rw [Mem.size_uninit])) fun kr hkr => ?_
  obtain ⟨_, hK, hr⟩ := hkr
  have hKl := G_fst_length (m ++ h)
  have hrl := G_snd_length (m ++ h)
  generalize G (m ++ h) = g at *
  obtain ⟨K, r⟩ := g
  dsimp only at hK hr hKl hrl ⊢
  rw [Nat.zero_add] at hr
  have hm2 : b2.Holds 0 m := (Mem.Holds.append.1 h2.holds).1
  refine RunsO.bind (RunsO.with (enc_runsO (fuel := fuel) (c := Mem.uninit UInt8 (KYBER_CIPHERTEXTBYTES p)) hm2 hml hek (by omega) hr hrl (by
    rw [Mem.size_uninit]; exact Nat.le_refl _))) fun c' cmp hcmp => ?_
  obtain ⟨hc', hcmp⟩ := hcmp
  have lc' := encrypt_length hc'
  show Runs _ _
  rw [runs_bind]
  have v1 := hc.has 0
  have v2 := hcmp.holds.has 0
  rw [hcl] at v1
  rw [lc', ← e4] at v2
  refine (verify_runs v1 v2).mono fun fail hfail => ?_
  have hfail : fail = 0 ↔ c = c' := by
    rw [hfail.2]
    constructor
    · intro hh
      apply List.ext_getElem (by omega)
      intro i h1 h2
      have := hh i (by omega)
      simpa [List.getD_eq_getElem?_getD, h1, h2] using this
    · rintro rfl i _; rfl
  rw [runs_bind]
  refine (rkprf_runs hz (by omega) hc hcl (by omega)).mono fun ss1 hss1 => ?_
  rw [runs_bind]
  have hb : (if fail = 0 then (1 : UInt8) else 0) = if decide (fail = 0) then 1 else 0 := by simp
  rw [hb]
  have w1 := hss1.holds.has 0
  have w2 := hK.has 0
  rw [SHAKE256_length] at w1
  rw [hKl] at w2
  refine (cmov_runs w1 w2 (decide (fail = 0))).mono fun ss2 hss2 => ?_
  refine ⟨?_, rfl⟩
  have hJ : (J (z ++ c)).length = 32 := SHAKE256_length _ _
  have hw : ss1.Wrote ss2 0 (if c = c' then K else J (z ++ c)) := by
    refine hss2.wrote_of (by split <;> assumption) fun i hi => ?_
    by_cases hf : fail = 0
    · have hcc := hfail.1 hf
      simp only [hf, hcc, decide_true, if_true]
      rw [if_pos hcc] at hi
      rw [List.getD_eq_getElem?_getD, List.getElem?_eq_getElem hi]; rfl
    · have hcc : ¬ c = c' := fun h => hf (hfail.2 h)
      simp only [hf, hcc, decide_false, if_false]
      rw [if_neg hcc] at hi
      rw [if_neg (by simp), List.getD_eq_getElem?_getD]
      show (J (z ++ c))[i]?.getD 0 = _
      rw [List.getElem?_eq_getElem hi]; rfl
  refine ⟨by rw [hw.size, hss1.size], hw.holds, fun i hi => ?_⟩
  have hl : (if c = c' then K else J (z ++ c)).length = 32 := by split <;> assumption
  rw [hl] at hi
  rw [hw.frame i (by rw [hl]; exact hi), hss1.frame i (by rw [SHAKE256_length]; exact hi)]

end Verif.Proof
