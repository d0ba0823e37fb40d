import Verif.Proof.Alias

/-! # The ref build satisfies what the KEM calls in one memory need -/

namespace Verif.Proof
open Verif.Model Verif.Spec

/-- `indcpa_keypair_derand` is the part before `pack_sk` followed by the packing. -/
theorem indcpa_keypair_cut (p : ParamSet) (fuel : Nat) (pk sk coins : Mem UInt8) : indcpa_keypair_derand p fuel pk sk coins = (do
    let (skpv, pkpv, buf) ← indcpa_keypair_vecs p fuel coins
    let sk ← pack_sk p sk skpv
    let pk ← pack_pk p pk pkpv buf 0
    pure (pk, sk)) := by
  unfold indcpa_keypair_derand indcpa_keypair_vecs
  dsimp only
  repeat (first
    | (rw [bind_assoc]; refine bind_congr fun s => ?_)
    | (rw [pure_bind])
    | rfl)

/-- `indcpa_enc` is the part before `pack_ciphertext` followed by the packing. -/
theorem indcpa_enc_cut (p : ParamSet) (fuel : Nat) (c m : Mem UInt8) (mo : Nat) (pk : Mem UInt8) (po : Nat) (coins : Mem UInt8) (co : Nat) :
    indcpa_enc p fuel c m mo pk po coins co = (do
    let (b, v) ← indcpa_enc_uv p fuel m mo pk po coins co
    pack_ciphertext p c b v) := by
  unfold indcpa_enc indcpa_enc_uv
  dsimp only
  repeat (first
    | (rw [bind_assoc]; refine bind_congr fun s => ?_)
    | (rw [pure_bind])
    | rfl)

theorem keypair_vecs_runsO {p : ParamSet} {fuel : Nat} {coins : Mem UInt8} {d : List UInt8} (hd : coins.Holds 0 d) (hl : d.length = 32) :
    RunsO (indcpa_keypair_vecs p fuel coins) (K_PKE_KeyGen (fips p) (iters fuel) d) fun o s =>
      (∀ r : Mem UInt8, KYBER_INDCPA_SECRETKEYBYTES p ≤ r.size → Runs (pack_sk p r s.1) fun r' => r.Wrote r' 0 o.2) ∧
      ∀ r : Mem UInt8, KYBER_INDCPA_PUBLICKEYBYTES p ≤ r.size → Runs (pack_pk p r s.2.1 s.2.2 0) fun r' => r.Wrote r' 0 o.1 := by
  rw [K_PKE_KeyGen_eq, fips_k]
  refine runsO_map ?_
  unfold indcpa_keypair_vecs
  dsimp only
  have hsym : KYBER_SYMBYTES = 32 := rfl
  rw [hsym]
  refine Runs.bindO (runs_memcpy_str (dst := Mem.uninit UInt8 (2 * 32)) hd hl (by rw [Mem.size_uninit]; omega)) fun b1 hb1 => ?_
  refine Runs.bindO (runs_wr_str (i := 32) (UInt8.ofNat (KYBER_K p)) (by rw [hb1.size, Mem.size_uninit]; omega)) fun b2 hb2 => ?_
  have hb2' : (Mem.uninit UInt8 (2 * 32)).Wrote b2 0 (d ++ [UInt8.ofNat (KYBER_K p)]) := hb1.append (by rwa [hl, Nat.zero_add])
  refine Runs.bindO (hash_g_runs (h := b2) (ho := 0) hb2'.holds (by rw [List.length_append, hl]; rfl) (by rw [hb2'.size, Mem.size_uninit])) fun b3 hb3 => ?_
  obtain ⟨_, hρ, hσ⟩ := hb3
  have hρl := G_fst_length (d ++ [UInt8.ofNat (KYBER_K p)])
  have hσl := G_snd_length (d ++ [UInt8.ofNat (KYBER_K p)])
  generalize (G (d ++ [UInt8.ofNat (KYBER_K p)])).1 = ρ at *
  generalize (G (d ++ [UInt8.ofNat (KYBER_K p)])).2 = σ at *
  rw [Nat.zero_add] at hσ
  refine (gen_matrix_runsO false (matSz_uninit p) hρ hρl).bindR fun A a hA => ?_
  simp only [Bool.false_eq_true, if_false] at hA
  rw [runs_bind]
  refine (noiseloop_runs (n0 := 0) (g := noise (fips p).η₁ σ) (op := fun q n => poly_getnoise_eta1 p q b3 32 n) (vecSz_uninit p)
    (fun q n hq => getnoise_eta1_runs hq hσ hσl n) fun i s => rfl).mono fun s hs => ?_
  obtain ⟨skpv, nonce⟩ := s
  obtain ⟨hs1, hs2⟩ := hs
  dsimp only at hs1 hs2 ⊢
  subst hs2
  rw [Nat.zero_add, runs_bind]
  refine (noiseloop_runs (n0 := KYBER_K p) (g := noise (fips p).η₁ σ) (op := fun q n => poly_getnoise_eta1 p q b3 32 n) (vecSz_uninit p)
    (fun q n hq => getnoise_eta1_runs hq hσ hσl n) fun i s => rfl).mono fun s hs => ?_
  obtain ⟨e, nonce⟩ := s
  obtain ⟨he, _⟩ := hs
  dsimp only at he ⊢
  rw [runs_bind]
  refine (polyvec_ntt_runs hs1 (by norm_num)).mono fun skpv hsk1 => ?_
  rw [runs_bind]
  refine (polyvec_ntt_runs he (by norm_num)).mono fun e he1 => ?_
  have hsk2 : VecR (KYBER_K p) skpv (keyS (fips p) σ) 1664 := hsk1.congr fun i _ => by unfold keyS; rw [Nat.zero_add]
  rw [runs_bind]
  refine (runs_vecloop (g := fun i => dotNTT (KYBER_K p) (A i) (keyS (fips p) σ)) (B := 2497) (vecSz_uninit p).size fun i m hi hm hfr => ?_).mono fun pkpv hpkpv => ?_
  · obtain ⟨q, hq, hqs⟩ := (vecSz_uninit p).get i hi
    obtain ⟨ai, hai, haiR⟩ := hA.vec hi
    rw [runs_bind, runs_at]
    refine ⟨q, by rw [hfr i (Nat.le_refl _), hq], ?_⟩
    rw [runs_bind, runs_at]
    refine ⟨ai, hai, ?_⟩
    rw [runs_bind]
    refine (polyvec_basemul_acc_runs hqs haiR hsk2).mono fun q1 hq1 => ?_
    rw [runs_bind, runs_put]
    refine ⟨by omega, ?_⟩
    rw [runs_bind, runs_at]
    refine ⟨q1, arr_set_self (by omega), ?_⟩
    rw [runs_bind]
    refine (poly_tomont_runs hq1).mono fun q2 hq2 => ?_
    rw [runs_put]
    refine ⟨by rw [Array.size_setIfInBounds]; omega, q2, by rw [Array.setIfInBounds_setIfInBounds], ?_⟩
    simp only [zq_169] at hq2
    exact hq2
  rw [runs_bind]
  refine (polyvec_add_runs hpkpv.sz hpkpv he1 (by norm_num)).mono fun t ht => ?_
  rw [runs_bind]
  refine (polyvec_reduce_runs ht).mono fun t ht => ?_
  rw [runs_pure]
  refine ⟨fun sk hsk => ?_, fun pk hpk => ?_⟩
  · unfold pack_sk
    refine (polyvec_tobytes_runs (hsk2.mono (by norm_num)) (by
      unfold KYBER_INDCPA_SECRETKEYBYTES KYBER_POLYVECBYTES KYBER_POLYBYTES at hsk; omega)).mono fun sk' hsk' => ?_
    unfold keyOut concat
    rw [fips_k]
    exact hsk'
  · refine (pack_pk_runs (ht.mono (by norm_num)) hρ hρl hpk).mono fun pk' hpk' => ?_
    unfold keyOut concat keyT
    rw [fips_k]
    exact hpk'

attribute [local irreducible] poly_frommsg

theorem enc_uv_runsO {p : ParamSet} {fuel : Nat} {m : Mem UInt8} {mo : Nat} {pk : Mem UInt8} {po : Nat} {coins : Mem UInt8} {co : Nat} {ek M r : List UInt8}
    (hm : m.Holds mo M) (hml : M.length = 32) (hpk : pk.Holds po ek) (hpkl : ek.length = KYBER_INDCPA_PUBLICKEYBYTES p) (hr : coins.Holds co r) (hrl : r.length = 32) :
    RunsO (indcpa_enc_uv p fuel m mo pk po coins co) (K_PKE_Encrypt (fips p) (iters fuel) ek M r) fun o s =>
      ∀ c : Mem UInt8, KYBER_INDCPA_BYTES p ≤ c.size → Runs (pack_ciphertext p c s.1 s.2) fun c' => c.Wrote c' 0 o := by
  have hz : KYBER_INDCPA_PUBLICKEYBYTES p = 384 * KYBER_K p + 32 := by
    unfold KYBER_INDCPA_PUBLICKEYBYTES KYBER_POLYVECBYTES KYBER_POLYBYTES KYBER_SYMBYTES; omega
  rw [K_PKE_Encrypt_eq, fips_k]
  refine runsO_map ?_
  unfold indcpa_enc_uv
  dsimp only
  refine Runs.bindO (unpack_pk_runs (vecSz_uninit p) (Mem.size_uninit _) hpk hpkl) fun s hs => ?_
  obtain ⟨pkpv, seed⟩ := s
  obtain ⟨hpkpv, hseed⟩ := hs
  dsimp only at hpkpv hseed ⊢
  refine Runs.bindO (frommsg_uninit hm hml) fun k hk => ?_
  have hρ : bytes ek (384 * KYBER_K p) (384 * KYBER_K p + 32) = slice ek (384 * KYBER_K p) 32 := by
    rw [bytes_slice, Nat.add_sub_cancel_left]
  have hpkpv' : VecR (KYBER_K p) pkpv (encT ek) 4095 := hpkpv.congr fun i _ => by
    unfold encT; rw [bytes_slice, show 384 * (i + 1) - 384 * i = 384 from by omega]
  rw [hρ]
  refine (gen_matrix_runsO true (matSz_uninit p) hseed (length_slice (by omega))).bindR fun A a hA => ?_
  simp only [if_true] at hA
  rw [runs_bind]
  refine (noiseloop_runs (n0 := 0) (g := noise (fips p).η₁ r) (op := fun q n => poly_getnoise_eta1 p q coins co n) (vecSz_uninit p)
    (fun q n hq => getnoise_eta1_runs hq hr hrl n) fun i s => rfl).mono fun s hs => ?_
  obtain ⟨sp, nonce⟩ := s
  obtain ⟨hs1, hs2⟩ := hs
  dsimp only at hs1 hs2 ⊢
  subst hs2
  rw [Nat.zero_add, runs_bind]
  refine (noiseloop_runs (n0 := KYBER_K p) (g := noise 2 r) (op := fun q n => poly_getnoise_eta2 q coins co n) (vecSz_uninit p)
    (fun q n hq => getnoise_eta2_runs hq hr hrl n) fun i s => rfl).mono fun s hs => ?_
  obtain ⟨ep, nonce⟩ := s
  obtain ⟨hep, hs2⟩ := hs
  dsimp only at hep hs2 ⊢
  subst hs2
  rw [runs_bind]
  refine (getnoise_eta2_runs poly_uninit_size hr hrl (KYBER_K p + KYBER_K p)).mono fun epp hepp => ?_
  rw [runs_bind]
  refine (polyvec_ntt_runs hs1 (by norm_num)).mono fun sp hsp => ?_
  have hsp' : VecR (KYBER_K p) sp (fun i => NTT (noise (fips p).η₁ r i)) 1664 := hsp.congr fun i _ => by rw [Nat.zero_add]
  rw [runs_bind]
  refine (runs_vecloop (g := fun i j => 169 * dotNTT (KYBER_K p) (fun j => A j i) (fun i => NTT (noise (fips p).η₁ r i)) j) (B := 1664) (vecSz_uninit p).size
    fun i m hi hm hfr => ?_).mono fun b hb => ?_
  · obtain ⟨q, hq, hqs⟩ := (vecSz_uninit p).get i hi
    obtain ⟨ai, hai, haiR⟩ := hA.vec hi
    rw [runs_bind, runs_at]
    refine ⟨q, by rw [hfr i (Nat.le_refl _), hq], ?_⟩
    rw [runs_bind, runs_at]
    refine ⟨ai, hai, ?_⟩
    rw [runs_bind]
    refine (polyvec_basemul_acc_runs hqs haiR hsp').mono fun q1 hq1 => ?_
    rw [runs_put]
    exact ⟨by omega, q1, rfl, hq1⟩
  rw [runs_bind]
  refine (polyvec_basemul_acc_runs poly_uninit_size hpkpv' hsp').mono fun v hv => ?_
  rw [runs_bind]
  refine (polyvec_invntt_runs hb (by norm_num)).mono fun b hb => ?_
  rw [runs_bind]
  refine (poly_invntt_runs hv (by norm_num)).mono fun v hv => ?_
  simp only [unmont_apply] at hb hv
  rw [runs_bind]
  refine (polyvec_add_runs hb.sz hb hep (by norm_num)).mono fun b hb => ?_
  rw [runs_bind]
  refine (poly_add_runs hv.size hv hepp (by norm_num)).mono fun v hv => ?_
  rw [runs_bind]
  refine (poly_add_runs hv.size hv hk (by norm_num)).mono fun v hv => ?_
  rw [runs_bind]
  refine (polyvec_reduce_runs hb).mono fun b hb => ?_
  rw [runs_bind]
  refine (poly_reduce_runs hv).mono fun v hv => ?_
  rw [runs_pure]
  intro c hc
  refine (pack_ciphertext_runs (hb.mono (by norm_num)) (hv.mono (by norm_num)) hc).mono fun c' hc' => ?_
  unfold encOut concat encU encV
  rw [fips_k, fips_η₂, Nat.two_mul]
  simp only [Pi.add_apply]
  exact hc'

theorem refPke_spec (p : ParamSet) (fuel : Nat) : PkeSpec (refPke p fuel) p fuel where
  keypair hd hl := keypair_vecs_runsO hd hl
  enc hm hml hpk hpkl hr hrl := enc_uv_runsO hm hml hpk hpkl hr hrl
  dec hc hcl hsk hskl hm := dec_runs rfl hc hcl hsk hskl hm
  verify ha hb := verify_runs ha hb
  cmov hr hx b := cmov_runs hr hx b

end Verif.Proof
