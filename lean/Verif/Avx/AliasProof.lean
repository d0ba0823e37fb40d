import Verif.Avx.Alias
import Verif.Avx.KemProof
import Verif.Proof.Alias

/-! # The AVX2 build satisfies what the KEM calls in one memory need -/

namespace Verif.Avx
open Verif.Spec Verif.Proof
open Verif.Model (ParamSet KYBER_K KYBER_N Poly Polyvec Poly.uninit Polyvec.uninit Matrix.uninit KYBER_SYMBYTES KYBER_INDCPA_PUBLICKEYBYTES KYBER_INDCPA_SECRETKEYBYTES
  KYBER_INDCPA_BYTES KYBER_POLYVECBYTES KYBER_POLYBYTES KYBER_POLYVECCOMPRESSEDBYTES KYBER_POLYCOMPRESSEDBYTES)

/-- `indcpa_keypair_derand` is the part before `pack_sk` followed by the packing. -/
theorem indcpa_keypair_cut (p : ParamSet) (junk : Nat → Fin 4 → Nat → UInt8) (fuel : Nat) (pk sk coins : Mem UInt8) : indcpa_keypair_derand p junk fuel pk sk coins = (do
    let (skpv, pkpv, buf) ← indcpa_keypair_vecs p junk fuel coins
    let sk ← polyvec_tobytes p sk 0 skpv
    let pk ← pack_pk p pk pkpv buf 0
    pure (pk, sk)) := by
  unfold indcpa_keypair_derand indcpa_keypair_vecs
  dsimp only
  repeat (first
    | (rw [bind_assoc]; refine bind_congr fun s => ?_)
    | (rw [pure_bind])
    | rfl)

/-- `indcpa_enc` is the part before `pack_ciphertext` followed by the packing. -/
theorem indcpa_enc_cut (p : ParamSet) (junk : Nat → Fin 4 → Nat → UInt8) (fuel : Nat) (c m : Mem UInt8) (mo : Nat) (pk : Mem UInt8) (po : Nat) (coins : Mem UInt8) (co : Nat) :
    indcpa_enc p junk fuel c m mo pk po coins co = (do
    let (b, v) ← indcpa_enc_uv p junk fuel m mo pk po coins co
    pack_ciphertext p c b v) := by
  unfold indcpa_enc indcpa_enc_uv
  dsimp only
  repeat (first
    | (rw [bind_assoc]; refine bind_congr fun s => ?_)
    | (rw [pure_bind])
    | rfl)

theorem keypair_vecs_runsO {p : ParamSet} {junk : Nat → Fin 4 → Nat → UInt8} {fuel : Nat} {coins : Mem UInt8} {d : List UInt8} (hd : coins.Holds 0 d) (hl : d.length = 32) :
    RunsO (indcpa_keypair_vecs p junk fuel coins) (K_PKE_KeyGen (fips p) (iters fuel) d) fun o s =>
      (∀ r : Mem UInt8, KYBER_INDCPA_SECRETKEYBYTES p ≤ r.size → Runs (polyvec_tobytes p r 0 s.1) fun r' => r.Wrote r' 0 o.2) ∧
      ∀ r : Mem UInt8, KYBER_INDCPA_PUBLICKEYBYTES p ≤ r.size → Runs (pack_pk p r s.2.1 s.2.2 0) fun r' => r.Wrote r' 0 o.1 := by
  rw [K_PKE_KeyGen_eq, fips_k]
  refine runsO_map ?_
  unfold indcpa_keypair_vecs
  dsimp only
  have hsym : KYBER_SYMBYTES = 32 := rfl
  rw [hsym]
  refine Runs.bindO (runs_memcpy_str (dst := Mem.uninit UInt8 (2 * 32)) hd hl (by rw [Mem.size_uninit]; omega)) fun b1 hb1 => ?_
  refine Runs.bindO (runs_wr_str (i := 32) (UInt8.ofNat (KYBER_K p)) (by rw [hb1.size, Mem.size_uninit]; omega)) fun b2 hb2 => ?_
  have hb2' : (Mem.uninit UInt8 (2 * 32)).Wrote b2 0 (d ++ [UInt8.ofNat (KYBER_K p)]) := hb1.append (by rwa [hl, Nat.zero_add])
  refine Runs.bindO (hash_g_runs (h := b2) (ho := 0) hb2'.holds (by rw [List.length_append, hl]; rfl) (by rw [hb2'.size, Mem.size_uninit])) fun b3 hb3 => ?_
  obtain ⟨_, hρ, hσ⟩ := hb3
  have hρl := G_fst_length (d ++ [UInt8.ofNat (KYBER_K p)])
  have hσl := G_snd_length (d ++ [UInt8.ofNat (KYBER_K p)])
  generalize (G (d ++ [UInt8.ofNat (KYBER_K p)])).1 = ρ at *
  generalize (G (d ++ [UInt8.ofNat (KYBER_K p)])).2 = σ at *
  rw [Nat.zero_add] at hσ
  refine (gen_matrix_runsO false (matSz_uninit p) hρ hρl).bindR fun A a hA => ?_
  simp only [Bool.false_eq_true, if_false] at hA
  rw [runs_bind]
  refine (keypair_noise_runs hσ hσl (vecSz_uninit p) (vecSz_uninit p) (vecSz_uninit p)).mono fun s hs => ?_
  obtain ⟨skpv, e, pkpv0⟩ := s
  obtain ⟨hs1, hs2, hs3⟩ := hs
  dsimp only at hs1 hs2 hs3 ⊢
  rw [runs_bind]
  refine (polyvec_ntt_runs (hs1.mono (by norm_num))).mono fun skpv hsk1 => ?_
  rw [runs_bind]
  refine (polyvec_reduce_runs hsk1).mono fun skpv hsk1 => ?_
  rw [runs_bind]
  refine (polyvec_ntt_runs (hs2.mono (by norm_num))).mono fun e he1 => ?_
  have hsk2 : VecV (KYBER_K p) skpv (keyS (fips p) σ) 3329 := hsk1.mono fun i q _ hq => hq.is
  rw [runs_bind]
  refine (runs_vloop (P := fun i q => PolyV q (dotNTT (KYBER_K p) (A i) (keyS (fips p) σ)) 2341) hs3.size fun i m hi hm hfr => ?_).mono fun pkpv hpkpv => ?_
  · obtain ⟨q, hq, hqs⟩ := hs3.get i hi
    obtain ⟨ai, hai, haiR⟩ := hA.vec hi
    rw [runs_bind, runs_at]
    refine ⟨q, by rw [hfr i (Nat.le_refl _), hq], ?_⟩
    rw [runs_bind, runs_at]
    refine ⟨ai, hai, ?_⟩
    rw [runs_bind]
    refine (polyvec_basemul_acc_runs hqs haiR hsk2 (fun h1 h2 h3 => poly_basemul_q h1 h2 h3 (Or.inl (le_refl _))) (by norm_num)).mono fun q1 hq1 => ?_
    rw [runs_bind, runs_put]
    refine ⟨by omega, ?_⟩
    rw [runs_bind, runs_at]
    refine ⟨q1, arr_set_self (by omega), ?_⟩
    rw [runs_bind]
    refine (poly_tomont_runs hq1).mono fun q2 hq2 => ?_
    rw [runs_put]
    refine ⟨by rw [Array.size_setIfInBounds]; omega, q2, by rw [Array.setIfInBounds_setIfInBounds], ?_⟩
    exact hq2.congr fun m hm => by rw [ext_lt _ (nttIdx_lt hm), ext_lt _ (nttIdx_lt hm), zq_169]
  rw [runs_bind]
  refine (polyvec_add_runs hpkpv he1 (by norm_num)).mono fun t ht => ?_
  rw [runs_bind]
  refine (polyvec_reduce_runs ht).mono fun t ht => ?_
  rw [runs_pure]
  refine ⟨fun sk hsk => ?_, fun pk hpk => ?_⟩
  · refine (polyvec_tobytes_runs (f := keyS (fips p) σ) hsk1 (by
      unfold KYBER_INDCPA_SECRETKEYBYTES KYBER_POLYVECBYTES KYBER_POLYBYTES at hsk; omega)).mono fun sk' hsk' => ?_
    unfold keyOut concat
    rw [fips_k]
    exact hsk'
  · refine (pack_pk_runs (f := keyT (fips p) A σ) (ht.mono fun i q _ hq => hq.congr fun m hm => ?_) hρ hρl hpk).mono fun pk' hpk' => ?_
    · rw [ext_lt _ (nttIdx_lt hm), ext_lt _ (nttIdx_lt hm), ext_lt _ (nttIdx_lt hm)]
      unfold keyT
      rw [fips_k, Pi.add_apply]
    unfold keyOut concat
    rw [fips_k]
    exact hpk'

theorem enc_uv_runsO {p : ParamSet} {junk : Nat → Fin 4 → Nat → UInt8} {fuel : Nat} {m : Mem UInt8} {mo : Nat} {pk : Mem UInt8} {po : Nat} {coins : Mem UInt8} {co : Nat} {ek M r : List UInt8}
    (hm : m.Holds mo M) (hml : M.length = 32) (hpk : pk.Holds po ek) (hpkl : ek.length = KYBER_INDCPA_PUBLICKEYBYTES p) (hr : coins.Holds co r) (hrl : r.length = 32) :
    RunsO (indcpa_enc_uv p junk fuel m mo pk po coins co) (K_PKE_Encrypt (fips p) (iters fuel) ek M r) fun o s =>
      ∀ c : Mem UInt8, KYBER_INDCPA_BYTES p ≤ c.size → Runs (pack_ciphertext p c s.1 s.2) fun c' => c.Wrote c' 0 o := by
  have hz : KYBER_INDCPA_PUBLICKEYBYTES p = 384 * KYBER_K p + 32 := by
    unfold KYBER_INDCPA_PUBLICKEYBYTES KYBER_POLYVECBYTES KYBER_POLYBYTES KYBER_SYMBYTES; omega
  obtain ⟨hk1, hk4⟩ := KYBER_K_pos p
  rw [K_PKE_Encrypt_eq, fips_k]
  refine runsO_map ?_
  unfold indcpa_enc_uv
  dsimp only
  refine Runs.bindO (unpack_pk_runs (vecSz_uninit p) (Mem.size_uninit _) hpk hpkl) fun s hs => ?_
  obtain ⟨pkpv, seed⟩ := s
  obtain ⟨hpkpv, hseed⟩ := hs
  dsimp only at hpkpv hseed ⊢
  refine Runs.bindO (frommsg_uninit hm hml) fun k hk => ?_
  have hρ : bytes ek (384 * KYBER_K p) (384 * KYBER_K p + 32) = slice ek (384 * KYBER_K p) 32 := by
    rw [bytes_slice, Nat.add_sub_cancel_left]
  have hpkpv' : VecV (KYBER_K p) pkpv (encT ek) 4095 := hpkpv.mono fun i q _ hq => by
    unfold encT; rw [bytes_slice, show 384 * (i + 1) - 384 * i = 384 from by omega]; exact hq
  rw [hρ]
  refine (gen_matrix_runsO true (matSz_uninit p) hseed (length_slice (by omega))).bindR fun A a hA => ?_
  simp only [if_true] at hA
  rw [runs_bind]
  refine (enc_noise_runs hr hrl (vecSz_uninit p) (vecSz_uninit p) (vecSz_uninit p) poly_uninit_size).mono fun s hs => ?_
  obtain ⟨sp, ep, b0, epp⟩ := s
  obtain ⟨hs1, hep, hb0, hepp⟩ := hs
  dsimp only at hs1 hep hb0 hepp ⊢
  rw [runs_bind]
  refine (polyvec_ntt_runs (hs1.mono (by norm_num))).mono fun sp hsp => ?_
  rw [runs_bind]
  refine (runs_vloop (P := fun i q => PolyV q (fun j => 169 * dotNTT (KYBER_K p) (fun j => A j i) (fun i => NTT (noise (fips p).η₁ r i)) j) (6656 * KYBER_K p)) hb0.size
    fun i m hi hm hfr => ?_).mono fun b hb => ?_
  · obtain ⟨q, hq, hqs⟩ := hb0.get i hi
    obtain ⟨ai, hai, haiR⟩ := hA.vec hi
    rw [runs_bind, runs_at]
    refine ⟨q, by rw [hfr i (Nat.le_refl _), hq], ?_⟩
    rw [runs_bind, runs_at]
    refine ⟨ai, hai, ?_⟩
    rw [runs_bind]
    refine (polyvec_basemul_acc_runs hqs haiR hsp (fun h1 h2 h3 => poly_basemul_q h1 h2 h3 (Or.inl (le_refl _))) (by norm_num)).mono fun q1 hq1 => ?_
    rw [runs_put]
    exact ⟨by omega, q1, rfl, hq1⟩
  rw [runs_bind]
  refine (polyvec_basemul_acc_runs (M := 2 * 2671) poly_uninit_size hpkpv' hsp
    (fun h1 h2 h3 => poly_basemul_R h1 h2 h3 (by norm_num) (by norm_num) (by norm_num)) (by norm_num)).mono fun v hv => ?_
  rw [runs_bind]
  refine (polyvec_invntt_runs hb).mono fun b hb => ?_
  rw [runs_bind]
  refine (poly_invntt_R hv).mono fun v hv => ?_
  simp only [unmont_apply] at hb hv
  rw [runs_bind]
  refine (polyvec_add_runs hb (vecR_P hep) (by norm_num)).mono fun b hb => ?_
  rw [runs_bind]
  refine (poly_add_runs hv hepp (by norm_num)).mono fun v hv => ?_
  rw [runs_bind]
  refine (poly_add_runs hv hk (by norm_num)).mono fun v hv => ?_
  rw [runs_bind]
  refine (polyvec_reduce_runs hb).mono fun b hb => ?_
  rw [runs_bind]
  refine (poly_reduce_runs hv).mono fun v hv => ?_
  rw [runs_pure]
  intro c hc
  refine (pack_ciphertext_runs (f := encU (fips p) A r) (g := encV (fips p) (encT ek) M r) (hb.mono fun i q _ hq => hq.congr fun m hm => ?_)
    (hv.congr fun m hm => ?_) hc).mono fun c' hc' => ?_
  · rw [ext_lt _ hm, ext_lt _ hm, ext_lt _ hm]
    unfold encU
    rw [fips_k, fips_η₂, Pi.add_apply]
  · rw [ext_lt _ hm, ext_lt _ hm, ext_lt _ hm, ext_lt _ hm]
    unfold encV
    rw [fips_k, fips_η₂, Nat.two_mul, Pi.add_apply, Pi.add_apply]
  unfold encOut concat
  rw [fips_k]
  exact hc'

theorem avxPke_spec (p : ParamSet) (junk : Nat → Fin 4 → Nat → UInt8) (fuel : Nat) : Verif.Proof.PkeSpec (avxPke p junk fuel) p fuel where
  keypair hd hl := keypair_vecs_runsO hd hl
  enc hm hml hpk hpkl hr hrl := enc_uv_runsO hm hml hpk hpkl hr hrl
  dec hc hcl hsk hskl hm := indcpa_dec_runs rfl hc hcl hsk hskl hm
  verify ha hb := verify_runs ha hb
  cmov hr hx b := cmov_runs hr hx b

end Verif.Avx
