import Verif.Avx.NoiseProof

/-! # avx2/indcpa.c computes K-PKE of FIPS 203 -/

namespace Verif.Avx
open Verif.Spec Verif.Proof
open Verif.Model (ParamSet KYBER_K KYBER_N Poly Polyvec Poly.uninit Polyvec.uninit Matrix.uninit KYBER_SYMBYTES KYBER_INDCPA_PUBLICKEYBYTES KYBER_INDCPA_SECRETKEYBYTES
  KYBER_INDCPA_BYTES KYBER_POLYVECBYTES KYBER_POLYBYTES KYBER_POLYVECCOMPRESSEDBYTES KYBER_POLYCOMPRESSEDBYTES)

theorem PolyQ.congr {r : Mem Int16} {f g : Nat → Zq} (h : PolyQ r f) (hfg : ∀ i, i < 256 → f i = g i) : PolyQ r g :=
  ⟨h.size, fun i hi => hfg i hi ▸ h.coef i hi⟩

theorem vecR_P {k : Nat} {v : Polyvec} {f : Nat → Rq} {B : Int} (h : VecR k v f B) : VecP k v fun i q => PolyIs q (ext (f i)) B := ⟨h.size, h.get⟩

theorem pack_pk_runs {p : ParamSet} {r : Mem UInt8} {pk : Polyvec} {f : Nat → Rq} {seed : Mem UInt8} {so : Nat} {ρ : List UInt8}
    (hpk : VecP (KYBER_K p) pk fun i q => PolyQ q (fun m => ext (f i) (nttIdx m))) (hs : seed.Holds so ρ) (hρ : ρ.length = 32)
    (hr : KYBER_INDCPA_PUBLICKEYBYTES p ≤ r.size) :
    Runs (pack_pk p r pk seed so) (fun r' => r.Wrote r' 0 (((List.range (KYBER_K p)).flatMap fun i => ByteEncode12 (f i)) ++ ρ)) := by
  unfold pack_pk
  have hz : KYBER_INDCPA_PUBLICKEYBYTES p = 384 * KYBER_K p + 32 := by
    unfold KYBER_INDCPA_PUBLICKEYBYTES KYBER_POLYVECBYTES KYBER_POLYBYTES KYBER_SYMBYTES; omega
  have hz' : KYBER_POLYVECBYTES p = 384 * KYBER_K p := by unfold KYBER_POLYVECBYTES KYBER_POLYBYTES; omega
  rw [runs_bind]
  refine (polyvec_tobytes_runs hpk (by omega)).mono fun r1 h1 => ?_
  refine (runs_memcpy_str hs hρ (by rw [h1.size, hz']; omega)).mono fun r2 h2 => ?_
  refine h1.append ?_
  rw [flatMap_length (w := 384) (L := fun i => ByteEncode12 (f i)) fun i => byteEncode_length 12 _]
  rwa [hz', ← Nat.zero_add (384 * KYBER_K p)] at h2

theorem unpack_pk_runs {p : ParamSet} {pk : Polyvec} {seed : Mem UInt8} {r : Mem UInt8} {po : Nat} {B : List UInt8} (hpk : VecSz (KYBER_K p) pk)
    (hseed : seed.size = 32) (hr : r.Holds po B) (hB : B.length = KYBER_INDCPA_PUBLICKEYBYTES p) :
    Runs (unpack_pk p pk seed r po) (fun s => VecV (KYBER_K p) s.1 (fun i => ByteDecode12 (slice B (384 * i) 384)) 4095 ∧
      s.2.Holds 0 (slice B (384 * KYBER_K p) 32)) := by
  unfold unpack_pk
  have hz : KYBER_INDCPA_PUBLICKEYBYTES p = 384 * KYBER_K p + 32 := by
    unfold KYBER_INDCPA_PUBLICKEYBYTES KYBER_POLYVECBYTES KYBER_POLYBYTES KYBER_SYMBYTES; omega
  have hz' : KYBER_POLYVECBYTES p = 384 * KYBER_K p := by unfold KYBER_POLYVECBYTES KYBER_POLYBYTES; omega
  simp only [runs_bind, hz', show KYBER_SYMBYTES = 32 from rfl]
  refine (polyvec_frombytes_runs (B := slice B 0 (384 * KYBER_K p)) hpk (by simpa using hr.slice 0 (384 * KYBER_K p) (by omega)) (length_slice (by omega))).mono fun pk' hpk' => ?_
  refine (runs_memcpy_str (hr.slice (384 * KYBER_K p) 32 (by omega)) (length_slice (by omega)) (by rw [hseed])).mono fun s hs => ?_
  rw [runs_pure]
  refine ⟨hpk'.mono fun i q hi hq => ?_, hs.holds⟩
  dsimp only at hq ⊢
  rwa [slice_slice (by omega), Nat.zero_add] at hq

theorem pack_ciphertext_runs {p : ParamSet} {r : Mem UInt8} {b : Polyvec} {v : Poly} {f : Nat → Rq} {g : Rq}
    (hb : VecP (KYBER_K p) b fun i q => PolyQ q (ext (f i))) (hv : PolyQ v (ext g)) (hr : KYBER_INDCPA_BYTES p ≤ r.size) :
    Runs (pack_ciphertext p r b v) (fun r' => r.Wrote r' 0
      (((List.range (KYBER_K p)).flatMap fun i => ByteEncode (fips p).du fun j => Compress (fips p).du (f i j)) ++
        ByteEncode (fips p).dv fun j => Compress (fips p).dv (g j))) := by
  unfold pack_ciphertext
  have hz : KYBER_INDCPA_BYTES p = KYBER_POLYVECCOMPRESSEDBYTES p + KYBER_POLYCOMPRESSEDBYTES p := rfl
  have hsp : spill p ≤ KYBER_POLYCOMPRESSEDBYTES p := by cases p <;> decide
  have hu : KYBER_POLYVECCOMPRESSEDBYTES p = 32 * (fips p).du * KYBER_K p := by cases p <;> rfl
  have hw : KYBER_POLYCOMPRESSEDBYTES p = 32 * (fips p).dv := by cases p <;> rfl
  rw [runs_bind]
  refine (polyvec_compress_runs hb (by omega)).mono fun r1 h1 => ?_
  obtain ⟨h1s, h1h, h1f⟩ := h1
  refine (poly_compress_runs hv (by rw [h1s]; omega)).mono fun r2 h2 => ?_
  have hl := flatMap_length (w := 32 * (fips p).du) (n := KYBER_K p) (L := fun i => ByteEncode (fips p).du fun j => Compress (fips p).du (f i j))
    fun i => byteEncode_length _ _
  have hl2 := byteEncode_length (fips p).dv fun j => Compress (fips p).dv (g j)
  refine ⟨h2.size.trans h1s, ?_, fun j hj => ?_⟩
  · rw [Mem.Holds.append, hl, ← hu, Nat.zero_add]
    refine ⟨fun j hj => ?_, h2.holds⟩
    rw [h2.frame _ (by omega)]
    exact h1h j hj
  · rw [List.length_append, hl, hl2] at hj
    rw [h2.frame _ (by rw [hl2]; omega), h1f _ (by omega)]

theorem unpack_ciphertext_runs {p : ParamSet} {b : Polyvec} {v : Poly} {c : Mem UInt8} {B : List UInt8} (hb : VecSz (KYBER_K p) b)
    (hv : v.size = 256) (hc : c.Holds 0 B) (hB : B.length = KYBER_INDCPA_BYTES p) :
    Runs (unpack_ciphertext p b v c) (fun s =>
      VecR (KYBER_K p) s.1 (fun i j => Decompress (fips p).du (ByteDecode (fips p).du (slice B (32 * (fips p).du * i) (32 * (fips p).du)) j)) 3329 ∧
      PolyR s.2 (fun i => Decompress (fips p).dv (ByteDecode (fips p).dv (slice B (32 * (fips p).du * KYBER_K p) (32 * (fips p).dv)) i)) 3329) := by
  unfold unpack_ciphertext
  have hz : KYBER_INDCPA_BYTES p = KYBER_POLYVECCOMPRESSEDBYTES p + KYBER_POLYCOMPRESSEDBYTES p := rfl
  have ho : over p ≤ KYBER_POLYCOMPRESSEDBYTES p := by cases p <;> decide
  have hu : KYBER_POLYVECCOMPRESSEDBYTES p = 32 * (fips p).du * KYBER_K p := by cases p <;> rfl
  have hw : KYBER_POLYCOMPRESSEDBYTES p = 32 * (fips p).dv := by cases p <;> rfl
  simp only [runs_bind]
  refine (polyvec_decompress_runs (B := B) hb hc (by omega)).mono fun b' hb' => ?_
  refine (poly_decompress_runs (B := slice B (32 * (fips p).du * KYBER_K p) (32 * (fips p).dv)) hv ?_ (by rw [length_slice (by omega), hw])).mono fun v' hv' => ?_
  · have := hc.slice (32 * (fips p).du * KYBER_K p) (32 * (fips p).dv) (by omega)
    rw [Nat.zero_add] at this
    rwa [hu]
  · rw [runs_pure]
    exact ⟨hb', hv'⟩

/-! ## Key generation -/

theorem keypair_runsO {p : ParamSet} {junk : Nat → Fin 4 → Nat → UInt8} {fuel : Nat} {pk sk coins : Mem UInt8} {d : List UInt8} (hd : coins.Holds 0 d) (hl : d.length = 32)
    (hpk : KYBER_INDCPA_PUBLICKEYBYTES p ≤ pk.size) (hsk : KYBER_INDCPA_SECRETKEYBYTES p ≤ sk.size) :
    RunsO (indcpa_keypair_derand p junk fuel pk sk coins) (K_PKE_KeyGen (fips p) (iters fuel) d)
      (fun o s => pk.Wrote s.1 0 o.1 ∧ sk.Wrote s.2 0 o.2) := by
  rw [K_PKE_KeyGen_eq, fips_k]
  refine runsO_map ?_
  unfold indcpa_keypair_derand
  dsimp only
  have hsym : KYBER_SYMBYTES = 32 := rfl
  rw [hsym]
  refine Runs.bindO (runs_memcpy_str (dst := Mem.uninit UInt8 (2 * 32)) hd hl (by rw [Mem.size_uninit]; omega)) fun b1 hb1 => ?_
  refine Runs.bindO (runs_wr_str (i := 32) (UInt8.ofNat (KYBER_K p)) (by rw [hb1.size, Mem.size_uninit]; omega)) fun b2 hb2 => ?_
  have hb2' : (Mem.uninit UInt8 (2 * 32)).Wrote b2 0 (d ++ [UInt8.ofNat (KYBER_K p)]) := hb1.append (by rwa [hl, Nat.zero_add])
  refine Runs.bindO (hash_g_runs (h := b2) (ho := 0) hb2'.holds (by rw [List.length_append, hl]; rfl) (by rw [hb2'.size, Mem.size_uninit])) fun b3 hb3 => ?_
  obtain ⟨_, hρ, hσ⟩ := hb3
  have hρl := G_fst_length (d ++ [UInt8.ofNat (KYBER_K p)])
  have hσl := G_snd_length (d ++ [UInt8.ofNat (KYBER_K p)])
  generalize (G (d ++ [UInt8.ofNat (KYBER_K p)])).1 = ρ at *
  generalize (G (d ++ [UInt8.ofNat (KYBER_K p)])).2 = σ at *
  rw [Nat.zero_add] at hσ
  refine (gen_matrix_runsO false (matSz_uninit p) hρ hρl).bindR fun A a hA => ?_
  simp only [Bool.false_eq_true, if_false] at hA
  rw [runs_bind]
  refine (keypair_noise_runs hσ hσl (vecSz_uninit p) (vecSz_uninit p) (vecSz_uninit p)).mono fun s hs => ?_
  obtain ⟨skpv, e, pkpv0⟩ := s
  obtain ⟨hs1, hs2, hs3⟩ := hs
  dsimp only at hs1 hs2 hs3 ⊢
  rw [runs_bind]
  refine (polyvec_ntt_runs (hs1.mono (by norm_num))).mono fun skpv hsk1 => ?_
  rw [runs_bind]
  refine (polyvec_reduce_runs hsk1).mono fun skpv hsk1 => ?_
  rw [runs_bind]
  refine (polyvec_ntt_runs (hs2.mono (by norm_num))).mono fun e he1 => ?_
  have hsk2 : VecV (KYBER_K p) skpv (keyS (fips p) σ) 3329 := hsk1.mono fun i q _ hq => hq.is
  rw [runs_bind]
  refine (runs_vloop (P := fun i q => PolyV q (dotNTT (KYBER_K p) (A i) (keyS (fips p) σ)) 2341) hs3.size fun i m hi hm hfr => ?_).mono fun pkpv hpkpv => ?_
  · obtain ⟨q, hq, hqs⟩ := hs3.get i hi
    obtain ⟨ai, hai, haiR⟩ := hA.vec hi
    rw [runs_bind, runs_at]
    refine ⟨q, by rw [hfr i (Nat.le_refl _), hq], ?_⟩
    rw [runs_bind, runs_at]
    refine ⟨ai, hai, ?_⟩
    rw [runs_bind]
    refine (polyvec_basemul_acc_runs hqs haiR hsk2 (fun h1 h2 h3 => poly_basemul_q h1 h2 h3 (Or.inl (le_refl _))) (by norm_num)).mono fun q1 hq1 => ?_
    rw [runs_bind, runs_put]
    refine ⟨by omega, ?_⟩
    rw [runs_bind, runs_at]
    refine ⟨q1, arr_set_self (by omega), ?_⟩
    rw [runs_bind]
    refine (poly_tomont_runs hq1).mono fun q2 hq2 => ?_
    rw [runs_put]
    refine ⟨by rw [Array.size_setIfInBounds]; omega, q2, by rw [Array.setIfInBounds_setIfInBounds], ?_⟩
    exact hq2.congr fun m hm => by rw [ext_lt _ (nttIdx_lt hm), ext_lt _ (nttIdx_lt hm), zq_169]
  rw [runs_bind]
  refine (polyvec_add_runs hpkpv he1 (by norm_num)).mono fun t ht => ?_
  rw [runs_bind]
  refine (polyvec_reduce_runs ht).mono fun t ht => ?_
  rw [runs_bind]
  refine (polyvec_tobytes_runs (f := keyS (fips p) σ) hsk1 (by
    unfold KYBER_INDCPA_SECRETKEYBYTES KYBER_POLYVECBYTES KYBER_POLYBYTES at hsk; omega)).mono fun sk' hsk' => ?_
  rw [runs_bind]
  refine (pack_pk_runs (f := keyT (fips p) A σ) (ht.mono fun i q _ hq => hq.congr fun m hm => ?_) hρ hρl hpk).mono fun pk' hpk' => ?_
  · rw [ext_lt _ (nttIdx_lt hm), ext_lt _ (nttIdx_lt hm), ext_lt _ (nttIdx_lt hm)]
    unfold keyT
    rw [fips_k, Pi.add_apply]
  rw [runs_pure]
  refine ⟨?_, ?_⟩
  · unfold keyOut concat
    rw [fips_k]
    exact hpk'
  · unfold keyOut concat
    rw [fips_k]
    exact hsk'

/-! ## Encryption -/

theorem frommsg_uninit {m : Mem UInt8} {mo : Nat} {M : List UInt8} (hm : m.Holds mo M) (hl : M.length = 32) :
    Runs (poly_frommsg Poly.uninit m mo) (fun r' => PolyR r' (fun i => Decompress 1 (ByteDecode 1 M i)) 1665) := by
  have hu := poly_uninit_size
  generalize Poly.uninit = u at hu ⊢
  exact poly_frommsg_runs hu hm hl

theorem enc_runsO {p : ParamSet} {junk : Nat → Fin 4 → Nat → UInt8} {fuel : Nat} {c m : Mem UInt8} {mo : Nat} {pk : Mem UInt8} {po : Nat} {coins : Mem UInt8} {co : Nat} {ek M r : List UInt8}
    (hm : m.Holds mo M) (hml : M.length = 32) (hpk : pk.Holds po ek) (hpkl : ek.length = KYBER_INDCPA_PUBLICKEYBYTES p) (hr : coins.Holds co r) (hrl : r.length = 32)
    (hc : KYBER_INDCPA_BYTES p ≤ c.size) :
    RunsO (indcpa_enc p junk fuel c m mo pk po coins co) (K_PKE_Encrypt (fips p) (iters fuel) ek M r) (fun o s => c.Wrote s 0 o) := by
  have hz : KYBER_INDCPA_PUBLICKEYBYTES p = 384 * KYBER_K p + 32 := by
    unfold KYBER_INDCPA_PUBLICKEYBYTES KYBER_POLYVECBYTES KYBER_POLYBYTES KYBER_SYMBYTES; omega
  obtain ⟨hk1, hk4⟩ := KYBER_K_pos p
  rw [K_PKE_Encrypt_eq, fips_k]
  refine runsO_map ?_
  unfold indcpa_enc
  dsimp only
  refine Runs.bindO (unpack_pk_runs (vecSz_uninit p) (Mem.size_uninit _) hpk hpkl) fun s hs => ?_
  obtain ⟨pkpv, seed⟩ := s
  obtain ⟨hpkpv, hseed⟩ := hs
  dsimp only at hpkpv hseed ⊢
  refine Runs.bindO (frommsg_uninit hm hml) fun k hk => ?_
  have hρ : bytes ek (384 * KYBER_K p) (384 * KYBER_K p + 32) = slice ek (384 * KYBER_K p) 32 := by
    rw [bytes_slice, Nat.add_sub_cancel_left]
  have hpkpv' : VecV (KYBER_K p) pkpv (encT ek) 4095 := hpkpv.mono fun i q _ hq => by
    unfold encT; rw [bytes_slice, show 384 * (i + 1) - 384 * i = 384 from by omega]; exact hq
  rw [hρ]
  refine (gen_matrix_runsO true (matSz_uninit p) hseed (length_slice (by omega))).bindR fun A a hA => ?_
  simp only [if_true] at hA
  rw [runs_bind]
  refine (enc_noise_runs hr hrl (vecSz_uninit p) (vecSz_uninit p) (vecSz_uninit p) poly_uninit_size).mono fun s hs => ?_
  obtain ⟨sp, ep, b0, epp⟩ := s
  obtain ⟨hs1, hep, hb0, hepp⟩ := hs
  dsimp only at hs1 hep hb0 hepp ⊢
  rw [runs_bind]
  refine (polyvec_ntt_runs (hs1.mono (by norm_num))).mono fun sp hsp => ?_
  rw [runs_bind]
  refine (runs_vloop (P := fun i q => PolyV q (fun j => 169 * dotNTT (KYBER_K p) (fun j => A j i) (fun i => NTT (noise (fips p).η₁ r i)) j) (6656 * KYBER_K p)) hb0.size
    fun i m hi hm hfr => ?_).mono fun b hb => ?_
  · obtain ⟨q, hq, hqs⟩ := hb0.get i hi
    obtain ⟨ai, hai, haiR⟩ := hA.vec hi
    rw [runs_bind, runs_at]
    refine ⟨q, by rw [hfr i (Nat.le_refl _), hq], ?_⟩
    rw [runs_bind, runs_at]
    refine ⟨ai, hai, ?_⟩
    rw [runs_bind]
    refine (polyvec_basemul_acc_runs hqs haiR hsp (fun h1 h2 h3 => poly_basemul_q h1 h2 h3 (Or.inl (le_refl _))) (by norm_num)).mono fun q1 hq1 => ?_
    rw [runs_put]
    exact ⟨by omega, q1, rfl, hq1⟩
  rw [runs_bind]
  refine (polyvec_basemul_acc_runs (M := 2 * 2671) poly_uninit_size hpkpv' hsp
    (fun h1 h2 h3 => poly_basemul_R h1 h2 h3 (by norm_num) (by norm_num) (by norm_num)) (by norm_num)).mono fun v hv => ?_
  rw [runs_bind]
  refine (polyvec_invntt_runs hb).mono fun b hb => ?_
  rw [runs_bind]
  refine (poly_invntt_R hv).mono fun v hv => ?_
  simp only [unmont_apply] at hb hv
  rw [runs_bind]
  refine (polyvec_add_runs hb (vecR_P hep) (by norm_num)).mono fun b hb => ?_
  rw [runs_bind]
  refine (poly_add_runs hv hepp (by norm_num)).mono fun v hv => ?_
  rw [runs_bind]
  refine (poly_add_runs hv hk (by norm_num)).mono fun v hv => ?_
  rw [runs_bind]
  refine (polyvec_reduce_runs hb).mono fun b hb => ?_
  rw [runs_bind]
  refine (poly_reduce_runs hv).mono fun v hv => ?_
  refine (pack_ciphertext_runs (f := encU (fips p) A r) (g := encV (fips p) (encT ek) M r) (hb.mono fun i q _ hq => hq.congr fun m hm => ?_)
    (hv.congr fun m hm => ?_) hc).mono fun c' hc' => ?_
  · rw [ext_lt _ hm, ext_lt _ hm, ext_lt _ hm]
    unfold encU
    rw [fips_k, fips_η₂, Pi.add_apply]
  · rw [ext_lt _ hm, ext_lt _ hm, ext_lt _ hm, ext_lt _ hm]
    unfold encV
    rw [fips_k, fips_η₂, Nat.two_mul, Pi.add_apply, Pi.add_apply]
  unfold encOut concat
  rw [fips_k]
  exact hc'

/-! ## Decryption -/

theorem indcpa_dec_runs {p : ParamSet} {m : Mem UInt8} {mo : Nat} {c sk : Mem UInt8} {so : Nat} {ct dk : List UInt8} (hso : so = 0) (hc : c.Holds 0 ct) (hcl : ct.length = KYBER_INDCPA_BYTES p)
    (hsk : sk.Holds so dk) (hskl : dk.length = KYBER_INDCPA_SECRETKEYBYTES p) (hm : mo + 32 ≤ m.size) :
    Runs (indcpa_dec p m mo c sk) (fun s => m.Wrote s mo (K_PKE_Decrypt (fips p) dk ct)) := by
  subst hso
  unfold indcpa_dec
  rw [runs_bind]
  refine (unpack_ciphertext_runs (vecSz_uninit p) poly_uninit_size hc hcl).mono fun s hs => ?_
  obtain ⟨b, v⟩ := s
  obtain ⟨hb, hv⟩ := hs
  dsimp only at hb hv ⊢
  rw [runs_bind]
  refine (polyvec_frombytes_runs (vecSz_uninit p) hsk (by
    rw [hskl]; unfold KYBER_INDCPA_SECRETKEYBYTES KYBER_POLYVECBYTES KYBER_POLYBYTES; omega)).mono fun skpv hskpv => ?_
  rw [runs_bind]
  refine (polyvec_ntt_runs hb).mono fun b hb => ?_
  rw [runs_bind]
  refine (polyvec_basemul_acc_runs (M := 2 * 2671) poly_uninit_size hskpv hb
    (fun h1 h2 h3 => poly_basemul_R h1 h2 h3 (by norm_num) (by norm_num) (by norm_num)) (by norm_num)).mono fun mp hmp => ?_
  rw [runs_bind]
  refine (poly_invntt_R hmp).mono fun mp hmp => ?_
  simp only [unmont_apply] at hmp
  rw [runs_bind]
  refine (poly_sub_runs hmp hv (by norm_num)).mono fun mp hmp => ?_
  rw [runs_bind]
  refine (poly_reduce_runs hmp).mono fun mp hmp => ?_
  refine (poly_tomsg_runs (f := fun i => Decompress (fips p).dv (ByteDecode (fips p).dv (slice ct (32 * (fips p).du * KYBER_K p) (32 * (fips p).dv)) i) -
        NTTInv (dotNTT (KYBER_K p) (fun i => ByteDecode12 (slice dk (384 * i) 384)) fun i => NTT fun j => Decompress (fips p).du (ByteDecode (fips p).du
          (slice ct (32 * (fips p).du * i) (32 * (fips p).du)) j)) i) (hmp.congr fun i hi => ?_) hm).mono fun s hs => ?_
  · rw [ext_lt _ hi, ext_lt _ hi, ext_lt _ hi]
  rw [K_PKE_Decrypt_eq p dk ct]
  exact hs

end Verif.Avx
