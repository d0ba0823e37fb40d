import Verif.Proof.GenMatrix
import Verif.Proof.Roundtrip
import Verif.Proof.Cbd

/-! # indcpa.c computes K-PKE of FIPS 203 -/

namespace Verif.Proof
open Verif.Model Verif.Spec

theorem fips_k (p : ParamSet) : (fips p).k = KYBER_K p := by cases p <;> rfl
theorem fips_η₂ (p : ParamSet) : (fips p).η₂ = 2 := by cases p <;> rfl

theorem bytes_slice (B : List UInt8) (a b : Nat) : bytes B a b = slice B a (b - a) := rfl

/-! ## Noise -/

theorem getnoise_eta1_runs {p : ParamSet} {r : Poly} {seed : Mem UInt8} {so : Nat} {σ : List UInt8} (hr : r.size = 256) (hs : seed.Holds so σ)
    (hl : σ.length = 32) (n : Nat) : Runs (poly_getnoise_eta1 p r seed so (UInt8.ofNat n)) (fun q => PolyR q (noise (fips p).η₁ σ n) 3) := by
  unfold poly_getnoise_eta1
  have e : KYBER_ETA1 p * KYBER_N / 4 = 64 * (fips p).η₁ := by cases p <;> rfl
  dsimp only
  rw [e, runs_bind]
  refine (prf_runs hs hl _ (by rw [Mem.size_uninit]; omega)).mono fun b hb => ?_
  exact poly_cbd_eta1_runs hr hb.holds (SHAKE256_length ..)

theorem getnoise_eta2_runs {r : Poly} {seed : Mem UInt8} {so : Nat} {σ : List UInt8} (hr : r.size = 256) (hs : seed.Holds so σ)
    (hl : σ.length = 32) (n : Nat) : Runs (poly_getnoise_eta2 r seed so (UInt8.ofNat n)) (fun q => PolyR q (noise 2 σ n) 3) := by
  unfold poly_getnoise_eta2
  have e : KYBER_ETA2 * KYBER_N / 4 = 128 := rfl
  dsimp only
  rw [e, runs_bind]
  refine (prf_runs hs hl _ (by rw [Mem.size_uninit])).mono fun b hb => ?_
  exact poly_cbd_eta2_runs hr hb.holds (SHAKE256_length ..)

theorem ofNat8_succ (n : Nat) : UInt8.ofNat n + 1 = UInt8.ofNat (n + 1) := by
  apply UInt8.toNat_inj.mp
  simp [UInt8.toNat_add]

/-- A loop sampling the components of a vector with consecutive nonces. -/
theorem noiseloop_runs {k n0 : Nat} {v : Polyvec} {g : Nat → Rq} {op : Poly → UInt8 → C Poly} (hv : VecSz k v)
    (h : ∀ q n, q.size = 256 → Runs (op q (UInt8.ofNat n)) (fun q' => PolyR q' (g n) 3)) {body : Nat → Polyvec × UInt8 → C (Polyvec × UInt8)}
    (hb : ∀ i s, body i s = (do let q ← at' s.1 i; let q ← op q s.2; let v ← put' s.1 i q; pure (v, s.2 + 1))) :
    Runs (cfor 0 k (v, UInt8.ofNat n0) body) (fun s => VecR k s.1 (fun i => g (n0 + i)) 3 ∧ s.2 = UInt8.ofNat (n0 + k)) := by
  refine (runs_cfor (fun i (s : Polyvec × UInt8) => s.1.size = k ∧ (∀ j, i ≤ j → s.1[j]? = v[j]?) ∧
    (∀ j, j < i → ∃ q, s.1[j]? = some q ∧ PolyR q (g (n0 + j)) 3) ∧ s.2 = UInt8.ofNat (n0 + i))
    (Nat.zero_le _) ⟨hv.size, fun _ _ => rfl, fun j hj => by omega, rfl⟩ ?_).mono fun m ⟨h1, _, h2, h3⟩ => ⟨⟨h1, h2⟩, h3⟩
  rintro i ⟨m, nonce⟩ _ hi ⟨hs, hf, hc, hn⟩
  dsimp only at hs hf hc hn
  rw [hb]
  dsimp only
  subst hn
  obtain ⟨q, hq, hqs⟩ := hv.get i hi
  rw [runs_bind, runs_at]
  refine ⟨q, by rw [hf i (Nat.le_refl _), hq], ?_⟩
  rw [runs_bind]
  refine (h q (n0 + i) hqs).mono fun q' hq' => ?_
  rw [runs_bind, runs_put]
  refine ⟨by omega, ?_⟩
  rw [runs_pure]
  refine ⟨by rw [Array.size_setIfInBounds]; exact hs, fun j hj => ?_, fun j hj => ?_, ofNat8_succ _⟩
  · dsimp only; rw [Array.getElem?_setIfInBounds_ne (by omega)]; exact hf j (by omega)
  · by_cases hji : j = i
    · subst hji; exact ⟨q', arr_set_self (by omega), hq'⟩
    · dsimp only; rw [Array.getElem?_setIfInBounds_ne (by omega)]; exact hc j (by omega)

/-! ## Key generation -/

theorem G_fst_length (M : List UInt8) : (G M).1.length = 32 := by
  show ((SHA3_512 M).take 32).length = 32
  rw [List.length_take, SHA3_512_length]; omega

theorem G_snd_length (M : List UInt8) : (G M).2.length = 32 := by
  show ((SHA3_512 M).drop 32).length = 32
  rw [List.length_drop, SHA3_512_length]

theorem G_append (M : List UInt8) : SHA3_512 M = (G M).1 ++ (G M).2 := (List.take_append_drop 32 _).symm

/-- `hash_g` writes the two halves of G. -/
theorem hash_g_runs {h : Mem UInt8} {ho : Nat} {inp : Mem UInt8} {io inlen : Nat} {M : List UInt8} (hM : inp.Holds io M)
    (hn : M.length = inlen) (hs : ho + 64 ≤ h.size) : Runs (hash_g h ho inp io inlen) (fun h' => h'.size = h.size ∧ h'.Holds ho (G M).1 ∧ h'.Holds (ho + 32) (G M).2) := by
  refine (sha3_512_runs hM hn hs).mono fun h' hw => ⟨hw.size, ?_⟩
  have := hw.holds
  rw [G_append, Mem.Holds.append, G_fst_length] at this
  exact this

/-- The vectors of key generation and what is output. -/
def keyS (P : Params) (σ : List UInt8) (i : Nat) : Rq := NTT (noise P.η₁ σ i)
def keyT (P : Params) (A : Nat → Nat → Rq) (σ : List UInt8) (i : Nat) : Rq := dotNTT P.k (A i) (keyS P σ) + NTT (noise P.η₁ σ (P.k + i))

def keyOut (P : Params) (ρ σ : List UInt8) (A : Nat → Nat → Rq) : List UInt8 × List UInt8 :=
  (concat P.k (fun i => ByteEncode12 (keyT P A σ i)) ++ ρ, concat P.k (fun i => ByteEncode12 (keyS P σ i)))

theorem K_PKE_KeyGen_eq (P : Params) (N : Nat) (d : List UInt8) :
    K_PKE_KeyGen P N d = (ExpandA P.k N (G (d ++ [UInt8.ofNat P.k])).1).map
      (keyOut P (G (d ++ [UInt8.ofNat P.k])).1 (G (d ++ [UInt8.ofNat P.k])).2) := by
  unfold K_PKE_KeyGen
  generalize G (d ++ [UInt8.ofNat P.k]) = g
  obtain ⟨ρ, σ⟩ := g
  dsimp only
  cases ExpandA P.k N ρ <;> rfl

theorem zq_169 (x : Zq) : 65536 * (169 * x) = x := by
  rw [← mul_assoc, mul_comm (65536 : Zq) 169, zq_inv_R, one_mul]

theorem keypair_runsO {p : ParamSet} {fuel : Nat} {pk sk coins : Mem UInt8} {d : List UInt8} (hd : coins.Holds 0 d) (hl : d.length = 32)
    (hpk : KYBER_INDCPA_PUBLICKEYBYTES p ≤ pk.size) (hsk : KYBER_INDCPA_SECRETKEYBYTES p ≤ sk.size) :
    RunsO (indcpa_keypair_derand p fuel pk sk coins) (K_PKE_KeyGen (fips p) (iters fuel) d)
      (fun o s => pk.Wrote s.1 0 o.1 ∧ sk.Wrote s.2 0 o.2) := by
  rw [K_PKE_KeyGen_eq, fips_k]
  refine runsO_map ?_
  unfold indcpa_keypair_derand
  dsimp only
  have hsym : KYBER_SYMBYTES = 32 := rfl
  rw [hsym]
  refine Runs.bindO (runs_memcpy_str (dst := Mem.uninit UInt8 (2 * 32)) hd hl (by rw [Mem.size_uninit]; omega)) fun b1 hb1 => ?_
  refine Runs.bindO (runs_wr_str (i := 32) (UInt8.ofNat (KYBER_K p)) (by rw [hb1.size, Mem.size_uninit]; omega)) fun b2 hb2 => ?_
  have hb2' : (Mem.uninit UInt8 (2 * 32)).Wrote b2 0 (d ++ [UInt8.ofNat (KYBER_K p)]) := hb1.append (by rwa [hl, Nat.zero_add])
  refine Runs.bindO (hash_g_runs (h := b2) (ho := 0) hb2'.holds (by rw [List.length_append, hl]; rfl) (by rw [hb2'.size, Mem.size_uninit])) fun b3 hb3 => ?_
  obtain ⟨_, hρ, hσ⟩ := hb3
  have hρl := G_fst_length (d ++ [UInt8.ofNat (KYBER_K p)])
  have hσl := G_snd_length (d ++ [UInt8.ofNat (KYBER_K p)])
  generalize (G (d ++ [UInt8.ofNat (KYBER_K p)])).1 = ρ at *
  generalize (G (d ++ [UInt8.ofNat (KYBER_K p)])).2 = σ at *
  rw [Nat.zero_add] at hσ
  refine (gen_matrix_runsO false (matSz_uninit p) hρ hρl).bindR fun A a hA => ?_
  simp only [Bool.false_eq_true, if_false] at hA
  rw [runs_bind]
  refine (noiseloop_runs (n0 := 0) (g := noise (fips p).η₁ σ) (op := fun q n => poly_getnoise_eta1 p q b3 32 n) (vecSz_uninit p)
    (fun q n hq => getnoise_eta1_runs hq hσ hσl n) fun i s => rfl).mono fun s hs => ?_
  obtain ⟨skpv, nonce⟩ := s
  obtain ⟨hs1, hs2⟩ := hs
  dsimp only at hs1 hs2 ⊢
  subst hs2
  rw [Nat.zero_add, runs_bind]
  refine (noiseloop_runs (n0 := KYBER_K p) (g := noise (fips p).η₁ σ) (op := fun q n => poly_getnoise_eta1 p q b3 32 n) (vecSz_uninit p)
    (fun q n hq => getnoise_eta1_runs hq hσ hσl n) fun i s => rfl).mono fun s hs => ?_
  obtain ⟨e, nonce⟩ := s
  obtain ⟨he, _⟩ := hs
  dsimp only at he ⊢
  rw [runs_bind]
  refine (polyvec_ntt_runs hs1 (by norm_num)).mono fun skpv hsk1 => ?_
  rw [runs_bind]
  refine (polyvec_ntt_runs he (by norm_num)).mono fun e he1 => ?_
  have hsk2 : VecR (KYBER_K p) skpv (keyS (fips p) σ) 1664 := hsk1.congr fun i _ => by unfold keyS; rw [Nat.zero_add]
  rw [runs_bind]
  refine (runs_vecloop (g := fun i => dotNTT (KYBER_K p) (A i) (keyS (fips p) σ)) (B := 2497) (vecSz_uninit p).size fun i m hi hm hfr => ?_).mono fun pkpv hpkpv => ?_
  · obtain ⟨q, hq, hqs⟩ := (vecSz_uninit p).get i hi
    obtain ⟨ai, hai, haiR⟩ := hA.vec hi
    rw [runs_bind, runs_at]
    refine ⟨q, by rw [hfr i (Nat.le_refl _), hq], ?_⟩
    rw [runs_bind, runs_at]
    refine ⟨ai, hai, ?_⟩
    rw [runs_bind]
    refine (polyvec_basemul_acc_runs hqs haiR hsk2).mono fun q1 hq1 => ?_
    rw [runs_bind, runs_put]
    refine ⟨by omega, ?_⟩
    rw [runs_bind, runs_at]
    refine ⟨q1, arr_set_self (by omega), ?_⟩
    rw [runs_bind]
    refine (poly_tomont_runs hq1).mono fun q2 hq2 => ?_
    rw [runs_put]
    refine ⟨by rw [Array.size_setIfInBounds]; omega, q2, by rw [Array.setIfInBounds_setIfInBounds], ?_⟩
    simp only [zq_169] at hq2
    exact hq2
  rw [runs_bind]
  refine (polyvec_add_runs hpkpv.sz hpkpv he1 (by norm_num)).mono fun t ht => ?_
  rw [runs_bind]
  refine (polyvec_reduce_runs ht).mono fun t ht => ?_
  rw [runs_bind]
  unfold pack_sk
  refine (polyvec_tobytes_runs (hsk2.mono (by norm_num)) (by
    unfold KYBER_INDCPA_SECRETKEYBYTES KYBER_POLYVECBYTES KYBER_POLYBYTES at hsk; omega)).mono fun sk' hsk' => ?_
  rw [runs_bind]
  refine (pack_pk_runs (ht.mono (by norm_num)) hρ hρl hpk).mono fun pk' hpk' => ?_
  rw [runs_pure]
  refine ⟨?_, ?_⟩
  · unfold keyOut concat keyT
    rw [fips_k]
    exact hpk'
  · unfold keyOut concat
    rw [fips_k]
    exact hsk'

/-! ## Encryption -/

theorem nttInv_smul (c : Zq) (g : Rq) (i : Fin 256) : NTTInv (fun j => c * g j) i = c * NTTInv g i := by
  unfold NTTInv
  dsimp only
  have : ∀ x : Fin 128, c * g ⟨2 * x.val + i.val % 2, by omega⟩ * root x ^ (256 - i.val / 2) = c * (g ⟨2 * x.val + i.val % 2, by omega⟩ * root x ^ (256 - i.val / 2)) :=
    fun x => by ring
  rw [Finset.sum_congr rfl fun x _ => this x, ← Finset.mul_sum]
  ring

theorem unmont (g : Rq) : (fun i => 65536 * NTTInv (fun j => 169 * g j) i) = NTTInv g := by
  funext i
  rw [nttInv_smul, zq_169]

theorem unmont_apply (g : Rq) (i : Fin 256) : 65536 * NTTInv (fun j => 169 * g j) i = NTTInv g i := congrFun (unmont g) i

/-- u and v of encryption and the ciphertext. -/
def encU (P : Params) (A : Nat → Nat → Rq) (r : List UInt8) (i : Nat) : Rq :=
  NTTInv (dotNTT P.k (fun j => A j i) fun i => NTT (noise P.η₁ r i)) + noise P.η₂ r (P.k + i)
def encV (P : Params) (t : Nat → Rq) (m r : List UInt8) : Rq :=
  NTTInv (dotNTT P.k t fun i => NTT (noise P.η₁ r i)) + noise P.η₂ r (2 * P.k) + fun i => Decompress 1 (ByteDecode 1 m i)

def encT (ek : List UInt8) (i : Nat) : Rq := ByteDecode12 (bytes ek (384 * i) (384 * (i + 1)))

def encOut (P : Params) (ek m r : List UInt8) (A : Nat → Nat → Rq) : List UInt8 :=
  concat P.k (fun i => ByteEncode P.du fun j => Compress P.du (encU P A r i j)) ++ ByteEncode P.dv fun j => Compress P.dv (encV P (encT ek) m r j)

theorem K_PKE_Encrypt_eq (P : Params) (N : Nat) (ek m r : List UInt8) :
    K_PKE_Encrypt P N ek m r = (ExpandA P.k N (bytes ek (384 * P.k) (384 * P.k + 32))).map (encOut P ek m r) := by
  unfold K_PKE_Encrypt
  dsimp only
  cases ExpandA P.k N (bytes ek (384 * P.k) (384 * P.k + 32)) <;> rfl

theorem frommsg_uninit {m : Mem UInt8} {mo : Nat} {M : List UInt8} (hm : m.Holds mo M) (hl : M.length = 32) :
    Runs (poly_frommsg Poly.uninit m mo) (fun r' => PolyR r' (fun i => Decompress 1 (ByteDecode 1 M i)) 1665) := by
  have hu := poly_uninit_size
  generalize Poly.uninit = u at hu ⊢
  exact poly_frommsg_runs hu hm hl

attribute [local irreducible] poly_frommsg

theorem enc_runsO {p : ParamSet} {fuel : Nat} {c m : Mem UInt8} {mo : Nat} {pk : Mem UInt8} {po : Nat} {coins : Mem UInt8} {co : Nat} {ek M r : List UInt8}
    (hm : m.Holds mo M) (hml : M.length = 32) (hpk : pk.Holds po ek) (hpkl : ek.length = KYBER_INDCPA_PUBLICKEYBYTES p) (hr : coins.Holds co r) (hrl : r.length = 32)
    (hc : KYBER_INDCPA_BYTES p ≤ c.size) :
    RunsO (indcpa_enc p fuel c m mo pk po coins co) (K_PKE_Encrypt (fips p) (iters fuel) ek M r) (fun o s => c.Wrote s 0 o) := by
  have hz : KYBER_INDCPA_PUBLICKEYBYTES p = 384 * KYBER_K p + 32 := by
    unfold KYBER_INDCPA_PUBLICKEYBYTES KYBER_POLYVECBYTES KYBER_POLYBYTES KYBER_SYMBYTES; omega
  rw [K_PKE_Encrypt_eq, fips_k]
  refine runsO_map ?_
  unfold indcpa_enc
  dsimp only
  refine Runs.bindO (unpack_pk_runs (vecSz_uninit p) (Mem.size_uninit _) hpk hpkl) fun s hs => ?_
  obtain ⟨pkpv, seed⟩ := s
  obtain ⟨hpkpv, hseed⟩ := hs
  dsimp only at hpkpv hseed ⊢
  refine Runs.bindO (frommsg_uninit hm hml) fun k hk => ?_
  have hρ : bytes ek (384 * KYBER_K p) (384 * KYBER_K p + 32) = slice ek (384 * KYBER_K p) 32 := by
    rw [bytes_slice, Nat.add_sub_cancel_left]
  have hpkpv' : VecR (KYBER_K p) pkpv (encT ek) 4095 := hpkpv.congr fun i _ => by
    unfold encT; rw [bytes_slice, show 384 * (i + 1) - 384 * i = 384 from by omega]
  rw [hρ]
  refine (gen_matrix_runsO true (matSz_uninit p) hseed (length_slice (by omega))).bindR fun A a hA => ?_
  simp only [if_true] at hA
  rw [runs_bind]
  refine (noiseloop_runs (n0 := 0) (g := noise (fips p).η₁ r) (op := fun q n => poly_getnoise_eta1 p q coins co n) (vecSz_uninit p)
    (fun q n hq => getnoise_eta1_runs hq hr hrl n) fun i s => rfl).mono fun s hs => ?_
  obtain ⟨sp, nonce⟩ := s
  obtain ⟨hs1, hs2⟩ := hs
  dsimp only at hs1 hs2 ⊢
  subst hs2
  rw [Nat.zero_add, runs_bind]
  refine (noiseloop_runs (n0 := KYBER_K p) (g := noise 2 r) (op := fun q n => poly_getnoise_eta2 q coins co n) (vecSz_uninit p)
    (fun q n hq => getnoise_eta2_runs hq hr hrl n) fun i s => rfl).mono fun s hs => ?_
  obtain ⟨ep, nonce⟩ := s
  obtain ⟨hep, hs2⟩ := hs
  dsimp only at hep hs2 ⊢
  subst hs2
  rw [runs_bind]
  refine (getnoise_eta2_runs poly_uninit_size hr hrl (KYBER_K p + KYBER_K p)).mono fun epp hepp => ?_
  rw [runs_bind]
  refine (polyvec_ntt_runs hs1 (by norm_num)).mono fun sp hsp => ?_
  have hsp' : VecR (KYBER_K p) sp (fun i => NTT (noise (fips p).η₁ r i)) 1664 := hsp.congr fun i _ => by rw [Nat.zero_add]
  rw [runs_bind]
  refine (runs_vecloop (g := fun i j => 169 * dotNTT (KYBER_K p) (fun j => A j i) (fun i => NTT (noise (fips p).η₁ r i)) j) (B := 1664) (vecSz_uninit p).size
    fun i m hi hm hfr => ?_).mono fun b hb => ?_
  · obtain ⟨q, hq, hqs⟩ := (vecSz_uninit p).get i hi
    obtain ⟨ai, hai, haiR⟩ := hA.vec hi
    rw [runs_bind, runs_at]
    refine ⟨q, by rw [hfr i (Nat.le_refl _), hq], ?_⟩
    rw [runs_bind, runs_at]
    refine ⟨ai, hai, ?_⟩
    rw [runs_bind]
    refine (polyvec_basemul_acc_runs hqs haiR hsp').mono fun q1 hq1 => ?_
    rw [runs_put]
    exact ⟨by omega, q1, rfl, hq1⟩
  rw [runs_bind]
  refine (polyvec_basemul_acc_runs poly_uninit_size hpkpv' hsp').mono fun v hv => ?_
  rw [runs_bind]
  refine (polyvec_invntt_runs hb (by norm_num)).mono fun b hb => ?_
  rw [runs_bind]
  refine (poly_invntt_runs hv (by norm_num)).mono fun v hv => ?_
  simp only [unmont_apply] at hb hv
  rw [runs_bind]
  refine (polyvec_add_runs hb.sz hb hep (by norm_num)).mono fun b hb => ?_
  rw [runs_bind]
  refine (poly_add_runs hv.size hv hepp (by norm_num)).mono fun v hv => ?_
  rw [runs_bind]
  refine (poly_add_runs hv.size hv hk (by norm_num)).mono fun v hv => ?_
  rw [runs_bind]
  refine (polyvec_reduce_runs hb).mono fun b hb => ?_
  rw [runs_bind]
  refine (poly_reduce_runs hv).mono fun v hv => ?_
  refine (pack_ciphertext_runs (hb.mono (by norm_num)) (hv.mono (by norm_num)) hc).mono fun c' hc' => ?_
  unfold encOut concat encU encV
  rw [fips_k, fips_η₂, Nat.two_mul]
  simp only [Pi.add_apply]
  exact hc'

/-! ## Decryption -/

theorem ct_size (p : ParamSet) : KYBER_INDCPA_BYTES p = 32 * (fips p).du * KYBER_K p + 32 * (fips p).dv := by cases p <;> rfl

theorem K_PKE_Decrypt_eq (p : ParamSet) (dk ct : List UInt8) : K_PKE_Decrypt (fips p) dk ct = ByteEncode 1 fun i => Compress 1
    ((fun i => Decompress (fips p).dv (ByteDecode (fips p).dv (slice ct (32 * (fips p).du * KYBER_K p) (32 * (fips p).dv)) i)) i -
      NTTInv (dotNTT (KYBER_K p) (fun i => ByteDecode12 (slice dk (384 * i) 384)) fun i => NTT fun j => Decompress (fips p).du (ByteDecode (fips p).du
        (slice ct (32 * (fips p).du * i) (32 * (fips p).du)) j)) i) := by
  have hk := fips_k p
  have e1 : ∀ i, bytes dk (384 * i) (384 * (i + 1)) = slice dk (384 * i) 384 := fun i => by rw [bytes_slice]; congr 1; omega
  have e2 : ∀ i, i < KYBER_K p → bytes (bytes ct 0 (32 * (fips p).du * KYBER_K p)) (32 * (fips p).du * i) (32 * (fips p).du * (i + 1)) =
      slice ct (32 * (fips p).du * i) (32 * (fips p).du) := fun i hi => by
    have hle : 32 * (fips p).du * (i + 1) ≤ 32 * (fips p).du * KYBER_K p := Nat.mul_le_mul_left _ hi
    rw [Nat.mul_add, Nat.mul_one] at hle ⊢
    rw [bytes_slice, bytes_slice, slice_slice (by omega), Nat.zero_add, Nat.add_sub_cancel_left]
  have e3 : bytes ct (32 * (fips p).du * KYBER_K p) (32 * ((fips p).du * KYBER_K p + (fips p).dv)) =
      slice ct (32 * (fips p).du * KYBER_K p) (32 * (fips p).dv) := by
    rw [bytes_slice, Nat.mul_add, ← Nat.mul_assoc, Nat.add_sub_cancel_left]
  unfold K_PKE_Decrypt
  dsimp only
  rw [hk, e3]
  simp only [e1]
  refine congrArg _ (funext fun i => congrArg _ ?_)
  rw [Pi.sub_apply]
  refine congrArg _ (congrFun (congrArg NTTInv ?_) i)
  unfold dotNTT
  funext t
  refine Finset.sum_congr rfl fun j hj => ?_
  dsimp only
  rw [e2 j (Finset.mem_range.mp hj)]

theorem dec_runs {p : ParamSet} {m : Mem UInt8} {mo : Nat} {c sk : Mem UInt8} {so : Nat} {ct dk : List UInt8} (hso : so = 0) (hc : c.Holds 0 ct) (hcl : ct.length = KYBER_INDCPA_BYTES p)
    (hsk : sk.Holds so dk) (hskl : dk.length = KYBER_INDCPA_SECRETKEYBYTES p) (hm : mo + 32 ≤ m.size) :
    Runs (indcpa_dec p m mo c sk) (fun s => m.Wrote s mo (K_PKE_Decrypt (fips p) dk ct)) := by
  subst hso
  unfold indcpa_dec
  rw [runs_bind]
  refine (unpack_ciphertext_runs (vecSz_uninit p) poly_uninit_size hc hcl).mono fun s hs => ?_
  obtain ⟨b, v⟩ := s
  obtain ⟨hb, hv⟩ := hs
  dsimp only at hb hv ⊢
  rw [runs_bind]
  unfold unpack_sk
  refine (polyvec_frombytes_runs (vecSz_uninit p) hsk (by
    rw [hskl]; unfold KYBER_INDCPA_SECRETKEYBYTES KYBER_POLYVECBYTES KYBER_POLYBYTES; omega)).mono fun skpv hskpv => ?_
  rw [runs_bind]
  refine (polyvec_ntt_runs hb (by norm_num)).mono fun b hb => ?_
  rw [runs_bind]
  refine (polyvec_basemul_acc_runs poly_uninit_size hskpv hb).mono fun mp hmp => ?_
  rw [runs_bind]
  refine (poly_invntt_runs hmp (by norm_num)).mono fun mp hmp => ?_
  simp only [unmont_apply] at hmp
  rw [runs_bind]
  refine (poly_sub_runs hmp.size hv hmp (by norm_num)).mono fun mp hmp => ?_
  rw [runs_bind]
  refine (poly_reduce_runs hmp).mono fun mp hmp => ?_
  refine (poly_tomsg_runs hmp hm).mono fun s hs => ?_
  rw [K_PKE_Decrypt_eq p dk ct]
  exact hs

end Verif.Proof
