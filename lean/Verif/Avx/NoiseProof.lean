import Verif.Avx.GenProof
import Verif.Proof.Indcpa

/-! # The four-way noise sampling of avx2/poly.c and its use in avx2/indcpa.c -/

namespace Verif.Avx
open Verif.Spec Verif.Proof
open Verif.Model (ParamSet KYBER_K KYBER_N Poly Polyvec SHAKE256_RATE KYBER_ETA2)

theorem rate256 : SHAKE256_RATE = 136 := rfl

theorem noise4_runs {p : ParamSet} {junk : Fin 4 → Nat → UInt8} {seed : Mem UInt8} {so : Nat} {σ : List UInt8} (hs : seed.Holds so σ) (hl : σ.length = 32)
    (nonce : Fin 4 → UInt8) :
    Runs (noise4 p junk seed so nonce) (fun b => ∀ j, (b j).Holds 0 (SHAKE256 (σ ++ [nonce j]) (NOISE_NBLOCKS p * 136))) := by
  have hn : 136 ≤ NOISE_NBLOCKS p * 136 := by cases p <;> decide
  unfold noise4
  dsimp only
  rw [rate256]
  generalize NOISE_NBLOCKS p = n at *
  rw [runs_bind]
  refine (loadu_runs (f := fun i => σ.getD i 0) fun i hi => hs.getElem? 0 (by omega)).mono fun f hf => ?_
  subst hf
  rw [runs_bind]
  refine (each4_runs (Q := fun j b => (Mem.uninit UInt8 (n * 136)).Wrote b 0 σ) fun j => ?_).mono fun b1 hb1 => ?_
  · refine (storeu_runs (m := Mem.uninit UInt8 (n * 136)) (o := 0) (f := fun i => σ.getD i 0) (by rw [Mem.size_uninit]; omega)).mono fun b hb => ?_
    exact hb.wrote_of hl fun i h => by rw [List.getD_eq_getElem?_getD, List.getElem?_eq_getElem h, Option.getD_some]
  rw [runs_bind]
  refine (each4_runs (Q := fun j b => (Mem.uninit UInt8 (n * 136)).Wrote b 0 (σ ++ [nonce j])) fun j => ?_).mono fun b2 hb2 => ?_
  · refine (runs_wr_str (i := 32) (nonce j) (by rw [(hb1 j).size, Mem.size_uninit]; omega)).mono fun b hb => ?_
    exact (hb1 j).append (by rwa [hl, Nat.zero_add])
  rw [runs_bind]
  refine (shake256x4_absorb_once_runs (Mem.size_uninit _) (fun j => (hb2 j).holds) (fun j => by rw [List.length_append, hl]; rfl)
    (fun j => by rw [(hb2 j).size, Mem.size_uninit]; unfold gathered; omega)).mono fun st hst => ?_
  rw [runs_bind]
  refine (shake256x4_squeezeblocks_runs (oo := 0) (nblocks := n) hst (fun j => by rw [(hb2 j).size, Mem.size_uninit]; omega)).mono fun v hv => ?_
  obtain ⟨b3, st'⟩ := v
  dsimp only
  rw [runs_pure]
  intro j
  rw [SHAKE256_eq]
  have := (hv.1 j).holds
  rwa [Nat.zero_mul] at this

theorem SHAKE256_prefix (M : List UInt8) {m n i : Nat} (h : m ≤ n) (hi : i < m) : (SHAKE256 M m).getD i 0 = (SHAKE256 M n).getD i 0 := by
  obtain ⟨d, rfl⟩ := Nat.exists_eq_add_of_le h
  rw [SHAKE256_eq, SHAKE256_eq, kout_add, List.getD_eq_getElem?_getD, List.getD_eq_getElem?_getD, List.getElem?_append_left (by rw [kout_length]; exact hi)]

theorem cbd1_noise {p : ParamSet} {r : Poly} {buf : Mem UInt8} {σ : List UInt8} {n : Nat} (hr : r.size = 256)
    (hb : buf.Holds 0 (SHAKE256 (σ ++ [UInt8.ofNat n]) (NOISE_NBLOCKS p * 136))) :
    Runs (poly_cbd_eta1 p r buf) (fun q => PolyR q (noise (fips p).η₁ σ n) 3) := by
  refine poly_cbd_eta1_runs (b := fun i => (SHAKE256 (σ ++ [UInt8.ofNat n]) (NOISE_NBLOCKS p * 136)).getD i 0) hr (fun i hi => ?_) (SHAKE256_length ..) fun i hi => ?_
  · refine hb.getElem? 0 ?_
    rw [SHAKE256_length]
    have : (if p = .k2 then 200 else 128) ≤ NOISE_NBLOCKS p * 136 := by cases p <;> decide
    omega
  · unfold PRF at hi ⊢
    rw [SHAKE256_length] at hi
    exact SHAKE256_prefix _ (by cases p <;> decide) hi

theorem cbd2_noise {p : ParamSet} {r : Poly} {buf : Mem UInt8} {σ : List UInt8} {n : Nat} (hr : r.size = 256)
    (hb : buf.Holds 0 (SHAKE256 (σ ++ [UInt8.ofNat n]) (NOISE_NBLOCKS p * 136))) :
    Runs (poly_cbd_eta2 r buf) (fun q => PolyR q (noise 2 σ n) 3) := by
  have hn : 128 ≤ NOISE_NBLOCKS p * 136 := by cases p <;> decide
  refine Runs.mono (cbd2_runs (B := SHAKE256 (σ ++ [UInt8.ofNat n]) 128) hr (fun i hi => ?_) (SHAKE256_length ..)) fun q hq => PolyR.mono hq (by norm_num)
  rw [SHAKE256_length] at hi
  have h1 := hb.getElem? 0 (i := i) (by rw [SHAKE256_length]; omega)
  rw [h1, ← SHAKE256_prefix _ hn hi, List.getD_eq_getElem?_getD, List.getElem?_eq_getElem (by rw [SHAKE256_length]; exact hi), Option.getD_some]

theorem getnoise_eta1_4x_runs {p : ParamSet} {junk : Fin 4 → Nat → UInt8} {r : Fin 4 → Poly} {seed : Mem UInt8} {so : Nat} {σ : List UInt8}
    (hr : ∀ j, (r j).size = 256) (hs : seed.Holds so σ) (hl : σ.length = 32) {n : Fin 4 → Nat} {nonce : Fin 4 → UInt8} (hn : ∀ j, nonce j = UInt8.ofNat (n j)) :
    Runs (poly_getnoise_eta1_4x p junk r seed so nonce) (fun q => ∀ j, PolyR (q j) (noise (fips p).η₁ σ (n j)) 3) := by
  unfold poly_getnoise_eta1_4x
  rw [runs_bind]
  refine (noise4_runs hs hl nonce).mono fun b hb => ?_
  refine each4_runs (Q := fun j q => PolyR q (noise (fips p).η₁ σ (n j)) 3) fun j => cbd1_noise (hr j) ?_
  rw [← hn]; exact hb j

theorem getnoise_eta1122_4x_runs {p : ParamSet} {junk : Fin 4 → Nat → UInt8} {r : Fin 4 → Poly} {seed : Mem UInt8} {so : Nat} {σ : List UInt8}
    (hr : ∀ j, (r j).size = 256) (hs : seed.Holds so σ) (hl : σ.length = 32) {n : Fin 4 → Nat} {nonce : Fin 4 → UInt8} (hn : ∀ j, nonce j = UInt8.ofNat (n j)) :
    Runs (poly_getnoise_eta1122_4x p junk r seed so nonce)
      (fun q => PolyR (q 0) (noise (fips p).η₁ σ (n 0)) 3 ∧ PolyR (q 1) (noise (fips p).η₁ σ (n 1)) 3 ∧
        PolyR (q 2) (noise 2 σ (n 2)) 3 ∧ PolyR (q 3) (noise 2 σ (n 3)) 3) := by
  unfold poly_getnoise_eta1122_4x
  rw [runs_bind]
  refine (noise4_runs (p := p) hs hl nonce).mono fun b hb => ?_
  simp only [hn] at hb
  rw [runs_bind]
  refine (cbd1_noise (hr 0) (hb 0)).mono fun r0 h0 => ?_
  rw [runs_bind]
  refine (cbd1_noise (hr 1) (hb 1)).mono fun r1 h1 => ?_
  rw [runs_bind]
  refine (cbd2_noise (hr 2) (hb 2)).mono fun r2 h2 => ?_
  rw [runs_bind]
  refine (cbd2_noise (hr 3) (hb 3)).mono fun r3 h3 => ?_
  rw [runs_pure]
  exact ⟨h0, h1, h2, h3⟩

theorem getnoise_eta2_avx_runs {r : Poly} {seed : Mem UInt8} {so : Nat} {σ : List UInt8} (hr : r.size = 256) (hs : seed.Holds so σ)
    (hl : σ.length = 32) (n : Nat) : Runs (poly_getnoise_eta2 r seed so (UInt8.ofNat n)) (fun q => PolyR q (noise 2 σ n) 3) := by
  unfold poly_getnoise_eta2
  have e : KYBER_ETA2 * KYBER_N / 4 = 128 := rfl
  dsimp only
  rw [e, runs_bind]
  refine (prf_runs hs hl _ (by rw [Mem.size_uninit])).mono fun b hb => ?_
  exact Runs.mono (cbd2_runs hr hb.holds (SHAKE256_length ..)) fun q hq => PolyR.mono hq (by norm_num)

/-! ## Filling vectors component by component -/

/-- A vector whose components in `D` satisfy `P`. -/
structure VecD (k : Nat) (D : Nat → Prop) (P : Nat → Mem Int16 → Prop) (v : Polyvec) : Prop where
  size : v.size = k
  get : ∀ i, i < k → ∃ q, v[i]? = some q ∧ q.size = 256 ∧ (D i → P i q)

theorem VecSz.toD {k : Nat} {v : Polyvec} (h : VecSz k v) (P : Nat → Mem Int16 → Prop) : VecD k (fun _ => False) P v :=
  ⟨h.size, fun i hi => by obtain ⟨q, h1, h2⟩ := h.get i hi; exact ⟨q, h1, h2, False.elim⟩⟩

theorem VecD.at {k : Nat} {D : Nat → Prop} {P : Nat → Mem Int16 → Prop} {v : Polyvec} (h : VecD k D P v) {i : Nat} (hi : i < k) :
    Runs (at' v i) (fun q => q.size = 256) := by
  obtain ⟨q, h1, h2, _⟩ := h.get i hi
  rw [runs_at]; exact ⟨q, h1, h2⟩

theorem VecD.put {k : Nat} {D : Nat → Prop} {P : Nat → Mem Int16 → Prop} {v : Polyvec} (h : VecD k D P v) {i : Nat} (hi : i < k) {q : Poly}
    (hq : q.size = 256) (hP : P i q) : Runs (put' v i q) (VecD k (fun j => D j ∨ j = i) P) := by
  rw [runs_put]
  have hs := h.size
  refine ⟨by omega, by rw [Array.size_setIfInBounds, hs], fun j hj => ?_⟩
  by_cases hji : j = i
  · subst hji; exact ⟨q, arr_set_self (by omega), hq, fun _ => hP⟩
  · rw [Array.getElem?_setIfInBounds_ne (by omega)]
    obtain ⟨q', h1, h2, h3⟩ := h.get j hj
    exact ⟨q', h1, h2, fun hd => h3 (hd.resolve_right hji)⟩

theorem VecD.toR {k : Nat} {D : Nat → Prop} {f : Nat → Rq} {B : Int} {v : Polyvec} (h : VecD k D (fun i q => PolyR q (f i) B) v) (hD : ∀ i, i < k → D i) : VecR k v f B :=
  ⟨h.size, fun i hi => by obtain ⟨q, h1, _, h3⟩ := h.get i hi; exact ⟨q, h1, h3 (hD i hi)⟩⟩

theorem VecD.sz {k : Nat} {D : Nat → Prop} {P : Nat → Mem Int16 → Prop} {v : Polyvec} (h : VecD k D P v) : VecSz k v :=
  ⟨h.size, fun i hi => by obtain ⟨q, h1, h2, _⟩ := h.get i hi; exact ⟨q, h1, h2⟩⟩

theorem sz4 {a b c d : Poly} (ha : a.size = 256) (hb : b.size = 256) (hc : c.size = 256) (hd : d.size = 256) (j : Fin 4) : (q4 a b c d j).size = 256 := by
  fin_cases j <;> assumption

theorem n0123 (j : Fin 4) : q4 (0 : UInt8) 1 2 3 j = UInt8.ofNat (q4 0 1 2 3 j) := by fin_cases j <;> rfl
theorem n4567 (j : Fin 4) : q4 (4 : UInt8) 5 6 7 j = UInt8.ofNat (q4 4 5 6 7 j) := by fin_cases j <;> rfl

theorem keypair_noise_runs {p : ParamSet} {junk : Nat → Fin 4 → Nat → UInt8} {seed : Mem UInt8} {so : Nat} {σ : List UInt8} {skpv e pkpv : Polyvec}
    (hs : seed.Holds so σ) (hl : σ.length = 32) (h1 : VecSz (KYBER_K p) skpv) (h2 : VecSz (KYBER_K p) e) (h3 : VecSz (KYBER_K p) pkpv) :
    Runs (keypair_noise p junk seed so skpv e pkpv) (fun s => VecR (KYBER_K p) s.1 (noise (fips p).η₁ σ) 3 ∧
      VecR (KYBER_K p) s.2.1 (fun i => noise (fips p).η₁ σ (KYBER_K p + i)) 3 ∧ VecSz (KYBER_K p) s.2.2) := by
  have s1 := VecSz.toD h1 (fun i q => PolyR q (noise (fips p).η₁ σ i) 3)
  have s2 := VecSz.toD h2 (fun i q => PolyR q (noise (fips p).η₁ σ (KYBER_K p + i)) 3)
  have s3 := VecSz.toD h3 (fun i q => True)
  cases p with
  | k2 =>
    simp only [keypair_noise, runs_bind]
    refine (s1.at (i := 0) (by decide)).mono fun a ha => ?_
    refine (s1.at (i := 1) (by decide)).mono fun b hb => ?_
    refine (s2.at (i := 0) (by decide)).mono fun c hc => ?_
    refine (s2.at (i := 1) (by decide)).mono fun d hd => ?_
    refine (getnoise_eta1_4x_runs (sz4 ha hb hc hd) hs hl n0123).mono fun r hr => ?_
    refine (s1.put (i := 0) (by decide) (hr 0).size (hr 0)).mono fun v1 s1 => ?_
    refine (s1.put (i := 1) (by decide) (hr 1).size (hr 1)).mono fun v1 s1 => ?_
    refine (s2.put (i := 0) (by decide) (hr 2).size (hr 2)).mono fun v2 s2 => ?_
    refine (s2.put (i := 1) (by decide) (hr 3).size (hr 3)).mono fun v2 s2 => ?_
    rw [runs_pure]
    exact ⟨s1.toR (by decide), s2.toR (by decide), h3⟩
  | k3 =>
    simp only [keypair_noise, runs_bind]
    refine (s1.at (i := 0) (by decide)).mono fun a ha => ?_
    refine (s1.at (i := 1) (by decide)).mono fun b hb => ?_
    refine (s1.at (i := 2) (by decide)).mono fun c hc => ?_
    refine (s2.at (i := 0) (by decide)).mono fun d hd => ?_
    refine (getnoise_eta1_4x_runs (sz4 ha hb hc hd) hs hl n0123).mono fun r hr => ?_
    refine (s1.put (i := 0) (by decide) (hr 0).size (hr 0)).mono fun v1 s1 => ?_
    refine (s1.put (i := 1) (by decide) (hr 1).size (hr 1)).mono fun v1 s1 => ?_
    refine (s1.put (i := 2) (by decide) (hr 2).size (hr 2)).mono fun v1 s1 => ?_
    refine (s2.put (i := 0) (by decide) (hr 3).size (hr 3)).mono fun v2 s2 => ?_
    refine (s2.at (i := 1) (by decide)).mono fun a ha => ?_
    refine (s2.at (i := 2) (by decide)).mono fun b hb => ?_
    refine (s3.at (i := 0) (by decide)).mono fun c hc => ?_
    refine (s3.at (i := 1) (by decide)).mono fun d hd => ?_
    refine (getnoise_eta1_4x_runs (sz4 ha hb hc hd) hs hl n4567).mono fun r hr => ?_
    refine (s2.put (i := 1) (by decide) (hr 0).size (hr 0)).mono fun v2 s2 => ?_
    refine (s2.put (i := 2) (by decide) (hr 1).size (hr 1)).mono fun v2 s2 => ?_
    refine (s3.put (i := 0) (by decide) (hr 2).size trivial).mono fun v3 s3 => ?_
    refine (s3.put (i := 1) (by decide) (hr 3).size trivial).mono fun v3 s3 => ?_
    rw [runs_pure]
    exact ⟨s1.toR (by decide), s2.toR (by decide), s3.sz⟩
  | k4 =>
    simp only [keypair_noise, runs_bind]
    refine (s1.at (i := 0) (by decide)).mono fun a ha => ?_
    refine (s1.at (i := 1) (by decide)).mono fun b hb => ?_
    refine (s1.at (i := 2) (by decide)).mono fun c hc => ?_
    refine (s1.at (i := 3) (by decide)).mono fun d hd => ?_
    refine (getnoise_eta1_4x_runs (sz4 ha hb hc hd) hs hl n0123).mono fun r hr => ?_
    refine (s1.put (i := 0) (by decide) (hr 0).size (hr 0)).mono fun v1 s1 => ?_
    refine (s1.put (i := 1) (by decide) (hr 1).size (hr 1)).mono fun v1 s1 => ?_
    refine (s1.put (i := 2) (by decide) (hr 2).size (hr 2)).mono fun v1 s1 => ?_
    refine (s1.put (i := 3) (by decide) (hr 3).size (hr 3)).mono fun v1 s1 => ?_
    refine (s2.at (i := 0) (by decide)).mono fun a ha => ?_
    refine (s2.at (i := 1) (by decide)).mono fun b hb => ?_
    refine (s2.at (i := 2) (by decide)).mono fun c hc => ?_
    refine (s2.at (i := 3) (by decide)).mono fun d hd => ?_
    refine (getnoise_eta1_4x_runs (sz4 ha hb hc hd) hs hl n4567).mono fun r hr => ?_
    refine (s2.put (i := 0) (by decide) (hr 0).size (hr 0)).mono fun v2 s2 => ?_
    refine (s2.put (i := 1) (by decide) (hr 1).size (hr 1)).mono fun v2 s2 => ?_
    refine (s2.put (i := 2) (by decide) (hr 2).size (hr 2)).mono fun v2 s2 => ?_
    refine (s2.put (i := 3) (by decide) (hr 3).size (hr 3)).mono fun v2 s2 => ?_
    rw [runs_pure]
    exact ⟨s1.toR (by decide), s2.toR (by decide), h3⟩

theorem enc_noise_runs {p : ParamSet} {junk : Nat → Fin 4 → Nat → UInt8} {coins : Mem UInt8} {co : Nat} {σ : List UInt8} {sp ep b : Polyvec} {epp : Poly}
    (hs : coins.Holds co σ) (hl : σ.length = 32) (h1 : VecSz (KYBER_K p) sp) (h2 : VecSz (KYBER_K p) ep) (h3 : VecSz (KYBER_K p) b) (h4 : epp.size = 256) :
    Runs (enc_noise p junk coins co sp ep b epp) (fun s => VecR (KYBER_K p) s.1 (noise (fips p).η₁ σ) 3 ∧
      VecR (KYBER_K p) s.2.1 (fun i => noise 2 σ (KYBER_K p + i)) 3 ∧ VecSz (KYBER_K p) s.2.2.1 ∧ PolyR s.2.2.2 (noise 2 σ (KYBER_K p + KYBER_K p)) 3) := by
  have s1 := VecSz.toD h1 (fun i q => PolyR q (noise (fips p).η₁ σ i) 3)
  have s2 := VecSz.toD h2 (fun i q => PolyR q (noise 2 σ (KYBER_K p + i)) 3)
  have s3 := VecSz.toD h3 (fun i q => True)
  cases p with
  | k2 =>
    simp only [enc_noise, runs_bind]
    refine (s1.at (i := 0) (by decide)).mono fun a ha => ?_
    refine (s1.at (i := 1) (by decide)).mono fun b hb => ?_
    refine (s2.at (i := 0) (by decide)).mono fun c hc => ?_
    refine (s2.at (i := 1) (by decide)).mono fun d hd => ?_
    refine (getnoise_eta1122_4x_runs (sz4 ha hb hc hd) hs hl n0123).mono fun r hr => ?_
    obtain ⟨r0, r1, r2, r3⟩ := hr
    refine (s1.put (i := 0) (by decide) r0.size r0).mono fun v1 s1 => ?_
    refine (s1.put (i := 1) (by decide) r1.size r1).mono fun v1 s1 => ?_
    refine (s2.put (i := 0) (by decide) r2.size r2).mono fun v2 s2 => ?_
    refine (s2.put (i := 1) (by decide) r3.size r3).mono fun v2 s2 => ?_
    refine (getnoise_eta2_avx_runs h4 hs hl 4).mono fun q hq => ?_
    rw [runs_pure]
    exact ⟨s1.toR (by decide), s2.toR (by decide), h3, hq⟩
  | k3 =>
    simp only [enc_noise, runs_bind]
    refine (s1.at (i := 0) (by decide)).mono fun a ha => ?_
    refine (s1.at (i := 1) (by decide)).mono fun b hb => ?_
    refine (s1.at (i := 2) (by decide)).mono fun c hc => ?_
    refine (s2.at (i := 0) (by decide)).mono fun d hd => ?_
    refine (getnoise_eta1_4x_runs (sz4 ha hb hc hd) hs hl n0123).mono fun r hr => ?_
    refine (s1.put (i := 0) (by decide) (hr 0).size (hr 0)).mono fun v1 s1 => ?_
    refine (s1.put (i := 1) (by decide) (hr 1).size (hr 1)).mono fun v1 s1 => ?_
    refine (s1.put (i := 2) (by decide) (hr 2).size (hr 2)).mono fun v1 s1 => ?_
    refine (s2.put (i := 0) (by decide) (hr 3).size (hr 3)).mono fun v2 s2 => ?_
    refine (s2.at (i := 1) (by decide)).mono fun a ha => ?_
    refine (s2.at (i := 2) (by decide)).mono fun b hb => ?_
    refine (s3.at (i := 0) (by decide)).mono fun d hd => ?_
    refine (getnoise_eta1_4x_runs (sz4 ha hb h4 hd) hs hl n4567).mono fun r hr => ?_
    refine (s2.put (i := 1) (by decide) (hr 0).size (hr 0)).mono fun v2 s2 => ?_
    refine (s2.put (i := 2) (by decide) (hr 1).size (hr 1)).mono fun v2 s2 => ?_
    refine (s3.put (i := 0) (by decide) (hr 3).size trivial).mono fun v3 s3 => ?_
    rw [runs_pure]
    exact ⟨s1.toR (by decide), s2.toR (by decide), s3.sz, hr 2⟩
  | k4 =>
    simp only [enc_noise, runs_bind]
    refine (s1.at (i := 0) (by decide)).mono fun a ha => ?_
    refine (s1.at (i := 1) (by decide)).mono fun b hb => ?_
    refine (s1.at (i := 2) (by decide)).mono fun c hc => ?_
    refine (s1.at (i := 3) (by decide)).mono fun d hd => ?_
    refine (getnoise_eta1_4x_runs (sz4 ha hb hc hd) hs hl n0123).mono fun r hr => ?_
    refine (s1.put (i := 0) (by decide) (hr 0).size (hr 0)).mono fun v1 s1 => ?_
    refine (s1.put (i := 1) (by decide) (hr 1).size (hr 1)).mono fun v1 s1 => ?_
    refine (s1.put (i := 2) (by decide) (hr 2).size (hr 2)).mono fun v1 s1 => ?_
    refine (s1.put (i := 3) (by decide) (hr 3).size (hr 3)).mono fun v1 s1 => ?_
    refine (s2.at (i := 0) (by decide)).mono fun a ha => ?_
    refine (s2.at (i := 1) (by decide)).mono fun b hb => ?_
    refine (s2.at (i := 2) (by decide)).mono fun c hc => ?_
    refine (s2.at (i := 3) (by decide)).mono fun d hd => ?_
    refine (getnoise_eta1_4x_runs (sz4 ha hb hc hd) hs hl n4567).mono fun r hr => ?_
    refine (s2.put (i := 0) (by decide) (hr 0).size (hr 0)).mono fun v2 s2 => ?_
    refine (s2.put (i := 1) (by decide) (hr 1).size (hr 1)).mono fun v2 s2 => ?_
    refine (s2.put (i := 2) (by decide) (hr 2).size (hr 2)).mono fun v2 s2 => ?_
    refine (s2.put (i := 3) (by decide) (hr 3).size (hr 3)).mono fun v2 s2 => ?_
    refine (getnoise_eta2_avx_runs h4 hs hl 8).mono fun q hq => ?_
    rw [runs_pure]
    exact ⟨s1.toR (by decide), s2.toR (by decide), h3, hq⟩

end Verif.Avx
