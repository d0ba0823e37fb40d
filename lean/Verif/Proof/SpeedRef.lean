import Verif.Proof.SpeedStages
import Verif.Proof.Roundtrip
import Verif.Proof.Kem

/-! # test_speed.c with the reference build -/

namespace Verif.Proof
open Verif.Model Verif.Spec

/-! ## `basemul` for a second operand that is reduced to (-q, q) only -/

theorem basemul_runs_q {r a b : Mem Int16} {o : Nat} {z : Int16} {a0 a1 b0 b1 ρ : Zq} {A : Int} (ho : o + 1 < r.size)
    (ha0 : Coef a o a0 A) (ha1 : Coef a (o + 1) a1 A) (hb0 : Coef b o b0 3328) (hb1 : Coef b (o + 1) b1 3328)
    (hz : zq z = 65536 * ρ) (hz1 : -1664 ≤ z.toInt) (hz2 : z.toInt ≤ 1664) :
    Runs (basemul r a b o z) (fun r' => r'.size = r.size ∧ Coef r' o (169 * (a0 * b0 + a1 * b1 * ρ)) 6656 ∧
      Coef r' (o + 1) (169 * (a0 * b1 + a1 * b0)) 6656 ∧ ∀ j, j ≠ o → j ≠ o + 1 → r'[j]? = r[j]?) := by
  obtain ⟨x0, hx0, hx0v, hx0l, hx0u⟩ := ha0
  obtain ⟨x1, hx1, hx1v, hx1l, hx1u⟩ := ha1
  obtain ⟨y0, hy0, hy0v, hy0l, hy0u⟩ := hb0
  obtain ⟨y1, hy1, hy1v, hy1l, hy1u⟩ := hb1
  unfold basemul
  simp only [runs_bind, Nat.add_zero]
  rw [runs_rd_of hx1, runs_rd_of hy1, fqmul_comm]
  refine (fqmul_runs_q _ _ hy1l hy1u).mono fun p ⟨hp, hp1, hp2⟩ => ?_
  rw [runs_wr]
  refine ⟨by omega, ?_⟩
  rw [runs_rd_of (v := p) (by rw [Mem.get?_set (by omega), if_pos rfl]), fqmul_comm]
  refine (fqmul_runs_small _ _ hz1 hz2).mono fun p' ⟨hp', hp'1, hp'2⟩ => ?_
  rw [runs_wr]
  refine ⟨by simp; omega, ?_⟩
  rw [runs_rd_of hx0, runs_rd_of hy0, fqmul_comm]
  refine (fqmul_runs_q _ _ hy0l hy0u).mono fun t ⟨ht, ht1, ht2⟩ => ?_
  rw [runs_rd_of (v := p') (by rw [Mem.get?_set (by simp; omega), if_pos rfl]), runs_iadd]
  refine ⟨by omega, ?_⟩
  rw [runs_i16c]
  refine ⟨by omega, ?_⟩
  rw [runs_wr]
  refine ⟨by simp; omega, ?_⟩
  rw [runs_rd_of hx0, runs_rd_of hy1, fqmul_comm]
  refine (fqmul_runs_q _ _ hy1l hy1u).mono fun s ⟨hs, hs1, hs2⟩ => ?_
  rw [runs_wr]
  refine ⟨by simp; omega, ?_⟩
  rw [runs_rd_of hx1, runs_rd_of hy0, fqmul_comm]
  refine (fqmul_runs_q _ _ hy0l hy0u).mono fun u ⟨hu, hu1, hu2⟩ => ?_
  rw [runs_rd_of (v := s) (by rw [Mem.get?_set (by simp; omega), if_pos rfl]), runs_iadd]
  refine ⟨by omega, ?_⟩
  rw [runs_i16c]
  refine ⟨by omega, ?_⟩
  rw [runs_wr]
  refine ⟨by simp; omega, by simp, ?_, ?_, ?_⟩
  · refine Coef.set_ne (Coef.set_ne (Coef.set_self _ (by simp; omega) ?_ ?_ ?_) (by omega)) (by omega)
    · rw [zq_i16 (by omega) (by omega)]; push_cast
      rw [show ((p'.toInt : Int) : Zq) = zq p' from rfl, show ((t.toInt : Int) : Zq) = zq t from rfl, hp', ht, hp, hz, hx0v, hx1v,
        hy0v, hy1v]
      linear_combination (169 * ρ * b1 * a1) * zq_inv_R
    · rw [toInt_i16_of (by omega) (by omega)]; omega
    · rw [toInt_i16_of (by omega) (by omega)]; omega
  · refine Coef.set_self _ (by simp; omega) ?_ ?_ ?_
    · rw [zq_i16 (by omega) (by omega)]; push_cast
      rw [show ((s.toInt : Int) : Zq) = zq s from rfl, show ((u.toInt : Int) : Zq) = zq u from rfl, hs, hu, hx0v, hx1v, hy0v, hy1v]
      ring
    · rw [toInt_i16_of (by omega) (by omega)]; omega
    · rw [toInt_i16_of (by omega) (by omega)]; omega
  · intro j h1 h2
    rw [Array.getElem?_setIfInBounds_ne (by omega), Array.getElem?_setIfInBounds_ne (by omega),
      Array.getElem?_setIfInBounds_ne (by omega), Array.getElem?_setIfInBounds_ne (by omega),
      Array.getElem?_setIfInBounds_ne (by omega)]

theorem poly_basemul_runs_q {r a b : Mem Int16} {f g : Rq} {A : Int} (hr : r.size = 256) (ha : PolyR a f A) (hb : PolyR b g 3328) :
    Runs (poly_basemul_montgomery r a b) (fun r' => PolyR r' (fun i => 169 * MultiplyNTTs f g i) 6656) := by
  unfold poly_basemul_montgomery
  refine Runs.mono (runs_cfor (fun i m => m.size = 256 ∧ ∀ j (hj : j < 256), j < 4 * i →
    Coef m j (169 * MultiplyNTTs f g ⟨j, hj⟩) 6656) (Nat.zero_le _) ⟨hr, fun j _ hj => by omega⟩ ?_) ?_
  · rintro i m _ hi ⟨hm, hc⟩
    have hi' : i < 64 := hi
    simp only [runs_bind]
    refine runs_zeta (by omega) fun z hz hz1 hz2 => ?_
    refine (basemul_runs_q (by omega) (ha.coef (4 * i) (by omega)) (ha.coef _ (by omega)) (hb.coef _ (by omega))
      (hb.coef _ (by omega)) hz hz1 hz2).mono ?_
    rintro m1 ⟨hm1, hc0, hc1, hfr⟩
    refine runs_zeta (by omega) fun z' hz' hz'1 hz'2 => ?_
    rw [runs_ineg]
    refine ⟨by omega, ?_⟩
    rw [runs_i16c]
    refine ⟨by omega, ?_⟩
    have hneg : (i16 (-z'.toInt)).toInt = - z'.toInt := toInt_i16_of (by omega) (by omega)
    refine (basemul_runs_q (ρ := - Z (64 + i)) (by omega) (ha.coef (4 * i + 2) (by omega)) (ha.coef _ (by omega)) (hb.coef _ (by omega))
      (hb.coef _ (by omega)) ?_ (by omega) (by omega)).mono ?_
    · unfold zq; rw [hneg]; push_cast; rw [show ((z'.toInt : Int) : Zq) = zq z' from rfl, hz']; ring
    rintro m2 ⟨hm2, hd0, hd1, hfr2⟩
    refine ⟨by omega, fun j hj hji => ?_⟩
    have he0 := mulNTT_even f g (2 * i) (by omega)
    have he1 := mulNTT_odd f g (2 * i) (by omega)
    have hf0 := mulNTT_even f g (2 * i + 1) (by omega)
    have hf1 := mulNTT_odd f g (2 * i + 1) (by omega)
    rw [root_even i hi'] at he0
    rw [root_odd i hi'] at hf0
    simp only [show 2 * (2 * i) = 4 * i from by ring, show 2 * (2 * i + 1) = 4 * i + 2 from by ring] at he0 he1 hf0 hf1
    by_cases h0 : j = 4 * i
    · subst h0; rw [he0]; exact hc0.frame (hfr2 _ (by omega) (by omega))
    by_cases h1 : j = 4 * i + 1
    · subst h1; rw [he1]; exact hc1.frame (hfr2 _ (by omega) (by omega))
    by_cases h2 : j = 4 * i + 2
    · subst h2; rw [hf0]; exact hd0
    by_cases h3 : j = 4 * i + 3
    · subst h3; rw [hf1]; exact hd1
    · refine (hc j hj (by omega)).frame ?_
      rw [hfr2 _ (by omega) (by omega), hfr _ (by omega) (by omega)]
  · rintro m ⟨hm, hc⟩
    exact PolyR.of_coef hm fun i hi => hc i hi (by show i < 4 * 64; omega)

theorem polyvec_basemul_acc_runs_q {p : ParamSet} {r : Poly} {a b : Polyvec} {f g : Nat → Rq} {A : Int} (hr : r.size = 256)
    (ha : VecR (KYBER_K p) a f A) (hb : VecR (KYBER_K p) b g 3328) :
    Runs (polyvec_basemul_acc_montgomery p r a b) (fun r' => PolyR r' (fun i => 169 * dotNTT (KYBER_K p) f g i) 1664) := by
  unfold polyvec_basemul_acc_montgomery
  obtain ⟨hk1, hk4⟩ := KYBER_K_pos p
  generalize KYBER_K p = k at *
  obtain ⟨qa, hqa, hqaR⟩ := ha.get 0 (by omega)
  obtain ⟨qb, hqb, hqbR⟩ := hb.get 0 (by omega)
  simp only [runs_bind]
  rw [runs_at]
  refine ⟨qa, hqa, ?_⟩
  rw [runs_at]
  refine ⟨qb, hqb, (poly_basemul_runs_q hr hqaR hqbR).mono fun r0 h0 => ?_⟩
  refine Runs.mono (runs_cfor (fun i (s : Poly × Poly) => PolyR s.1 (fun j => 169 * dotNTT i f g j) (6656 * i) ∧ s.2.size = 256) hk1
    ⟨?_, poly_uninit_size⟩ ?_) ?_
  · have : (fun i => 169 * MultiplyNTTs (f 0) (g 0) i) = fun j => 169 * dotNTT 1 f g j := by
      funext j; unfold dotNTT; rw [Finset.sum_range_one]
    rw [this] at h0
    exact h0
  · rintro i ⟨r1, t⟩ hi hik ⟨h1, ht⟩
    obtain ⟨qa, hqa, hqaR⟩ := ha.get i (by omega)
    obtain ⟨qb, hqb, hqbR⟩ := hb.get i (by omega)
    simp only [runs_bind]
    rw [runs_at]
    refine ⟨qa, hqa, ?_⟩
    rw [runs_at]
    refine ⟨qb, hqb, (poly_basemul_runs_q ht hqaR hqbR).mono fun t1 ht1 => ?_⟩
    refine (poly_add_runs h1.size h1 ht1 (by omega)).mono fun r2 h2 => ?_
    rw [runs_pure]
    refine ⟨?_, ht1.size⟩
    have e : (fun j => 169 * dotNTT i f g j + 169 * MultiplyNTTs (f i) (g i) j) = fun j => 169 * dotNTT (i + 1) f g j := by
      funext j; unfold dotNTT; rw [Finset.sum_range_succ, mul_add]
    have h2' : PolyR r2 (fun j => 169 * dotNTT i f g j + 169 * MultiplyNTTs (f i) (g i) j) (6656 * i + 6656) := h2
    rw [e] at h2'
    exact h2'.mono (by push_cast; omega)
  · rintro ⟨r1, t⟩ ⟨h1, _⟩
    exact poly_reduce_runs h1

/-! ## The measurements -/

def RefP (B : Int) (r : Poly) : Prop := ∃ f, PolyR r f B

structure RefM (p : ParamSet) (m : Array Polyvec) : Prop where
  size : m.size = KYBER_K p
  row : ∀ i, i < KYBER_K p → ∃ v f, m[i]? = some v ∧ VecR (KYBER_K p) v f 3328

theorem RefM.sz {p : ParamSet} {m : Array Polyvec} (h : RefM p m) : MatSz (KYBER_K p) m := by
  refine ⟨h.size, fun i hi => ?_⟩
  obtain ⟨v, f, hv, hf⟩ := h.row i hi
  exact ⟨v, hv, hf.size, fun j hj => by obtain ⟨q, hq, hr⟩ := hf.get j hj; exact ⟨q, hq, hr.size⟩⟩

def RefC (p : ParamSet) (n : Nat) (c : Mem UInt8) : Prop := c.size = KYBER_CIPHERTEXTBYTES p ∧ Filled c n

theorem RefC.of {p : ParamSet} {n : Nat} {c c' : Mem UInt8} {l : List UInt8} (h : c.size = KYBER_CIPHERTEXTBYTES p) (hw : c.Wrote c' 0 l) (hl : l.length = n) : RefC p n c' :=
  ⟨by rw [hw.size, h], l, hl, hw.holds⟩

theorem ct_sizes (p : ParamSet) : 32 ≤ KYBER_POLYCOMPRESSEDBYTES p ∧ KYBER_POLYCOMPRESSEDBYTES p ≤ KYBER_POLYVECCOMPRESSEDBYTES p ∧ KYBER_POLYVECCOMPRESSEDBYTES p ≤ KYBER_CIPHERTEXTBYTES p ∧
    1 < KYBER_K p ∧ 32 * (fips p).dv = KYBER_POLYCOMPRESSEDBYTES p ∧ 32 * (fips p).du * KYBER_K p = KYBER_POLYVECCOMPRESSEDBYTES p := by cases p <;> decide

/-- Sampling the matrix of the all-zero seed. -/
def ZeroSampled (p : ParamSet) (fuel : Nat) : Prop := (ExpandA (KYBER_K p) (iters fuel) (List.replicate 32 0)).isSome = true

attribute [local irreducible] poly_getnoise_eta2 poly_getnoise_eta1 ExpandA NTT NTTInv MultiplyNTTs SampleNTT

theorem ref_front (p : ParamSet) (fuel : Nat) : FrontOk (ZeroSampled p fuel) (refSpeed p fuel) (MatSz (KYBER_K p)) (RefM p) (fun a => a.size = 256) (RefP 3328) (RefP 1664)
    (fun c => c.size = KYBER_CIPHERTEXTBYTES p) (RefC p 32) (RefC p (KYBER_POLYCOMPRESSEDBYTES p)) (RefC p (KYBER_POLYVECCOMPRESSEDBYTES p)) := by
  obtain ⟨s1, s2, s3, s4, s5, s6⟩ := ct_sizes p
  exact {
    gen := fun m hm => (RunsP.ofO (gen_matrix_runsO (fuel := fuel) false hm speedSeed_holds (by simp))).mono fun a ⟨A, _, ha⟩ =>
      ⟨ha.1.size, fun i hi => by obtain ⟨v, hv, hr⟩ := ha.vec hi; exact ⟨v, _, hv, hr⟩⟩
    eta1 := fun a ha => (getnoise_eta1_runs ha speedSeed_holds (by simp) 0).mono fun r hr => ⟨_, hr.mono (by decide)⟩
    eta2 := fun a ⟨f, ha⟩ => (getnoise_eta2_runs ha.size speedSeed_holds (by simp) 0).mono fun r hr => ⟨_, hr.mono (by decide)⟩
    ntt := fun a ⟨f, ha⟩ => (poly_ntt_runs ha (by decide)).mono fun r hr => ⟨_, hr.mono (by decide)⟩
    invntt := fun a ⟨f, ha⟩ => (poly_invntt_runs ha (by decide)).mono fun r hr => ⟨_, hr.mono (by decide)⟩
    bm := fun a m ⟨f, ha⟩ hm => by
      obtain ⟨v, fv, hv, hfv⟩ := hm.row 0 (by omega)
      obtain ⟨w, fw, hw, hfw⟩ := hm.row 1 (by omega)
      exact ⟨v, w, hv, hw, (polyvec_basemul_acc_runs_q ha.size hfv hfw).mono fun r hr => ⟨_, hr⟩⟩
    tomsg := fun c a hc ⟨f, ha⟩ => (poly_tomsg_runs ha (by omega)).mono fun r hr => RefC.of hc hr (byteEncode_length 1 _)
    frommsg := fun c a hc ⟨f, ha⟩ => by
      obtain ⟨l, hl, h⟩ := hc.2
      exact (poly_frommsg_runs ha.size h hl).mono fun r hr => ⟨_, hr.mono (by decide)⟩
    compress := fun c a hc ⟨f, ha⟩ => (poly_compress_runs ha (by rw [hc.1]; omega)).mono fun r hr => RefC.of hc.1 hr (by rw [byteEncode_length, s5])
    decompress := fun c a hc ⟨f, ha⟩ => by
      obtain ⟨l, hl, h⟩ := hc.2
      exact (poly_decompress_runs ha.size h hl).mono fun r hr => ⟨_, hr⟩
    pvc := fun c m hc hm => by
      obtain ⟨v, fv, hv, hfv⟩ := hm.row 0 (by omega)
      exact ⟨v, hv, (polyvec_compress_runs hfv (by rw [hc.1]; omega)).mono fun r hr => RefC.of hc.1 hr (by
        rw [flatMap_length fun i => byteEncode_length _ _, s6])⟩
    hM := fun m h => h.sz
    hP := fun a ⟨f, h⟩ => h.size
    hPm := fun a ⟨f, h⟩ => ⟨f, h.mono (by decide)⟩
    hC1 := fun c h => h.1
    hC2 := fun c h => ⟨h.1, h.2.le s1⟩
    hC3 := fun c h => ⟨h.1, h.2.le s2⟩ }

theorem ref_dec (p : ParamSet) (fuel : Nat) (m : Array Polyvec) (c : Mem UInt8) (hm : RefM p m) (hc : RefC p (KYBER_POLYVECCOMPRESSEDBYTES p) c) :
    ∃ v, m[0]? = some v ∧ Runs ((refSpeed p fuel).pv_decompress v c) (fun v' => RefM p (m.setIfInBounds 0 v')) := by
  have s4 := (ct_sizes p).2.2.2.1
  obtain ⟨l, hl, h⟩ := hc.2
  obtain ⟨v, hv, hs⟩ := hm.sz.row 0 (by omega)
  refine ⟨v, hv, (polyvec_decompress_runs hs h hl).mono fun v' hv' => ⟨by simp [hm.size], fun i hi => ?_⟩⟩
  by_cases e : i = 0
  · subst e
    exact ⟨v', _, by rw [Array.getElem?_setIfInBounds_self_of_lt (by rw [hm.size]; omega)], hv'⟩
  · rw [Array.getElem?_setIfInBounds_ne (by omega)]
    exact hm.row i hi

theorem ref_cpa (p : ParamSet) (fuel : Nat) : CpaSpec p fuel (refSpeed p fuel) where
  keypair := fun hd hdl hpk hsk => keypair_runsO hd hdl hpk hsk
  enc := fun hm hml hpk hpkl hr hrl hc => enc_runsO hm hml hpk hpkl hr hrl hc
  dec := fun hc hcl hsk hskl hm => dec_runs rfl hc hcl hsk hskl (by simpa using hm)
  kem := refApi_spec p fuel

theorem cfor_ub {σ : Type} {lo hi : Nat} {s : σ} {body : Nat → σ → C σ} {u : UB} (h : lo < hi) (hb : body lo s = .ub u) : cfor lo hi s body = .ub u := by
  obtain ⟨n, hn⟩ : ∃ n, hi - lo = n + 1 := ⟨hi - lo - 1, by omega⟩
  unfold cfor
  rw [hn, cforFrom, hb]
  rfl

theorem ref_frommsg_uninit {r : Poly} (hr : r.size = 256) {n : Nat} (hn : 0 < n) : poly_frommsg r (Mem.uninit UInt8 n) 0 = .ub .uninit := by
  unfold poly_frommsg
  refine cfor_ub (by decide) (cfor_ub (by decide) ?_)
  refine Avx.bind_ub_of (P := fun _ => True) ((runs_wr_upd (by rw [hr]; decide)).mono fun _ _ => trivial) fun r' _ => ?_
  refine Avx.ub_bind ?_
  unfold rd Mem.uninit
  simp [hn]

/-- `indcpa_enc` with an uninitialised message. -/
theorem enc_uninit (p : ParamSet) (fuel : Nat) {c pk coins : Mem UInt8} {n : Nat} (hn : 0 < n) (hpk : Filled pk (KYBER_PUBLICKEYBYTES p)) :
    indcpa_enc p fuel c (Mem.uninit UInt8 n) 0 pk 0 coins 0 = .ub .uninit := by
  obtain ⟨ek, hel, hek⟩ := hpk
  unfold indcpa_enc
  refine Avx.bind_ub_of (unpack_pk_runs (vecSz_uninit p) (Mem.size_uninit _) hek (by rw [hel]; rfl)) fun s _ => ?_
  exact Avx.ub_bind (ref_frommsg_uninit poly_uninit_size hn)

end Verif.Proof
