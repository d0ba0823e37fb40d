import Verif.Avx.PolyProof
import Verif.Avx.Polyvec
import Verif.Proof.Polyvec

/-! # Vectors of polynomials in the AVX2 code -/

namespace Verif.Avx
open Verif.Spec Verif.Proof
open Verif.Model (ParamSet KYBER_K Polyvec Poly.uninit)

/-- A vector whose components satisfy `P`. -/
structure VecP (k : Nat) (v : Polyvec) (P : Nat → Mem Int16 → Prop) : Prop where
  size : v.size = k
  get : ∀ i, i < k → ∃ q, v[i]? = some q ∧ P i q

theorem VecP.mono {k : Nat} {v : Polyvec} {P Q : Nat → Mem Int16 → Prop} (h : VecP k v P) (hPQ : ∀ i q, i < k → P i q → Q i q) : VecP k v Q :=
  ⟨h.size, fun i hi => by obtain ⟨q, h1, h2⟩ := h.get i hi; exact ⟨q, h1, hPQ i q hi h2⟩⟩

abbrev VecV (k : Nat) (v : Polyvec) (f : Nat → Rq) (B : Int) : Prop := VecP k v fun i q => PolyV q (f i) B

/-- A loop over the components of a vector; iteration `i` replaces component `i`. -/
theorem runs_vloop {k : Nat} {r : Polyvec} {P : Nat → Mem Int16 → Prop} {body : Nat → Polyvec → C Polyvec} (hr : r.size = k)
    (h : ∀ i m, i < k → m.size = k → (∀ j, i ≤ j → m[j]? = r[j]?) → Runs (body i m) (fun m' => ∃ q, m' = m.setIfInBounds i q ∧ P i q)) :
    Runs (cfor 0 k r body) (fun m => VecP k m P) := by
  refine (runs_cfor (fun i m => m.size = k ∧ (∀ j, i ≤ j → m[j]? = r[j]?) ∧ ∀ j, j < i → ∃ q, m[j]? = some q ∧ P j q)
    (Nat.zero_le _) ⟨hr, fun _ _ => rfl, fun j hj => by omega⟩ ?_).mono fun m ⟨h1, _, h2⟩ => ⟨h1, h2⟩
  rintro i m _ hi ⟨hs, hf, hc⟩
  refine (h i m hi hs hf).mono ?_
  rintro m' ⟨q, rfl, h1⟩
  refine ⟨by simp [hs], fun j hj => ?_, fun j hj => ?_⟩
  · rw [Array.getElem?_setIfInBounds_ne (by omega)]; exact hf j (by omega)
  · by_cases hji : j = i
    · subst hji; exact ⟨q, arr_set_self (by omega), h1⟩
    · rw [Array.getElem?_setIfInBounds_ne (by omega)]; exact hc j (by omega)

/-- Components transformed one by one in place. -/
theorem runs_vmap {k : Nat} {r : Polyvec} {P Q : Nat → Mem Int16 → Prop} {op : Mem Int16 → C (Mem Int16)} (hr : VecP k r P)
    (h : ∀ i q, i < k → P i q → Runs (op q) (fun q' => Q i q')) :
    Runs (cfor 0 k r fun i r => do put' r i (← op (← at' r i))) (fun m => VecP k m Q) := by
  refine runs_vloop hr.size fun i m hi hm hfr => ?_
  obtain ⟨q, hq, hqR⟩ := hr.get i hi
  simp only [runs_bind]
  rw [runs_at]
  refine ⟨q, by rw [hfr i (Nat.le_refl _), hq], (h i q hi hqR).mono fun q' hq' => ?_⟩
  rw [runs_put]
  exact ⟨by omega, q', rfl, hq'⟩

theorem polyvec_ntt_runs {p : ParamSet} {r : Polyvec} {f : Nat → Rq} (h : VecR (KYBER_K p) r f 3329) :
    Runs (polyvec_ntt p r) (fun r' => VecV (KYBER_K p) r' (fun i => NTT (f i)) 16118) :=
  runs_vmap (P := fun i q => PolyR q (f i) 3329) ⟨h.size, h.get⟩ fun _ _ _ hq => poly_ntt_Rq hq

theorem polyvec_invntt_runs {p : ParamSet} {r : Polyvec} {f : Nat → Rq} {B : Int} (h : VecV (KYBER_K p) r f B) :
    Runs (polyvec_invntt_tomont p r) (fun r' => VecP (KYBER_K p) r' fun i q => PolyR q (fun j => 65536 * NTTInv (f i) j) 14870) :=
  runs_vmap h fun _ _ _ hq => poly_invntt_R hq

theorem polyvec_reduce_runs {p : ParamSet} {r : Polyvec} {f : Nat → Nat → Zq} {B : Int} (h : VecP (KYBER_K p) r fun i q => PolyIs q (f i) B) :
    Runs (polyvec_reduce p r) (fun r' => VecP (KYBER_K p) r' fun i q => PolyQ q (f i)) :=
  runs_vmap h fun _ _ _ hq => poly_reduce_runs hq

theorem polyvec_add_runs {p : ParamSet} {r b : Polyvec} {f g : Nat → Nat → Zq} {A B : Int}
    (hr : VecP (KYBER_K p) r fun i q => PolyIs q (f i) A) (hb : VecP (KYBER_K p) b fun i q => PolyIs q (g i) B) (hAB : A + B ≤ 32767) :
    Runs (polyvec_add p r b) (fun r' => VecP (KYBER_K p) r' fun i q => PolyIs q (fun j => f i j + g i j) (A + B)) := by
  refine runs_vloop hr.size fun i m hi hm hfr => ?_
  obtain ⟨qa, hqa, hqaR⟩ := hr.get i hi
  obtain ⟨qb, hqb, hqbR⟩ := hb.get i hi
  simp only [runs_bind]
  rw [runs_at]
  refine ⟨qa, by rw [hfr i (Nat.le_refl _), hqa], ?_⟩
  rw [runs_at]
  refine ⟨qb, hqb, (poly_add_runs hqaR hqbR hAB).mono fun q' hq' => ?_⟩
  rw [runs_put]
  exact ⟨by omega, q', rfl, hq'⟩

theorem polyvec_basemul_acc_runs {p : ParamSet} {r : Mem Int16} {a b : Polyvec} {f g : Nat → Rq} {A B M : Int} (hr : r.size = 256)
    (ha : VecV (KYBER_K p) a f A) (hb : VecV (KYBER_K p) b g B)
    (hmul : ∀ {r a b f g}, r.size = 256 → PolyV a f A → PolyV b g B →
      Runs (poly_basemul_montgomery r a b) (fun r' => PolyV r' (fun i => 169 * MultiplyNTTs f g i) M)) (hM : M ≤ 8191) :
    Runs (polyvec_basemul_acc_montgomery p r a b) (fun r' => PolyV r' (fun i => 169 * dotNTT (KYBER_K p) f g i) (M * KYBER_K p)) := by
  unfold polyvec_basemul_acc_montgomery
  obtain ⟨hk1, hk4⟩ := KYBER_K_pos p
  generalize KYBER_K p = k at *
  obtain ⟨qa, hqa, hqaR⟩ := ha.get 0 (by omega)
  obtain ⟨qb, hqb, hqbR⟩ := hb.get 0 (by omega)
  simp only [runs_bind]
  rw [runs_at]
  refine ⟨qa, hqa, ?_⟩
  rw [runs_at]
  refine ⟨qb, hqb, (hmul hr hqaR hqbR).mono fun r0 h0 => ?_⟩
  refine Runs.mono (runs_cfor (fun i (s : Mem Int16 × Mem Int16) => PolyV s.1 (fun j => 169 * dotNTT i f g j) (M * i) ∧ s.2.size = 256) hk1
    ⟨?_, poly_uninit_size⟩ ?_) ?_
  · have : (fun i => 169 * MultiplyNTTs (f 0) (g 0) i) = fun j => 169 * dotNTT 1 f g j := by
      funext j; unfold dotNTT; rw [Finset.sum_range_one]
    rw [this] at h0
    simpa using h0
  · rintro i ⟨r1, t⟩ hi hik ⟨h1, ht⟩
    obtain ⟨qa, hqa, hqaR⟩ := ha.get i (by omega)
    obtain ⟨qb, hqb, hqbR⟩ := hb.get i (by omega)
    simp only [runs_bind]
    rw [runs_at]
    refine ⟨qa, hqa, ?_⟩
    rw [runs_at]
    refine ⟨qb, hqb, (hmul ht hqaR hqbR).mono fun t1 ht1 => ?_⟩
    have hi3 : (i : Int) ≤ 3 := by omega
    have hb' : M * i + M ≤ 32767 := by nlinarith
    refine (poly_add_runs h1 ht1 hb').mono fun r2 h2 => ?_
    rw [runs_pure]
    refine ⟨?_, ht1.size⟩
    have h3 : PolyV r2 (fun j => 169 * dotNTT (i + 1) f g j) (M * i + M) := h2.congr fun m hm => by
      rw [ext_lt _ (nttIdx_lt hm), ext_lt _ (nttIdx_lt hm), ext_lt _ (nttIdx_lt hm)]
      unfold dotNTT; rw [Finset.sum_range_succ, mul_add]
    exact h3.mono (by push_cast; linarith)
  · rintro ⟨r1, t⟩ ⟨h1, _⟩
    exact h1

/-! ## Polynomials given by their coefficients -/

theorem polyV_polyMem {x : Fin 256 → Int16} {f : Rq} {B : Int} (hf : ∀ m, residues x m = f (avxPos m))
    (h : ∀ i, -B ≤ (x i).toInt ∧ (x i).toInt ≤ B) : PolyV (polyMem x) f B :=
  (polyR_polyMem x B h).congr fun m hm => by rw [ext_lt _ hm, hf, ext_lt _ (nttIdx_lt hm)]; rfl

theorem polyV_exists {r : Mem Int16} {f : Rq} {B : Int} (h : PolyV r f B) :
    ∃ y, r = polyMem y ∧ (∀ m, residues y m = f (avxPos m)) ∧ ∀ i, -B ≤ (y i).toInt ∧ (y i).toInt ≤ B := by
  have h' : PolyR r (fun m => f (avxPos m)) B := h.toR fun m hm => by rw [ext_lt _ (nttIdx_lt hm)]; rfl
  obtain ⟨y, h1, h2, h3⟩ := h'.exists
  exact ⟨y, h1, fun m => by rw [h2], h3⟩

theorem word_bounds (x : Int16) : -32768 ≤ x.toInt ∧ x.toInt ≤ 32768 := by
  have := x.le_toInt; have := x.toInt_lt; omega

end Verif.Avx
