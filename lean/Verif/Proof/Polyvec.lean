import Verif.Proof.Serial5
import Verif.Model.Polyvec

/-! # Vectors of polynomials: arithmetic and 12-bit serialisation -/

namespace Verif.Proof
open Verif.Model Verif.Spec

/-- A vector of `k` polynomial objects of 256 coefficients, in any state. -/
structure VecSz (k : Nat) (v : Polyvec) : Prop where
  size : v.size = k
  get : ∀ i, i < k → ∃ q : Mem Int16, v[i]? = some q ∧ q.size = 256

/-- A vector of polynomial objects standing for `f 0, ..., f (k-1)`, coefficients bounded by `B`. -/
structure VecR (k : Nat) (v : Polyvec) (f : Nat → Rq) (B : Int) : Prop where
  size : v.size = k
  get : ∀ i, i < k → ∃ q, v[i]? = some q ∧ PolyR q (f i) B

theorem VecR.mono {k : Nat} {v : Polyvec} {f : Nat → Rq} {B B' : Int} (h : VecR k v f B) (hB : B ≤ B') : VecR k v f B' :=
  ⟨h.size, fun i hi => by obtain ⟨q, h1, h2⟩ := h.get i hi; exact ⟨q, h1, h2.mono hB⟩⟩

theorem VecR.congr {k : Nat} {v : Polyvec} {f g : Nat → Rq} {B : Int} (h : VecR k v f B) (hfg : ∀ i, i < k → f i = g i) : VecR k v g B :=
  ⟨h.size, fun i hi => by obtain ⟨q, h1, h2⟩ := h.get i hi; rw [hfg i hi] at h2; exact ⟨q, h1, h2⟩⟩

theorem VecR.sz {k : Nat} {v : Polyvec} {f : Nat → Rq} {B : Int} (h : VecR k v f B) : VecSz k v :=
  ⟨h.size, fun i hi => by obtain ⟨q, h1, h2⟩ := h.get i hi; exact ⟨q, h1, h2.size⟩⟩

theorem poly_uninit_size : Array.size Poly.uninit = 256 := by unfold Poly.uninit; exact Mem.size_uninit _

theorem vecSz_uninit (p : ParamSet) : VecSz (KYBER_K p) (Polyvec.uninit p) :=
  ⟨by unfold Polyvec.uninit; exact Array.size_replicate, fun i hi => ⟨Poly.uninit, by
    unfold Polyvec.uninit
    rw [Array.getElem?_replicate, if_pos hi], poly_uninit_size⟩⟩

theorem arr_set_self {α : Type} {m : Array α} {i : Nat} {q : α} (hi : i < m.size) : (m.setIfInBounds i q)[i]? = some q := by
  rw [Array.getElem?_setIfInBounds_self_of_lt hi]

/-- A loop over the components of a vector; iteration `i` replaces component `i`. -/
theorem runs_vecloop {k : Nat} {r : Polyvec} {g : Nat → Rq} {B : Int} {body : Nat → Polyvec → C Polyvec} (hr : r.size = k)
    (h : ∀ i m, i < k → m.size = k → (∀ j, i ≤ j → m[j]? = r[j]?) →
      Runs (body i m) (fun m' => ∃ q, m' = m.setIfInBounds i q ∧ PolyR q (g i) B)) :
    Runs (cfor 0 k r body) (fun m => VecR k m g B) := by
  refine (runs_cfor (fun i m => m.size = k ∧ (∀ j, i ≤ j → m[j]? = r[j]?) ∧ ∀ j, j < i → ∃ q, m[j]? = some q ∧ PolyR q (g j) B)
    (Nat.zero_le _) ⟨hr, fun _ _ => rfl, fun j hj => by omega⟩ ?_).mono fun m ⟨h1, _, h2⟩ => ⟨h1, h2⟩
  rintro i m _ hi ⟨hs, hf, hc⟩
  refine (h i m hi hs hf).mono ?_
  rintro m' ⟨q, rfl, h1⟩
  refine ⟨by simp [hs], fun j hj => ?_, fun j hj => ?_⟩
  · rw [Array.getElem?_setIfInBounds_ne (by omega)]; exact hf j (by omega)
  · by_cases hji : j = i
    · subst hji; exact ⟨q, arr_set_self (by omega), h1⟩
    · rw [Array.getElem?_setIfInBounds_ne (by omega)]; exact hc j (by omega)

/-- Components transformed one by one in place. -/
theorem runs_vecmap {k : Nat} {r : Polyvec} {f g : Nat → Rq} {A B : Int} {op : Poly → C Poly} (hr : VecR k r f A)
    (h : ∀ i q, i < k → PolyR q (f i) A → Runs (op q) (fun q' => PolyR q' (g i) B)) :
    Runs (cfor 0 k r fun i r => do put' r i (← op (← at' r i))) (fun m => VecR k m g B) := by
  refine runs_vecloop hr.size fun i m hi hm hfr => ?_
  obtain ⟨q, hq, hqR⟩ := hr.get i hi
  simp only [runs_bind]
  rw [runs_at]
  refine ⟨q, by rw [hfr i (Nat.le_refl _), hq], (h i q hi hqR).mono fun q' hq' => ?_⟩
  rw [runs_put]
  exact ⟨by omega, q', rfl, hq'⟩

theorem polyvec_ntt_runs {p : ParamSet} {r : Polyvec} {f : Nat → Rq} {B : Int} (h : VecR (KYBER_K p) r f B) (hB : B ≤ 15288) :
    Runs (polyvec_ntt p r) (fun r' => VecR (KYBER_K p) r' (fun i => NTT (f i)) 1664) :=
  runs_vecmap h fun _ _ _ hq => poly_ntt_runs hq hB

theorem polyvec_invntt_runs {p : ParamSet} {r : Polyvec} {f : Nat → Rq} {B : Int} (h : VecR (KYBER_K p) r f B) (hB : B ≤ 16383) :
    Runs (polyvec_invntt_tomont p r) (fun r' => VecR (KYBER_K p) r' (fun i j => 65536 * NTTInv (f i) j) 2497) :=
  runs_vecmap h fun _ _ _ hq => poly_invntt_runs hq hB

theorem polyvec_reduce_runs {p : ParamSet} {r : Polyvec} {f : Nat → Rq} {B : Int} (h : VecR (KYBER_K p) r f B) :
    Runs (polyvec_reduce p r) (fun r' => VecR (KYBER_K p) r' f 1664) :=
  runs_vecmap h fun _ _ _ hq => poly_reduce_runs hq

theorem polyvec_add_runs {p : ParamSet} {r a b : Polyvec} {f g : Nat → Rq} {A B : Int} (hr : VecSz (KYBER_K p) r)
    (ha : VecR (KYBER_K p) a f A) (hb : VecR (KYBER_K p) b g B) (hAB : A + B ≤ 32767) :
    Runs (polyvec_add p r a b) (fun r' => VecR (KYBER_K p) r' (fun i j => f i j + g i j) (A + B)) := by
  refine runs_vecloop hr.size fun i m hi hm hfr => ?_
  obtain ⟨q, hq, hqs⟩ := hr.get i hi
  obtain ⟨qa, hqa, hqaR⟩ := ha.get i hi
  obtain ⟨qb, hqb, hqbR⟩ := hb.get i hi
  simp only [runs_bind]
  rw [runs_at]
  refine ⟨q, by rw [hfr i (Nat.le_refl _), hq], ?_⟩
  rw [runs_at]
  refine ⟨qa, hqa, ?_⟩
  rw [runs_at]
  refine ⟨qb, hqb, (poly_add_runs hqs hqaR hqbR hAB).mono fun q' hq' => ?_⟩
  rw [runs_put]
  exact ⟨by omega, q', rfl, hq'⟩

theorem KYBER_K_pos (p : ParamSet) : 1 ≤ KYBER_K p ∧ KYBER_K p ≤ 4 := by cases p <;> decide

theorem polyvec_basemul_acc_runs {p : ParamSet} {r : Poly} {a b : Polyvec} {f g : Nat → Rq} {A : Int} (hr : r.size = 256)
    (ha : VecR (KYBER_K p) a f A) (hb : VecR (KYBER_K p) b g 1664) :
    Runs (polyvec_basemul_acc_montgomery p r a b) (fun r' => PolyR r' (fun i => 169 * dotNTT (KYBER_K p) f g i) 1664) := by
  unfold polyvec_basemul_acc_montgomery
  obtain ⟨hk1, hk4⟩ := KYBER_K_pos p
  generalize KYBER_K p = k at *
  obtain ⟨qa, hqa, hqaR⟩ := ha.get 0 (by omega)
  obtain ⟨qb, hqb, hqbR⟩ := hb.get 0 (by omega)
  simp only [runs_bind]
  rw [runs_at]
  refine ⟨qa, hqa, ?_⟩
  rw [runs_at]
  refine ⟨qb, hqb, (poly_basemul_runs hr hqaR hqbR).mono fun r0 h0 => ?_⟩
  refine Runs.mono (runs_cfor (fun i (s : Poly × Poly) => PolyR s.1 (fun j => 169 * dotNTT i f g j) (4994 * i) ∧ s.2.size = 256) hk1
    ⟨?_, poly_uninit_size⟩ ?_) ?_
  · have : (fun i => 169 * MultiplyNTTs (f 0) (g 0) i) = fun j => 169 * dotNTT 1 f g j := by
      funext j; unfold dotNTT; rw [Finset.sum_range_one]
    rw [this] at h0
    exact h0
  · rintro i ⟨r1, t⟩ hi hik ⟨h1, ht⟩
    obtain ⟨qa, hqa, hqaR⟩ := ha.get i (by omega)
    obtain ⟨qb, hqb, hqbR⟩ := hb.get i (by omega)
    simp only [runs_bind]
    rw [runs_at]
    refine ⟨qa, hqa, ?_⟩
    rw [runs_at]
    refine ⟨qb, hqb, (poly_basemul_runs ht hqaR hqbR).mono fun t1 ht1 => ?_⟩
    refine (poly_add_runs h1.size h1 ht1 (by omega)).mono fun r2 h2 => ?_
    rw [runs_pure]
    refine ⟨?_, ht1.size⟩
    have e : (fun j => 169 * dotNTT i f g j + 169 * MultiplyNTTs (f i) (g i) j) = fun j => 169 * dotNTT (i + 1) f g j := by
      funext j; unfold dotNTT; rw [Finset.sum_range_succ, mul_add]
    have h2' : PolyR r2 (fun j => 169 * dotNTT i f g j + 169 * MultiplyNTTs (f i) (g i) j) (4994 * i + 4994) := h2
    rw [e] at h2'
    exact h2'.mono (by push_cast; omega)
  · rintro ⟨r1, t⟩ ⟨h1, _⟩
    exact poly_reduce_runs h1

theorem polyvec_tobytes_runs {p : ParamSet} {r : Mem UInt8} {ro : Nat} {a : Polyvec} {f : Nat → Rq} (ha : VecR (KYBER_K p) a f 3328)
    (hr : ro + 384 * KYBER_K p ≤ r.size) :
    Runs (polyvec_tobytes p r ro a) (fun r' => r.Wrote r' ro ((List.range (KYBER_K p)).flatMap fun i => ByteEncode12 (f i))) := by
  unfold polyvec_tobytes
  generalize KYBER_K p = k at *
  refine runs_cat1 (w := 384) (fun i => byteEncode_length 12 _) fun i m' hi hm' => ?_
  obtain ⟨q, hq, hqR⟩ := ha.get i hi
  simp only [runs_bind]
  rw [runs_at]
  refine ⟨q, hq, ?_⟩
  rw [show i * KYBER_POLYBYTES = 384 * i from by unfold KYBER_POLYBYTES; omega]
  exact poly_tobytes_runs hqR (by omega)

theorem polyvec_frombytes_runs {p : ParamSet} {r : Polyvec} {a : Mem UInt8} {ao : Nat} {B : List UInt8} (hr : VecSz (KYBER_K p) r)
    (ha : a.Holds ao B) (hB : B.length = 384 * KYBER_K p) :
    Runs (polyvec_frombytes p r a ao) (fun r' => VecR (KYBER_K p) r' (fun i => ByteDecode12 (slice B (384 * i) 384)) 4095) := by
  unfold polyvec_frombytes
  generalize KYBER_K p = k at *
  refine runs_vecloop hr.size fun i m hi hm hfr => ?_
  obtain ⟨q, hq, hqs⟩ := hr.get i hi
  simp only [runs_bind]
  rw [runs_at]
  refine ⟨q, by rw [hfr i (Nat.le_refl _), hq], ?_⟩
  rw [show i * KYBER_POLYBYTES = 384 * i from by unfold KYBER_POLYBYTES; omega]
  have hle : 384 * i + 384 ≤ B.length := by omega
  refine (poly_frombytes_runs hqs (ha.slice (384 * i) 384 hle) (length_slice hle)).mono fun q' hq' => ?_
  rw [runs_put]
  exact ⟨by omega, q', rfl, hq'⟩

end Verif.Proof
