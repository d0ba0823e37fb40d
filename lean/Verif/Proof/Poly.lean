import Verif.Proof.NttSpec
import Verif.Model.Poly
import Verif.Spec.Repr

/-! # Arithmetic of poly.c on residues -/

namespace Verif.Proof
open Verif.Model Verif.Spec Finset

/-- `r` represents the ring element `f` with coefficients of absolute value at most `B`. -/
def PolyR (r : Mem Int16) (f : Rq) (B : Int) : Prop := PolyIs r (ext f) B

theorem PolyR.mono {r : Mem Int16} {f : Rq} {B B' : Int} (h : PolyR r f B) (hB : B ≤ B') : PolyR r f B' := PolyIs.mono h hB

theorem PolyR.coef {r : Mem Int16} {f : Rq} {B : Int} (h : PolyR r f B) (i : Nat) (hi : i < 256) : Coef r i (f ⟨i, hi⟩) B := by
  have := PolyIs.coef h i hi; rwa [ext_lt f hi] at this

theorem PolyR.of_coef {r : Mem Int16} {f : Rq} {B : Int} (hs : r.size = 256) (h : ∀ i (hi : i < 256), Coef r i (f ⟨i, hi⟩) B) :
    PolyR r f B := ⟨hs, fun i hi => by rw [ext_lt f hi]; exact h i hi⟩

theorem PolyR.size {r : Mem Int16} {f : Rq} {B : Int} (h : PolyR r f B) : r.size = 256 := PolyIs.size h

theorem PolyIs.toR {r : Mem Int16} {f : Nat → Zq} {g : Rq} {B : Int} (h : PolyIs r f B)
    (hfg : ∀ i (hi : i < 256), f i = g ⟨i, hi⟩) : PolyR r g B :=
  h.congr fun i hi => by rw [ext_lt g hi]; exact hfg i hi

theorem polyMem_get (x : Fin 256 → Int16) (i : Nat) (hi : i < 256) : (polyMem x)[i]? = some (some (x ⟨i, hi⟩)) := by
  unfold polyMem; rw [Array.getElem?_ofFn, dif_pos hi]

theorem polyMem_size (x : Fin 256 → Int16) : (polyMem x).size = 256 := by
  unfold polyMem; exact Array.size_ofFn

theorem polyR_polyMem (x : Fin 256 → Int16) (B : Int) (h : ∀ i, -B ≤ (x i).toInt ∧ (x i).toInt ≤ B) :
    PolyR (polyMem x) (residues x) B :=
  PolyR.of_coef (polyMem_size x) fun i hi => ⟨_, polyMem_get x i hi, rfl, (h _).1, (h _).2⟩

theorem PolyR.exists {r : Mem Int16} {f : Rq} {B : Int} (h : PolyR r f B) :
    ∃ x, r = polyMem x ∧ residues x = f ∧ ∀ i, -B ≤ (x i).toInt ∧ (x i).toInt ≤ B := by
  choose x hx using fun i : Fin 256 => h.coef i.val i.isLt
  refine ⟨x, ?_, funext fun i => (hx i).2.1, fun i => (hx i).2.2⟩
  apply Array.ext_getElem?
  intro i
  by_cases hi : i < 256
  · rw [polyMem_get x i hi]; exact (hx ⟨i, hi⟩).1
  · rw [Array.getElem?_eq_none (by rw [h.size]; omega), Array.getElem?_eq_none (by rw [polyMem_size]; omega)]

theorem poly_reduce_runs {r : Mem Int16} {f : Rq} {B : Int} (h : PolyR r f B) :
    Runs (poly_reduce r) (fun r' => PolyR r' f 1664) := by
  refine runs_polyloop h.size fun i m hi hm hfr => ?_
  obtain ⟨x, hx0, hx, hx1, hx2⟩ := (PolyIs.coef h i hi).frame (hfr i (Nat.le_refl _))
  simp only [runs_bind]
  rw [runs_rd_of hx0]
  refine (barrett_runs x).mono fun y ⟨hy, hy1, hy2⟩ => ?_
  rw [runs_wr]
  exact ⟨by omega, y, rfl, hy.trans hx, hy1, hy2⟩

theorem ntt_runsR {r : Mem Int16} {f : Rq} {B : Int} (h : PolyR r f B) (hB : B ≤ 15288) :
    Runs (ntt r) (fun r' => PolyR r' (NTT f) (B + 17479)) :=
  (ntt_runs h hB).mono fun _ h' => h'.toR fun i hi => levI_ntt f i hi

theorem poly_ntt_runs {r : Mem Int16} {f : Rq} {B : Int} (h : PolyR r f B) (hB : B ≤ 15288) :
    Runs (poly_ntt r) (fun r' => PolyR r' (NTT f) 1664) := by
  unfold poly_ntt
  rw [runs_bind]
  exact (ntt_runsR h hB).mono fun _ h' => poly_reduce_runs h'

theorem poly_invntt_runs {r : Mem Int16} {g : Rq} {B : Int} (h : PolyR r g B) (hB : B ≤ 16383) :
    Runs (poly_invntt_tomont r) (fun r' => PolyR r' (fun i => 65536 * NTTInv g i) 2497) := by
  have h' : PolyIs r (levI (ext (NTTInv g)) 7) B := h.congr fun i hi => by
    rw [levI_ntt _ i hi, ntt_nttInv, ext_lt g hi]
  exact (invntt_runs h' hB).mono fun _ h'' => h''.toR fun i hi => by rw [ext_lt _ hi]

/-- `basemul` on residues: `a` arbitrary, `b` reduced. -/
theorem basemul_runs {r a b : Mem Int16} {o : Nat} {z : Int16} {a0 a1 b0 b1 ρ : Zq} {A : Int} (ho : o + 1 < r.size)
    (ha0 : Coef a o a0 A) (ha1 : Coef a (o + 1) a1 A) (hb0 : Coef b o b0 1664) (hb1 : Coef b (o + 1) b1 1664)
    (hz : zq z = 65536 * ρ) (hz1 : -1664 ≤ z.toInt) (hz2 : z.toInt ≤ 1664) :
    Runs (basemul r a b o z) (fun r' => r'.size = r.size ∧ Coef r' o (169 * (a0 * b0 + a1 * b1 * ρ)) 4994 ∧
      Coef r' (o + 1) (169 * (a0 * b1 + a1 * b0)) 4994 ∧ ∀ j, j ≠ o → j ≠ o + 1 → r'[j]? = r[j]?) := by
  obtain ⟨x0, hx0, hx0v, hx0l, hx0u⟩ := ha0
  obtain ⟨x1, hx1, hx1v, hx1l, hx1u⟩ := ha1
  obtain ⟨y0, hy0, hy0v, hy0l, hy0u⟩ := hb0
  obtain ⟨y1, hy1, hy1v, hy1l, hy1u⟩ := hb1
  unfold basemul
  simp only [runs_bind, Nat.add_zero]
  rw [runs_rd_of hx1, runs_rd_of hy1, fqmul_comm]
  refine (fqmul_runs_small _ _ hy1l hy1u).mono fun p ⟨hp, hp1, hp2⟩ => ?_
  rw [runs_wr]
  refine ⟨by omega, ?_⟩
  rw [runs_rd_of (v := p) (by rw [Mem.get?_set (by omega), if_pos rfl]), fqmul_comm]
  refine (fqmul_runs_small _ _ hz1 hz2).mono fun p' ⟨hp', hp'1, hp'2⟩ => ?_
  rw [runs_wr]
  refine ⟨by simp; omega, ?_⟩
  rw [runs_rd_of hx0, runs_rd_of hy0, fqmul_comm]
  refine (fqmul_runs_small _ _ hy0l hy0u).mono fun t ⟨ht, ht1, ht2⟩ => ?_
  rw [runs_rd_of (v := p') (by rw [Mem.get?_set (by simp; omega), if_pos rfl]), runs_iadd]
  refine ⟨by omega, ?_⟩
  rw [runs_i16c]
  refine ⟨by omega, ?_⟩
  rw [runs_wr]
  refine ⟨by simp; omega, ?_⟩
  rw [runs_rd_of hx0, runs_rd_of hy1, fqmul_comm]
  refine (fqmul_runs_small _ _ hy1l hy1u).mono fun s ⟨hs, hs1, hs2⟩ => ?_
  rw [runs_wr]
  refine ⟨by simp; omega, ?_⟩
  rw [runs_rd_of hx1, runs_rd_of hy0, fqmul_comm]
  refine (fqmul_runs_small _ _ hy0l hy0u).mono fun u ⟨hu, hu1, hu2⟩ => ?_
  rw [runs_rd_of (v := s) (by rw [Mem.get?_set (by simp; omega), if_pos rfl]), runs_iadd]
  refine ⟨by omega, ?_⟩
  rw [runs_i16c]
  refine ⟨by omega, ?_⟩
  rw [runs_wr]
  refine ⟨by simp; omega, by simp, ?_, ?_, ?_⟩
  · refine Coef.set_ne (Coef.set_ne (Coef.set_self _ (by simp; omega) ?_ ?_ ?_) (by omega)) (by omega)
    · rw [zq_i16 (by omega) (by omega)]; push_cast
      rw [show ((p'.toInt : Int) : Zq) = zq p' from rfl, show ((t.toInt : Int) : Zq) = zq t from rfl, hp', ht, hp, hz, hx0v, hx1v,
        hy0v, hy1v]
      linear_combination (169 * ρ * b1 * a1) * zq_inv_R
    · rw [toInt_i16_of (by omega) (by omega)]; omega
    · rw [toInt_i16_of (by omega) (by omega)]; omega
  · refine Coef.set_self _ (by simp; omega) ?_ ?_ ?_
    · rw [zq_i16 (by omega) (by omega)]; push_cast
      rw [show ((s.toInt : Int) : Zq) = zq s from rfl, show ((u.toInt : Int) : Zq) = zq u from rfl, hs, hu, hx0v, hx1v, hy0v, hy1v]
      ring
    · rw [toInt_i16_of (by omega) (by omega)]; omega
    · rw [toInt_i16_of (by omega) (by omega)]; omega
  · intro j h1 h2
    rw [Array.getElem?_setIfInBounds_ne (by omega), Array.getElem?_setIfInBounds_ne (by omega),
      Array.getElem?_setIfInBounds_ne (by omega), Array.getElem?_setIfInBounds_ne (by omega),
      Array.getElem?_setIfInBounds_ne (by omega)]

theorem root_even (i : Nat) (hi : i < 64) : root (2 * i) = Z (64 + i) := by
  rw [← cnode_root _ (by omega), show 128 + 2 * i = 2 * (64 + i) from by ring, cnode_even _ (by omega)]

theorem root_odd (i : Nat) (hi : i < 64) : root (2 * i + 1) = - Z (64 + i) := by
  rw [← cnode_root _ (by omega), show 128 + (2 * i + 1) = 2 * (64 + i) + 1 from by ring, cnode_odd _ (by omega)]

theorem mulNTT_even (f g : Rq) (i : Nat) (hi : i < 128) :
    MultiplyNTTs f g ⟨2 * i, by omega⟩ =
      f ⟨2 * i, by omega⟩ * g ⟨2 * i, by omega⟩ + f ⟨2 * i + 1, by omega⟩ * g ⟨2 * i + 1, by omega⟩ * root i := by
  unfold MultiplyNTTs
  have h1 : 2 * i / 2 = i := by omega
  have h2 : 2 * i % 2 = 0 := by omega
  simp only [h1, h2, if_true]

theorem mulNTT_odd (f g : Rq) (i : Nat) (hi : i < 128) :
    MultiplyNTTs f g ⟨2 * i + 1, by omega⟩ =
      f ⟨2 * i, by omega⟩ * g ⟨2 * i + 1, by omega⟩ + f ⟨2 * i + 1, by omega⟩ * g ⟨2 * i, by omega⟩ := by
  unfold MultiplyNTTs
  have h1 : (2 * i + 1) / 2 = i := by omega
  have h2 : ¬ ((2 * i + 1) % 2 = 0) := by omega
  simp only [h1, h2, if_false]

theorem poly_basemul_runs {r a b : Mem Int16} {f g : Rq} {A : Int} (hr : r.size = 256) (ha : PolyR a f A) (hb : PolyR b g 1664) :
    Runs (poly_basemul_montgomery r a b) (fun r' => PolyR r' (fun i => 169 * MultiplyNTTs f g i) 4994) := by
  unfold poly_basemul_montgomery
  refine Runs.mono (runs_cfor (fun i m => m.size = 256 ∧ ∀ j (hj : j < 256), j < 4 * i →
    Coef m j (169 * MultiplyNTTs f g ⟨j, hj⟩) 4994) (Nat.zero_le _) ⟨hr, fun j _ hj => by omega⟩ ?_) ?_
  · rintro i m _ hi ⟨hm, hc⟩
    have hi' : i < 64 := hi
    simp only [runs_bind]
    refine runs_zeta (by omega) fun z hz hz1 hz2 => ?_
    refine (basemul_runs (by omega) (ha.coef (4 * i) (by omega)) (ha.coef _ (by omega)) (hb.coef _ (by omega))
      (hb.coef _ (by omega)) hz hz1 hz2).mono ?_
    rintro m1 ⟨hm1, hc0, hc1, hfr⟩
    refine runs_zeta (by omega) fun z' hz' hz'1 hz'2 => ?_
    rw [runs_ineg]
    refine ⟨by omega, ?_⟩
    rw [runs_i16c]
    refine ⟨by omega, ?_⟩
    have hneg : (i16 (-z'.toInt)).toInt = - z'.toInt := toInt_i16_of (by omega) (by omega)
    refine (basemul_runs (ρ := - Z (64 + i)) (by omega) (ha.coef (4 * i + 2) (by omega)) (ha.coef _ (by omega)) (hb.coef _ (by omega))
      (hb.coef _ (by omega)) ?_ (by omega) (by omega)).mono ?_
    · unfold zq; rw [hneg]; push_cast; rw [show ((z'.toInt : Int) : Zq) = zq z' from rfl, hz']; ring
    rintro m2 ⟨hm2, hd0, hd1, hfr2⟩
    refine ⟨by omega, fun j hj hji => ?_⟩
    have he0 := mulNTT_even f g (2 * i) (by omega)
    have he1 := mulNTT_odd f g (2 * i) (by omega)
    have hf0 := mulNTT_even f g (2 * i + 1) (by omega)
    have hf1 := mulNTT_odd f g (2 * i + 1) (by omega)
    rw [root_even i hi'] at he0
    rw [root_odd i hi'] at hf0
    simp only [show 2 * (2 * i) = 4 * i from by ring, show 2 * (2 * i + 1) = 4 * i + 2 from by ring] at he0 he1 hf0 hf1
    by_cases h0 : j = 4 * i
    · subst h0; rw [he0]; exact hc0.frame (hfr2 _ (by omega) (by omega))
    by_cases h1 : j = 4 * i + 1
    · subst h1; rw [he1]; exact hc1.frame (hfr2 _ (by omega) (by omega))
    by_cases h2 : j = 4 * i + 2
    · subst h2; rw [hf0]; exact hd0
    by_cases h3 : j = 4 * i + 3
    · subst h3; rw [hf1]; exact hd1
    · refine (hc j hj (by omega)).frame ?_
      rw [hfr2 _ (by omega) (by omega), hfr _ (by omega) (by omega)]
  · rintro m ⟨hm, hc⟩
    exact PolyR.of_coef hm fun i hi => hc i hi (by show i < 4 * 64; omega)

theorem poly_tomont_runs {r : Mem Int16} {f : Rq} {B : Int} (h : PolyR r f B) :
    Runs (poly_tomont r) (fun r' => PolyR r' (fun i => 65536 * f i) 2497) := by
  unfold poly_tomont
  have hf : (i16 (2 ^ 32 % KYBER_Q : Nat)) = 1353 := by decide
  simp only [hf]
  refine (runs_polyloop (f := fun i => 65536 * ext f i) h.size fun i m hi hm hfr => ?_).mono fun _ h' => h'.toR fun i hi => by
    rw [ext_lt f hi]
  obtain ⟨x, hx0, hx, hx1, hx2⟩ := (PolyIs.coef h i hi).frame (hfr i (Nat.le_refl _))
  simp only [runs_bind]
  rw [runs_rd_of hx0]
  have := fqmul_runs_small 1353 x (by decide) (by decide)
  rw [fqmul_comm] at this
  unfold fqmul at this
  rw [runs_bind] at this
  refine this.mono fun v hv => ?_
  refine hv.mono fun y ⟨hy, hy1, hy2⟩ => ?_
  rw [runs_wr]
  refine ⟨by omega, y, rfl, ?_, hy1, hy2⟩
  rw [hy, hx]
  have : (169 : Zq) * zq 1353 = 65536 := by decide
  linear_combination (ext f i) * this

theorem poly_add_runs {r a b : Mem Int16} {f g : Rq} {A B : Int} (hr : r.size = 256) (ha : PolyR a f A) (hb : PolyR b g B)
    (hAB : A + B ≤ 32767) : Runs (poly_add r a b) (fun r' => PolyR r' (fun i => f i + g i) (A + B)) := by
  refine (runs_polyloop (f := fun i => ext f i + ext g i) hr fun i m hi hm hfr => ?_).mono fun _ h' => h'.toR fun i hi => by
    rw [ext_lt f hi, ext_lt g hi]
  obtain ⟨x, hx0, hx, hx1, hx2⟩ := PolyIs.coef ha i hi
  obtain ⟨y, hy0, hy, hy1, hy2⟩ := PolyIs.coef hb i hi
  simp only [runs_bind]
  rw [runs_rd_of hx0, runs_rd_of hy0, runs_iadd]
  refine ⟨by have := int16_bounds x; have := int16_bounds y; omega, ?_⟩
  rw [runs_i16c]
  refine ⟨by omega, ?_⟩
  rw [runs_wr]
  refine ⟨by omega, _, rfl, ?_, ?_, ?_⟩
  · rw [zq_i16 (by omega) (by omega)]; push_cast; rw [← hx, ← hy]; rfl
  · rw [toInt_i16_of (by omega) (by omega)]; omega
  · rw [toInt_i16_of (by omega) (by omega)]; omega

theorem poly_sub_runs {r a b : Mem Int16} {f g : Rq} {A B : Int} (hr : r.size = 256) (ha : PolyR a f A) (hb : PolyR b g B)
    (hAB : A + B ≤ 32767) : Runs (poly_sub r a b) (fun r' => PolyR r' (fun i => f i - g i) (A + B)) := by
  refine (runs_polyloop (f := fun i => ext f i - ext g i) hr fun i m hi hm hfr => ?_).mono fun _ h' => h'.toR fun i hi => by
    rw [ext_lt f hi, ext_lt g hi]
  obtain ⟨x, hx0, hx, hx1, hx2⟩ := PolyIs.coef ha i hi
  obtain ⟨y, hy0, hy, hy1, hy2⟩ := PolyIs.coef hb i hi
  simp only [runs_bind]
  rw [runs_rd_of hx0, runs_rd_of hy0, runs_isub]
  refine ⟨by have := int16_bounds x; have := int16_bounds y; omega, ?_⟩
  rw [runs_i16c]
  refine ⟨by omega, ?_⟩
  rw [runs_wr]
  refine ⟨by omega, _, rfl, ?_, ?_, ?_⟩
  · rw [zq_i16 (by omega) (by omega)]; push_cast; rw [← hx, ← hy]; rfl
  · rw [toInt_i16_of (by omega) (by omega)]; omega
  · rw [toInt_i16_of (by omega) (by omega)]; omega

/-- A polynomial object completely overwritten by known values. -/
theorem eq_polyMem {m m' : Mem Int16} {f : Nat → Int16} (hm : m.size = 256) (h : m.Upd m' 0 256 f) (x : Fin 256 → Int16)
    (hx : ∀ i (hi : i < 256), f i = x ⟨i, hi⟩) : m' = polyMem x := by
  apply Array.ext_getElem?
  intro i
  by_cases hi : i < 256
  · have := h.has i hi
    rw [Nat.zero_add] at this
    rw [this, polyMem_get x i hi, hx i hi]
  · rw [Array.getElem?_eq_none (by rw [h.size]; omega), Array.getElem?_eq_none (by rw [polyMem_size]; omega)]

/-- Coefficients indexed by natural numbers. -/
def extI (x : Fin 256 → Int16) (i : Nat) : Int16 := if h : i < 256 then x ⟨i, h⟩ else 0

theorem extI_lt (x : Fin 256 → Int16) {i : Nat} (h : i < 256) : extI x i = x ⟨i, h⟩ := dif_pos h

theorem poly_add_exact (r : Mem Int16) (hr : r.size = 256) (x y : Fin 256 → Int16)
    (h : ∀ i, -32768 ≤ (x i).toInt + (y i).toInt ∧ (x i).toInt + (y i).toInt ≤ 32767) :
    Runs (poly_add r (polyMem x) (polyMem y)) (fun r => ∃ z, r = polyMem z ∧ ∀ i, (z i).toInt = (x i).toInt + (y i).toInt) := by
  have : Runs (poly_add r (polyMem x) (polyMem y)) (fun r' => r.Upd r' 0 256 (extI fun i => i16 ((x i).toInt + (y i).toInt))) := by
    unfold poly_add
    rw [show KYBER_N = 256 from rfl]
    refine runs_fill1 (m := r) (o := 0) (n := 256) (f := extI _) ?_
    intro i m' hi hu
    have := h ⟨i, hi⟩
    simp only [runs_bind]
    rw [runs_rd_of (polyMem_get x i hi), runs_rd_of (polyMem_get y i hi), runs_iadd]
    refine ⟨by omega, ?_⟩
    rw [runs_i16c]
    refine ⟨by omega, ?_⟩
    rw [Nat.zero_add, extI_lt _ hi]
    exact runs_wr_upd (by rw [hu.size]; omega)
  refine this.mono ?_
  intro r' hu
  refine ⟨_, eq_polyMem hr hu (fun i => i16 ((x i).toInt + (y i).toInt)) fun i hi => extI_lt _ hi, ?_⟩
  intro i
  exact toInt_i16_of (by have := h i; omega) (by have := h i; omega)

theorem poly_sub_exact (r : Mem Int16) (hr : r.size = 256) (x y : Fin 256 → Int16)
    (h : ∀ i, -32768 ≤ (x i).toInt - (y i).toInt ∧ (x i).toInt - (y i).toInt ≤ 32767) :
    Runs (poly_sub r (polyMem x) (polyMem y)) (fun r => ∃ z, r = polyMem z ∧ ∀ i, (z i).toInt = (x i).toInt - (y i).toInt) := by
  have : Runs (poly_sub r (polyMem x) (polyMem y)) (fun r' => r.Upd r' 0 256 (extI fun i => i16 ((x i).toInt - (y i).toInt))) := by
    unfold poly_sub
    rw [show KYBER_N = 256 from rfl]
    refine runs_fill1 (m := r) (o := 0) (n := 256) (f := extI _) ?_
    intro i m' hi hu
    have := h ⟨i, hi⟩
    simp only [runs_bind]
    rw [runs_rd_of (polyMem_get x i hi), runs_rd_of (polyMem_get y i hi), runs_isub]
    refine ⟨by omega, ?_⟩
    rw [runs_i16c]
    refine ⟨by omega, ?_⟩
    rw [Nat.zero_add, extI_lt _ hi]
    exact runs_wr_upd (by rw [hu.size]; omega)
  refine this.mono ?_
  intro r' hu
  refine ⟨_, eq_polyMem hr hu (fun i => i16 ((x i).toInt - (y i).toInt)) fun i hi => extI_lt _ hi, ?_⟩
  intro i
  exact toInt_i16_of (by have := h i; omega) (by have := h i; omega)

end Verif.Proof
