import Verif.Spec.FailureUniform
import Verif.Proof.Failure
import Verif.Proof.FailureLin

/-! # Decryption failure for a uniform matrix: exponential moments -/

namespace Verif.Proof
open Verif.Model Verif.Spec Finset

/-! ## Vectors of noise with values in Z_q -/

/-- The weight of a residue: the sum of `φ` over the bits with this value. -/
noncomputable def weight (η : Nat) (φ : Int → ℝ) (u : Zq) : ℝ := ∑ c : Fin (2 * η) → Bool, if ((cbdVal η c : Int) : Zq) = u then φ (cbdVal η c) else 0

theorem sum_weight (η : Nat) (φ : Int → ℝ) : ∑ u, weight η φ u = ∑ c : Fin (2 * η) → Bool, φ (cbdVal η c) := by
  unfold weight
  rw [Finset.sum_comm]
  refine Finset.sum_congr rfl fun c _ => ?_
  rw [Finset.sum_ite_eq]
  simp

theorem sum_push_one (η : Nat) (hη : 0 < η) (φ : Int → ℝ) (Ψ : (Fin 256 → Zq) → ℝ) :
    ∑ b : Fin (64 * η) → Fin 256, (∏ i : Fin 256, φ (cbdInt η (bytesOf b) i.val)) * Ψ (fun i => ((cbdInt η (bytesOf b) i.val : Int) : Zq)) =
      ∑ u : Fin 256 → Zq, (∏ i, weight η φ (u i)) * Ψ u := by
  simp only [cbdInt_val]
  have e1 : ∑ b : Fin (64 * η) → Fin 256, (∏ i : Fin 256, φ (cbdVal η (cbdBits η b i))) * Ψ (fun i => ((cbdVal η (cbdBits η b i) : Int) : Zq)) =
      ∑ c : Fin 256 → Fin (2 * η) → Bool, (∏ i : Fin 256, φ (cbdVal η (c i))) * Ψ (fun i => ((cbdVal η (c i) : Int) : Zq)) :=
    Fintype.sum_bijective (cbdBits η) (cbdBits_bijective η hη) _ _ fun _ => rfl
  rw [e1]
  unfold weight
  have e2 : ∀ u : Fin 256 → Zq, (∏ i, ∑ c : Fin (2 * η) → Bool, if ((cbdVal η c : Int) : Zq) = u i then φ (cbdVal η c) else 0) =
      ∑ c : Fin 256 → Fin (2 * η) → Bool, if (fun i => ((cbdVal η (c i) : Int) : Zq)) = u then ∏ i, φ (cbdVal η (c i)) else 0 := fun u => by
    rw [Finset.prod_univ_sum, Fintype.piFinset_univ]
    refine Finset.sum_congr rfl fun c _ => ?_
    rw [Finset.prod_ite_zero]
    congr 1
    simp [funext_iff]
  simp only [e2, Finset.sum_mul]
  rw [Finset.sum_comm]
  refine Finset.sum_congr rfl fun c _ => ?_
  simp only [ite_mul, zero_mul]
  rw [Finset.sum_ite_eq]
  simp

theorem sum_push (η k : Nat) (hη : 0 < η) (φ : Int → ℝ) (Ψ : (Fin 256 → Zq) → ℝ) :
    ∑ b : Fin k → Fin (64 * η) → Fin 256, ∏ t, ((∏ i, φ (vecI η b t i)) * Ψ (fun i => ((vecI η b t i : Int) : Zq))) =
      (∑ u : Fin 256 → Zq, (∏ i, weight η φ (u i)) * Ψ u) ^ k := by
  rw [← sum_push_one η hη]
  have := (Finset.prod_univ_sum (fun _ : Fin k => (univ : Finset (Fin (64 * η) → Fin 256))) fun _ b =>
    (∏ i : Fin 256, φ (cbdInt η (bytesOf b) i.val)) * Ψ (fun i => ((cbdInt η (bytesOf b) i.val : Int) : Zq))).symm
  rw [Fintype.piFinset_univ] at this
  refine Eq.trans ?_ (this.trans (by rw [Finset.prod_const, Finset.card_univ, Fintype.card_fin]))
  rfl

/-- The coefficients as those of even and of odd number. -/
def halves : (Fin 256 → Zq) ≃ (Fin 2 → Fin 128 → Zq) where
  toFun u e j := u ⟨2 * j.val + e.val, by omega⟩
  invFun v n := v ⟨n.val % 2, by omega⟩ ⟨n.val / 2, by omega⟩
  left_inv u := funext fun n => congrArg u (Fin.ext (by show 2 * (n.val / 2) + n.val % 2 = n.val; omega))
  right_inv v := funext fun e => funext fun j => by
    show v _ _ = v e j
    congr 1
    · exact Fin.ext (by show (2 * j.val + e.val) % 2 = e.val; omega)
    · exact Fin.ext (by show (2 * j.val + e.val) / 2 = j.val; omega)

def halfIx : Fin 256 ≃ Fin 2 × Fin 128 where
  toFun n := (⟨n.val % 2, by omega⟩, ⟨n.val / 2, by omega⟩)
  invFun p := ⟨2 * p.2.val + p.1.val, by omega⟩
  left_inv n := Fin.ext (by show 2 * (n.val / 2) + n.val % 2 = n.val; omega)
  right_inv p := Prod.ext (Fin.ext (by show (2 * p.2.val + p.1.val) % 2 = p.1.val; omega)) (Fin.ext (by show (2 * p.2.val + p.1.val) / 2 = p.2.val; omega))

theorem prod_halves (u : Fin 256 → Zq) (f : Zq → ℝ) : ∏ n, f (u n) = ∏ e, ∏ j, f (halves u e j) := by
  rw [← Fintype.prod_prod_type']
  refine Fintype.prod_equiv halfIx _ _ fun n => ?_
  show f (u n) = f (u _)
  congr 2
  exact Fin.ext (by show n.val = 2 * (n.val / 2) + n.val % 2; omega)

theorem pow_sub_div (a : ℝ) (ha : 0 < a) (n m : Nat) (h : m ≤ n) : a ^ (n - m) = a ^ n / a ^ m := by
  rw [eq_div_iff (by positivity), ← pow_add, Nat.sub_add_cancel h]

theorem sum_powerset_pow (x : ℝ) (n : Nat) : ∑ S ∈ (univ : Finset (Fin n)).powerset, x ^ #S = (1 + x) ^ n := by
  have := Finset.prod_one_add (s := (univ : Finset (Fin n))) (f := fun _ => x)
  simp only [Finset.prod_const, Finset.card_univ, Fintype.card_fin] at this
  exact this.symm

open Classical in
/-- The weight of the polynomials whose NTT vanishes at the places `S`. -/
theorem poly_vanish (S : Finset (Fin 128)) (ω : Zq → ℝ) (g : ℝ) (h0 : ∀ u, 0 ≤ ω u) (hg : ∀ u, ω u ≤ g) :
    ∑ u : Fin 256 → Zq, (∏ i, ω (u i)) * (if ∀ e, Vanish S (halves u e) then 1 else 0) ≤ ((∑ u, ω u) ^ (128 - #S) * g ^ #S) ^ 2 := by
  have e1 : ∀ u : Fin 256 → Zq, (∏ i, ω (u i)) * (if ∀ e, Vanish S (halves u e) then 1 else 0) = ∏ e, if Vanish S (halves u e) then ∏ j, ω (halves u e j) else 0 := fun u => by
    rw [Finset.prod_ite_zero, prod_halves, mul_ite, mul_one, mul_zero]
    simp
  simp only [e1]
  rw [Fintype.sum_equiv halves _ (fun v : Fin 2 → Fin 128 → Zq => ∏ e, if Vanish S (v e) then ∏ j, ω (v e j) else 0) fun u => rfl]
  have := (Finset.prod_univ_sum (fun _ : Fin 2 => (univ : Finset (Fin 128 → Zq))) fun _ v => if Vanish S v then ∏ j, ω (v j) else 0).symm
  rw [Fintype.piFinset_univ] at this
  rw [this, Finset.prod_const, Finset.card_univ, Fintype.card_fin]
  refine pow_le_pow_left₀ (Finset.sum_nonneg fun v _ => ?_) (vanish_weight S ω g h0 hg) 2
  split
  · exact Finset.prod_nonneg fun j _ => h0 _
  · exact le_refl _

section
variable {k η₁ η₂ : Nat}

/-- The places where the NTTs of all components vanish. -/
noncomputable def yPlaces (η : Nat) (y : Fin k → Fin (64 * η) → Fin 256) : Finset (Fin 128) := zeroPlaces fun j : Fin k => NTT (cbdVec η y j.val)

theorem yPlaces_sup (η : Nat) (y : Fin k → Fin (64 * η) → Fin 256) (S : Finset (Fin 128)) :
    S ⊆ yPlaces η y ↔ ∀ t, ∀ e, Vanish S (halves (fun i => ((vecI η y t i : Int) : Zq)) e) := by
  have hN : ∀ (t : Fin k) (i : Fin 128) (e : Fin 2), NTT (cbdVec η y t.val) ⟨2 * i.val + e.val, by omega⟩ =
      ∑ j, halves (fun i => ((vecI η y t i : Int) : Zq)) e j * root i.val ^ j.val := fun t i e => by
    rw [cbdVec_eq]
    unfold NTT halves
    have e1 : (2 * i.val + e.val) / 2 = i.val := by omega
    have e2 : (2 * i.val + e.val) % 2 = e.val := by omega
    simp only [e1, e2, Equiv.coe_fn_mk]
  constructor
  · intro h t e i hi
    rw [← hN]
    have h1 := h hi
    simp only [yPlaces, zeroPlaces, Finset.mem_filter, Finset.mem_univ, true_and] at h1
    match e with
    | 0 => exact (h1 t).1
    | 1 => exact (h1 t).2
  · intro h i hi
    simp only [yPlaces, zeroPlaces, Finset.mem_filter, Finset.mem_univ, true_and]
    intro t
    have h0 := h t 0 i hi
    have h1 := h t 1 i hi
    rw [← hN] at h0 h1
    exact ⟨h0, h1⟩

/-- A power of the number of places, summed with a product of weights. -/
theorem places_moment (η : Nat) (hη : 0 < η) (φ : Int → ℝ) (h0 : ∀ v, 0 ≤ φ v) (g G : ℝ) (hg : ∀ u, weight η φ u ≤ g) (hG : ∑ c : Fin (2 * η) → Bool, φ (cbdVal η c) = G) (hG0 : 0 < G)
    (c : ℝ) (hc : 1 ≤ c) :
    ∑ y : Fin k → Fin (64 * η) → Fin 256, (∏ t, ∏ i, φ (vecI η y t i)) * c ^ #(yPlaces η y) ≤ G ^ (256 * k) * (1 + (c - 1) * (g / G) ^ (2 * k)) ^ 128 := by
  classical
  have hw : ∀ u, 0 ≤ weight η φ u := fun u => Finset.sum_nonneg fun x _ => by split <;> simp [h0]
  have hg0 : 0 ≤ g := (hw 0).trans (hg 0)
  have e1 : ∀ y : Fin k → Fin (64 * η) → Fin 256, c ^ #(yPlaces η y) = ∑ S ∈ (univ : Finset (Fin 128)).powerset, (c - 1) ^ #S * if S ⊆ yPlaces η y then 1 else 0 := fun y => by
    have h1 : c ^ #(yPlaces η y) = ∏ i ∈ yPlaces η y, (1 + (c - 1)) := by rw [Finset.prod_const]; congr 1; ring
    rw [h1, Finset.prod_one_add]
    simp only [Finset.prod_const, mul_ite, mul_one, mul_zero]
    rw [← Finset.sum_filter]
    refine Finset.sum_congr ?_ fun _ _ => rfl
    ext S
    simp
  simp only [e1, Finset.mul_sum]
  rw [Finset.sum_comm]
  have e2 : ∀ S : Finset (Fin 128), ∑ y : Fin k → Fin (64 * η) → Fin 256, (∏ t, ∏ i, φ (vecI η y t i)) * ((c - 1) ^ #S * if S ⊆ yPlaces η y then 1 else 0) ≤
      G ^ (256 * k) * ((c - 1) * (g / G) ^ (2 * k)) ^ #S := fun S => by
    have hs := card_le_128 S
    have e3 : ∀ y : Fin k → Fin (64 * η) → Fin 256, (∏ t, ∏ i, φ (vecI η y t i)) * ((c - 1) ^ #S * if S ⊆ yPlaces η y then 1 else 0) =
        (c - 1) ^ #S * ∏ t, ((∏ i, φ (vecI η y t i)) * if ∀ e, Vanish S (halves (fun i => ((vecI η y t i : Int) : Zq)) e) then 1 else 0) := fun y => by
      rw [Finset.prod_mul_distrib, Finset.prod_ite_zero, Finset.prod_const_one]
      simp only [yPlaces_sup, Finset.mem_univ, true_implies]
      ring
    simp only [e3]
    rw [← Finset.mul_sum, sum_push η k hη φ fun u => if ∀ e, Vanish S (halves u e) then 1 else 0]
    have h1 := poly_vanish S (weight η φ) g hw hg
    rw [sum_weight, hG] at h1
    have hc' : 0 ≤ c - 1 := by linarith
    have h2 := pow_le_pow_left₀ (Finset.sum_nonneg fun u _ => mul_nonneg (Finset.prod_nonneg fun i _ => hw _) (by split <;> simp)) h1 k
    refine (mul_le_mul_of_nonneg_left h2 (pow_nonneg hc' _)).trans (le_of_eq ?_)
    rw [pow_sub_div G hG0 128 _ hs, mul_pow (c - 1), ← pow_mul, ← pow_mul, div_pow, div_mul_eq_mul_div, div_pow, mul_pow, ← pow_mul, ← pow_mul, ← pow_mul]
    rw [show 128 * (2 * k) = 256 * k from by ring, show #S * (2 * k) = 2 * k * #S from by ring]
    field_simp
  refine (Finset.sum_le_sum fun S _ => e2 S).trans (le_of_eq ?_)
  rw [← Finset.mul_sum, sum_powerset_pow]

/-! ## The moment for a uniform matrix -/

theorem inner_moment (hη : η₁ = 2 ∨ η₁ = 3) (lam X : ℝ) (hX1 : 1 ≤ X) (hX : Real.exp (η₁ * lam ^ 2 / 4) ≤ X) (n : Fin 256) (y : Fin k → Fin (64 * η₁) → Fin 256)
    (w : Fin k → Fin 256 → Int) :
    ∑ s, ∑ e, Real.exp (lam * (linPart n s e y w : ℝ)) ≤
      ((4 : ℝ) ^ η₁) ^ (256 * k) * ((4 : ℝ) ^ η₁) ^ (256 * k) * ((∏ t, ∏ i, X ^ ((vecI η₁ y t i).natAbs ^ 2)) * ∏ t, ∏ i, X ^ ((w t i).natAbs ^ 2)) := by
  have hs : ∀ s e, Real.exp (lam * (linPart n s e y w : ℝ)) =
      Real.exp (-lam * ((∑ t, ∑ i, vecI η₁ s t i * (sgn n i * w t (n - i)) : Int) : ℝ)) *
      Real.exp (lam * ((∑ t, ∑ i, vecI η₁ e t i * (sgn n i * vecI η₁ y t (n - i)) : Int) : ℝ)) := fun s e => by
    rw [← Real.exp_add]
    congr 1
    unfold linPart
    simp only [convI_eq]
    push_cast
    ring
  simp only [hs]
  rw [← Finset.sum_mul_sum]
  have h1 := linear_moment hη (-lam) X hX1 (by rwa [neg_sq]) (fun t i => sgn n i * w t (n - i)) (fun t i => (w t (n - i)).natAbs) fun t i => by rw [sgn_sq]
  have h2 := linear_moment hη lam X hX1 hX (fun t i => sgn n i * vecI η₁ y t (n - i)) (fun t i => (vecI η₁ y t (n - i)).natAbs) fun t i => by rw [sgn_sq]
  rw [Finset.prod_congr rfl fun t _ => prod_sub n fun i => X ^ ((w t i).natAbs ^ 2)] at h1
  rw [Finset.prod_congr rfl fun t _ => prod_sub n fun i => X ^ ((vecI η₁ y t i).natAbs ^ 2)] at h2
  have hX0 : 0 ≤ X := by linarith
  refine (mul_le_mul h1 h2 (Finset.sum_nonneg fun _ _ => (Real.exp_pos _).le) (by positivity)).trans (le_of_eq ?_)
  ring

theorem sum_columns (F : (Fin k → Rq) → ℝ) : ∑ A : Fin k → Fin k → Rq, ∏ t, F (fun j => A j t) = (∑ a, F a) ^ k := by
  rw [Fintype.sum_equiv (Equiv.piComm fun _ _ => Rq) (fun A : Fin k → Fin k → Rq => ∏ t, F (fun j => A j t)) (fun A : Fin k → Fin k → Rq => ∏ t, F (A t)) fun A => rfl]
  have := (Finset.prod_univ_sum (fun _ : Fin k => (univ : Finset (Fin k → Rq))) fun _ a => F a).symm
  rw [Fintype.piFinset_univ] at this
  rw [this, Finset.prod_const, Finset.card_univ, Fintype.card_fin]

end

section
variable (P : Params) (hdu : P.du = 1 ∨ P.du = 4 ∨ P.du = 5 ∨ P.du = 10 ∨ P.du = 11) (hdv : P.dv = 1 ∨ P.dv = 4 ∨ P.dv = 5 ∨ P.dv = 10 ∨ P.dv = 11)

/-- The moment of one coefficient of e₁ + c_u, for the coefficient `z` of Aᵀ y. -/
noncomputable def coefMoment (X : ℝ) (z : Zq) : ℝ := ∑ c : Fin (2 * P.η₂) → Bool, X ^ ((cbdVal P.η₂ c + rerr hdu (z + ((cbdVal P.η₂ c : Int) : Zq))).natAbs ^ 2)

theorem wI_matOf (A : Fin P.k → Fin P.k → Rq) (y : Fin P.k → Fin (64 * P.η₁) → Fin 256) (e1 : Fin P.k → Fin (64 * P.η₂) → Fin 256) (t : Fin P.k) (i : Fin 256) :
    wI P hdu (matOf A) y e1 t i = vecI P.η₂ e1 t i + rerr hdu (dotHom (fun j : Fin P.k => NTT (cbdVec P.η₁ y j.val)) (fun j => A j t) i + ((vecI P.η₂ e1 t i : Int) : Zq)) := by
  have e : NTTInv (dotNTT P.k (fun j => matOf A j t.val) fun j => NTT (cbdVec P.η₁ y j)) = dotHom (fun j : Fin P.k => NTT (cbdVec P.η₁ y j.val)) (fun j => A j t) := by
    rw [dotHom_apply, dot_eq, Finset.sum_range]
    refine congrArg NTTInv ?_
    refine Finset.sum_congr rfl fun j _ => ?_
    unfold matOf
    rw [dif_pos ⟨j.isLt, t.isLt⟩]
  unfold wI
  rw [e, Pi.add_apply, cbdVec_eq]

theorem e1_moment (hη2 : 0 < P.η₂) (X : ℝ) (A : Fin P.k → Fin P.k → Rq) (y : Fin P.k → Fin (64 * P.η₁) → Fin 256) :
    ∑ e1, ∏ t, ∏ i, X ^ ((wI P hdu (matOf A) y e1 t i).natAbs ^ 2) = ∏ t, ∏ i, coefMoment P hdu X (dotHom (fun j : Fin P.k => NTT (cbdVec P.η₁ y j.val)) (fun j => A j t) i) := by
  simp only [wI_matOf]
  exact sum_cbd_vec P.η₂ P.k hη2 fun t i v => X ^ ((v + rerr hdu (dotHom (fun j : Fin P.k => NTT (cbdVec P.η₁ y j.val)) (fun j => A j t) i + ((v : Int) : Zq))).natAbs ^ 2)

theorem matrix_moment (hη2 : 0 < P.η₂) (X W a : ℝ) (hX1 : 1 ≤ X) (hW : ∀ z, coefMoment P hdu X z ≤ W) (ha : ∑ z, coefMoment P hdu X z = 3329 * a) (ha0 : 0 < a)
    (y : Fin P.k → Fin (64 * P.η₁) → Fin 256) :
    ∑ A : Fin P.k → Fin P.k → Rq, ∑ e1, ∏ t, ∏ i, X ^ ((wI P hdu (matOf A) y e1 t i).natAbs ^ 2) ≤
      (3329 : ℝ) ^ (256 * P.k * P.k) * a ^ (256 * P.k) * ((W / a) ^ (2 * P.k)) ^ #(yPlaces P.η₁ y) := by
  have hX0 : 0 ≤ X := by linarith
  have h0 : ∀ z, 0 ≤ coefMoment P hdu X z := fun z => Finset.sum_nonneg fun c _ => pow_nonneg hX0 _
  simp only [e1_moment P hdu hη2]
  rw [sum_columns fun a => ∏ i, coefMoment P hdu X (dotHom (fun j : Fin P.k => NTT (cbdVec P.η₁ y j.val)) a i)]
  have h := dotHom_sum (fun j : Fin P.k => NTT (cbdVec P.η₁ y j.val)) (coefMoment P hdu X) W h0 hW
  change _ ≤ _ * (W ^ (2 * #(yPlaces P.η₁ y)) * ((∑ z, coefMoment P hdu X z) / 3329) ^ (256 - 2 * #(yPlaces P.η₁ y))) at h
  have hb := card_le_128 (yPlaces P.η₁ y)
  generalize #(yPlaces P.η₁ y) = b at *
  rw [ha, mul_div_cancel_left₀ _ (by norm_num)] at h
  refine (pow_le_pow_left₀ (Finset.sum_nonneg fun a _ => Finset.prod_nonneg fun i _ => h0 _) h P.k).trans (le_of_eq ?_)
  have e := pow_sub_div a ha0 256 (2 * b) (by omega)
  rw [e, mul_pow, mul_pow, div_pow, div_pow, ← pow_mul, ← pow_mul, ← pow_mul, ← pow_mul, div_pow, ← pow_mul, ← pow_mul]
  rw [show 2 * P.k * b = 2 * b * P.k from by ring]
  field_simp

theorem total_avg (hη : P.η₁ = 2 ∨ P.η₁ = 3) (hη2 : 0 < P.η₂) (lam X W a g G : ℝ) (hX1 : 1 ≤ X) (hX : Real.exp (P.η₁ * lam ^ 2 / 4) ≤ X)
    (hW : ∀ z, coefMoment P hdu X z ≤ W) (ha : ∑ z, coefMoment P hdu X z = 3329 * a) (ha0 : 0 < a)
    (hg : ∀ u, weight P.η₁ (fun v => X ^ (v.natAbs ^ 2)) u ≤ g) (hG : ∑ c : Fin (2 * P.η₁) → Bool, X ^ ((cbdVal P.η₁ c).natAbs ^ 2) = G) (n : Fin 256) :
    ∑ A : Fin P.k → Fin P.k → Rq, ∑ b : NoiseBytes P, Real.exp (lam * (linPart n b.s b.e b.y (wI P hdu (matOf A) b.y b.e1) : ℝ)) ≤
      (256 : ℝ) ^ (64 * P.η₂) * (((4 : ℝ) ^ P.η₁) ^ (256 * P.k) * ((4 : ℝ) ^ P.η₁) ^ (256 * P.k) * ((3329 : ℝ) ^ (256 * P.k * P.k) * a ^ (256 * P.k) *
        (G ^ (256 * P.k) * (1 + ((W / a) ^ (2 * P.k) - 1) * (g / G) ^ (2 * P.k)) ^ 128))) := by
  have hX0 : 0 ≤ X := by linarith
  have hG0 : 0 < G := by
    rw [← hG]
    exact Finset.sum_pos (fun c _ => by positivity) ⟨fun _ => false, Finset.mem_univ _⟩
  have hWa : 1 ≤ W / a := by
    rw [le_div_iff₀ ha0, one_mul]
    have h1 : ∑ z : Zq, coefMoment P hdu X z ≤ ∑ z : Zq, W := Finset.sum_le_sum fun z _ => hW z
    rw [ha, Finset.sum_const, Finset.card_univ, ZMod.card, nsmul_eq_mul] at h1
    push_cast at h1
    linarith
  have h0 := fun A : Fin P.k → Fin P.k → Rq => sum_noiseBytes P fun y e1 s e => Real.exp (lam * (linPart n s e y (wI P hdu (matOf A) y e1) : ℝ))
  simp only [h0]
  rw [← Finset.mul_sum]
  refine mul_le_mul_of_nonneg_left ?_ (by positivity)
  have h1 : ∑ A : Fin P.k → Fin P.k → Rq, ∑ y, ∑ e1, ∑ s, ∑ e, Real.exp (lam * (linPart n s e y (wI P hdu (matOf A) y e1) : ℝ)) ≤
      ∑ A : Fin P.k → Fin P.k → Rq, ∑ y, ∑ e1, ((4 : ℝ) ^ P.η₁) ^ (256 * P.k) * ((4 : ℝ) ^ P.η₁) ^ (256 * P.k) *
        ((∏ t, ∏ i, X ^ ((vecI P.η₁ y t i).natAbs ^ 2)) * ∏ t, ∏ i, X ^ ((wI P hdu (matOf A) y e1 t i).natAbs ^ 2)) :=
    Finset.sum_le_sum fun A _ => Finset.sum_le_sum fun y _ => Finset.sum_le_sum fun e1 _ => inner_moment hη lam X hX1 hX n y _
  refine h1.trans ?_
  simp only [← Finset.mul_sum]
  refine mul_le_mul_of_nonneg_left ?_ (by positivity)
  rw [Finset.sum_comm]
  simp only [← Finset.mul_sum]
  have h2 : ∀ y : Fin P.k → Fin (64 * P.η₁) → Fin 256, (∏ t, ∏ i, X ^ ((vecI P.η₁ y t i).natAbs ^ 2)) *
      ∑ A : Fin P.k → Fin P.k → Rq, ∑ e1, ∏ t, ∏ i, X ^ ((wI P hdu (matOf A) y e1 t i).natAbs ^ 2) ≤ (3329 : ℝ) ^ (256 * P.k * P.k) * a ^ (256 * P.k) *
        ((∏ t, ∏ i, X ^ ((vecI P.η₁ y t i).natAbs ^ 2)) * ((W / a) ^ (2 * P.k)) ^ #(yPlaces P.η₁ y)) := fun y => by
    refine (mul_le_mul_of_nonneg_left (matrix_moment P hdu hη2 X W a hX1 hW ha ha0 y) (Finset.prod_nonneg fun t _ => Finset.prod_nonneg fun i _ => by positivity)).trans (le_of_eq ?_)
    ring
  refine (Finset.sum_le_sum fun y _ => h2 y).trans ?_
  rw [← Finset.mul_sum]
  refine mul_le_mul_of_nonneg_left ?_ (mul_nonneg (pow_nonneg (by norm_num) _) (pow_nonneg ha0.le _))
  exact places_moment P.η₁ (by omega) (fun v => X ^ (v.natAbs ^ 2)) (fun v => by positivity) g G hg hG hG0 _ (one_le_pow₀ hWa)

end

end Verif.Proof
