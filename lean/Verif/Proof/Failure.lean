import Verif.Spec.Failure
import Verif.Proof.CbdDist
import Verif.Proof.Roundtrip
import Verif.Proof.Correct
import Mathlib.Analysis.SpecialFunctions.Trigonometric.Series
import Mathlib.Analysis.Complex.ExponentialBounds

/-! # The probability of decryption failure: exponential moments -/

namespace Verif.Proof
open Verif.Model Verif.Spec Finset

/-! ## Sums over byte strings -/

theorem sum_cbd_prod (η : Nat) (hη : 0 < η) (F : Fin 256 → Int → ℝ) :
    ∑ b : Fin (64 * η) → Fin 256, ∏ i : Fin 256, F i (cbdInt η (bytesOf b) i.val) = ∏ i, ∑ c : Fin (2 * η) → Bool, F i (cbdVal η c) := by
  simp only [cbdInt_val]
  rw [Finset.prod_univ_sum, Fintype.piFinset_univ]
  exact Fintype.sum_bijective (cbdBits η) (cbdBits_bijective η hη) _ _ fun _ => rfl

theorem sum_cbd_vec (η k : Nat) (hη : 0 < η) (F : Fin k → Fin 256 → Int → ℝ) :
    ∑ b : Fin k → Fin (64 * η) → Fin 256, ∏ t, ∏ i : Fin 256, F t i (cbdInt η (bytesOf (b t)) i.val) = ∏ t, ∏ i, ∑ c : Fin (2 * η) → Bool, F t i (cbdVal η c) := by
  simp only [← sum_cbd_prod η hη]
  rw [Finset.prod_univ_sum, Fintype.piFinset_univ]

theorem sum_cbdVal (η : Nat) (hη : η = 2 ∨ η = 3) (f : Int → ℝ) :
    ∑ c : Fin (2 * η) → Bool, f (cbdVal η c) = ∑ v ∈ Icc (-η : Int) η, (Nat.choose (2 * η) (η + v).toNat : ℝ) * f v := by
  rw [← Finset.sum_fiberwise_of_maps_to (t := Icc (-η : Int) η) (g := cbdVal η)]
  · refine Finset.sum_congr rfl fun v hv => ?_
    rw [← cbdVal_count η hη v (Finset.mem_Icc.1 hv), Finset.sum_congr rfl (g := fun _ => f v), Finset.sum_const, nsmul_eq_mul]
    intro c hc
    rw [(Finset.mem_filter.1 hc).2]
  · intro c _
    have h1 : ∀ x : Bool, ((x.toNat : Nat) : Int) ≤ 1 := fun x => by cases x <;> decide
    have h0 : ∀ x : Bool, 0 ≤ ((x.toNat : Nat) : Int) := fun x => by cases x <;> decide
    have a1 : ∀ g : Fin η → Bool, ∑ j, ((g j).toNat : Int) ≤ η := fun g => by
      refine (Finset.sum_le_sum fun j _ => h1 (g j)).trans ?_
      simp
    have a0 : ∀ g : Fin η → Bool, 0 ≤ ∑ j, ((g j).toNat : Int) := fun g => Finset.sum_nonneg fun j _ => h0 (g j)
    rw [Finset.mem_Icc]
    unfold cbdVal
    have b1 := a1 fun j => c ⟨j.val, by omega⟩
    have b2 := a1 fun j => c ⟨η + j.val, by omega⟩
    have b3 := a0 fun j => c ⟨j.val, by omega⟩
    have b4 := a0 fun j => c ⟨η + j.val, by omega⟩
    constructor <;> linarith

theorem Icc2 : Icc (-(2 : Nat) : Int) (2 : Nat) = {-2, -1, 0, 1, 2} := by decide
theorem Icc3 : Icc (-(3 : Nat) : Int) (3 : Nat) = {-3, -2, -1, 0, 1, 2, 3} := by decide

theorem sum_cbdVal2 (f : Int → ℝ) : ∑ c : Fin (2 * 2) → Bool, f (cbdVal 2 c) = f (-2) + 4 * f (-1) + 6 * f 0 + 4 * f 1 + f 2 := by
  rw [sum_cbdVal 2 (by omega), Icc2, Finset.sum_insert (by decide), Finset.sum_insert (by decide), Finset.sum_insert (by decide), Finset.sum_insert (by decide), Finset.sum_singleton,
    show Nat.choose (2 * 2) (((2 : Nat) : Int) + -2).toNat = 1 from rfl, show Nat.choose (2 * 2) (((2 : Nat) : Int) + -1).toNat = 4 from rfl,
    show Nat.choose (2 * 2) (((2 : Nat) : Int) + 0).toNat = 6 from rfl, show Nat.choose (2 * 2) (((2 : Nat) : Int) + 1).toNat = 4 from rfl,
    show Nat.choose (2 * 2) (((2 : Nat) : Int) + 2).toNat = 1 from rfl]
  push_cast
  ring

theorem sum_cbdVal3 (f : Int → ℝ) :
    ∑ c : Fin (2 * 3) → Bool, f (cbdVal 3 c) = f (-3) + 6 * f (-2) + 15 * f (-1) + 20 * f 0 + 15 * f 1 + 6 * f 2 + f 3 := by
  rw [sum_cbdVal 3 (by omega), Icc3, Finset.sum_insert (by decide), Finset.sum_insert (by decide), Finset.sum_insert (by decide), Finset.sum_insert (by decide), Finset.sum_insert (by decide),
    Finset.sum_insert (by decide), Finset.sum_singleton,
    show Nat.choose (2 * 3) (((3 : Nat) : Int) + -3).toNat = 1 from rfl, show Nat.choose (2 * 3) (((3 : Nat) : Int) + -2).toNat = 6 from rfl,
    show Nat.choose (2 * 3) (((3 : Nat) : Int) + -1).toNat = 15 from rfl,
    show Nat.choose (2 * 3) (((3 : Nat) : Int) + 0).toNat = 20 from rfl, show Nat.choose (2 * 3) (((3 : Nat) : Int) + 1).toNat = 15 from rfl,
    show Nat.choose (2 * 3) (((3 : Nat) : Int) + 2).toNat = 6 from rfl, show Nat.choose (2 * 3) (((3 : Nat) : Int) + 3).toNat = 1 from rfl]
  push_cast
  ring

/-- The exponential moment of one coefficient. -/
theorem mgf_le (η : Nat) (hη : η = 2 ∨ η = 3) (t : ℝ) : ∑ c : Fin (2 * η) → Bool, Real.exp (t * (cbdVal η c : ℝ)) ≤ 4 ^ η * Real.exp (η * t ^ 2 / 4) := by
  have hc : (2 * Real.cosh (t / 2)) ^ (2 * η) ≤ 4 ^ η * Real.exp (η * t ^ 2 / 4) := by
    have h1 : (2 * Real.cosh (t / 2)) ^ (2 * η) ≤ (2 * Real.exp ((t / 2) ^ 2 / 2)) ^ (2 * η) :=
      pow_le_pow_left₀ (by have := Real.cosh_pos (t / 2); linarith) (by have := Real.cosh_le_exp_half_sq (t / 2); linarith) _
    refine h1.trans (le_of_eq ?_)
    rw [mul_pow, ← Real.exp_nat_mul, pow_mul, show (2 : ℝ) ^ 2 = 4 from by norm_num]
    congr 2
    push_cast
    ring
  refine le_trans (le_of_eq ?_) hc
  have hcosh : 2 * Real.cosh (t / 2) = Real.exp (t / 2) + Real.exp (-(t / 2)) := by rw [Real.cosh_eq]; ring
  have hz : Real.exp (t / 2) * Real.exp (-(t / 2)) = 1 := by rw [← Real.exp_add]; simp
  have hp : ∀ n : Nat, Real.exp (t * (n : ℝ)) = Real.exp (t / 2) ^ (2 * n) := fun n => by
    rw [← Real.exp_nat_mul]; congr 1; push_cast; ring
  have hn : ∀ n : Nat, Real.exp (t * (-(n : ℝ))) = Real.exp (-(t / 2)) ^ (2 * n) := fun n => by
    rw [← Real.exp_nat_mul]; congr 1; push_cast; ring
  rw [hcosh]
  rcases hη with rfl | rfl
  · rw [sum_cbdVal2 fun v => Real.exp (t * (v : ℝ))]
    have e1 := hp 1
    have e2 := hp 2
    have m1 := hn 1
    have m2 := hn 2
    push_cast at e1 e2 m1 m2 ⊢
    rw [e1, e2, m1, m2, mul_zero, Real.exp_zero]
    generalize Real.exp (t / 2) = z at *
    generalize Real.exp (-(t / 2)) = w at *
    linear_combination (4 * z ^ 2 + 4 * w ^ 2 + 6 * (1 + z * w)) * (-hz)
  · rw [sum_cbdVal3 fun v => Real.exp (t * (v : ℝ))]
    have e1 := hp 1
    have e2 := hp 2
    have e3 := hp 3
    have m1 := hn 1
    have m2 := hn 2
    have m3 := hn 3
    push_cast at e1 e2 e3 m1 m2 m3 ⊢
    rw [e1, e2, e3, m1, m2, m3, mul_zero, Real.exp_zero]
    generalize Real.exp (t / 2) = z at *
    generalize Real.exp (-(t / 2)) = w at *
    linear_combination (6 * z ^ 4 + 6 * w ^ 4 + 15 * (1 + z * w) * (z ^ 2 + w ^ 2) + 20 * (1 + z * w + (z * w) ^ 2)) * (-hz)

/-! ## Integer convolution -/

/-- Negacyclic convolution of integer vectors. -/
def convI (f g : Fin 256 → Int) (n : Fin 256) : Int :=
  ∑ i : Fin 256, ∑ j : Fin 256, if i.val + j.val = n.val then f i * g j else if i.val + j.val = n.val + 256 then - (f i * g j) else 0

theorem convI_zq (f g : Fin 256 → Int) (n : Fin 256) : ((convI f g n : Int) : Zq) = mulRq (fun i => (f i : Zq)) (fun i => (g i : Zq)) n := by
  unfold convI mulRq
  push_cast
  rfl

/-- The sign of the term with index `i`. -/
def sgn (n i : Fin 256) : Int := if i.val ≤ n.val then 1 else -1

theorem convI_eq (f g : Fin 256 → Int) (n : Fin 256) : convI f g n = ∑ i, f i * (sgn n i * g (n - i)) := by
  unfold convI
  refine Finset.sum_congr rfl fun i _ => ?_
  have hv : (n - i).val = if i.val ≤ n.val then n.val - i.val else n.val + 256 - i.val := by
    rw [Fin.sub_def]
    show (256 - i.val + n.val) % 256 = _
    split <;> omega
  rw [Finset.sum_eq_single (n - i)]
  · unfold sgn
    rw [hv]
    have hi := i.isLt
    have hn := n.isLt
    by_cases h : i.val ≤ n.val
    · rw [if_pos h, if_pos h, if_pos (by omega)]
      ring
    · rw [if_neg h, if_neg h, if_neg (by omega), if_pos (by omega)]
      ring
  · intro j _ hj
    have hj' : j.val ≠ (n - i).val := fun e => hj (Fin.ext e)
    rw [hv] at hj'
    have hi := i.isLt
    have hn := n.isLt
    have hjl := j.isLt
    split at hj' <;> rw [if_neg (by omega), if_neg (by omega)]
  · simp

theorem sgn_sq (n i : Fin 256) (x : Int) : (sgn n i * x).natAbs = x.natAbs := by
  unfold sgn
  split <;> simp

/-- Reversing the index. -/
theorem prod_sub {M : Type} [CommMonoid M] (n : Fin 256) (g : Fin 256 → M) : ∏ i, g (n - i) = ∏ i, g i :=
  Fintype.prod_equiv (Equiv.subLeft n) _ _ fun _ => rfl

/-! ## The moment of the linear part -/

section
variable {k η₁ η₂ : Nat}

/-- The coefficients of a vector of polynomials as integers. -/
def vecI (η : Nat) (b : Fin k → Fin (64 * η) → Fin 256) (t : Fin k) (i : Fin 256) : Int := cbdInt η (bytesOf (b t)) i.val

theorem exp_vec (lam : ℝ) (x a : Fin k → Fin 256 → Int) :
    Real.exp (lam * ((∑ t, ∑ i, x t i * a t i : Int) : ℝ)) = ∏ t, ∏ i, Real.exp (lam * (a t i : ℝ) * (x t i : ℝ)) := by
  simp only [← Real.exp_sum]
  congr 1
  push_cast
  rw [Finset.mul_sum]
  refine Finset.sum_congr rfl fun t _ => ?_
  rw [Finset.mul_sum]
  refine Finset.sum_congr rfl fun i _ => ?_
  ring

theorem pow_natAbs_sq (c : ℝ) (a : Int) : Real.exp (c * (a : ℝ) ^ 2) = Real.exp c ^ (a.natAbs ^ 2) := by
  rw [← Real.exp_nat_mul]
  congr 1
  push_cast
  rw [Nat.cast_natAbs, Int.cast_abs, sq_abs]
  ring

/-- The moment of a linear form in the noise, for coefficients `a` bounded by `B`. -/
theorem linear_moment (hη : η₁ = 2 ∨ η₁ = 3) (lam X : ℝ) (hX1 : 1 ≤ X) (hX : Real.exp (η₁ * lam ^ 2 / 4) ≤ X) (a : Fin k → Fin 256 → Int) (B : Fin k → Fin 256 → Nat)
    (hB : ∀ t i, (a t i).natAbs ≤ B t i) :
    ∑ b : Fin k → Fin (64 * η₁) → Fin 256, Real.exp (lam * ((∑ t, ∑ i, vecI η₁ b t i * a t i : Int) : ℝ)) ≤ ((4 : ℝ) ^ η₁) ^ (256 * k) * ∏ t, ∏ i, X ^ (B t i ^ 2) := by
  simp only [exp_vec]
  rw [show (∑ b : Fin k → Fin (64 * η₁) → Fin 256, ∏ t, ∏ i : Fin 256, Real.exp (lam * (a t i : ℝ) * (vecI η₁ b t i : ℝ))) =
    ∏ t, ∏ i, ∑ c : Fin (2 * η₁) → Bool, Real.exp (lam * (a t i : ℝ) * (cbdVal η₁ c : ℝ)) from
      sum_cbd_vec η₁ k (by omega) fun t i v => Real.exp (lam * (a t i : ℝ) * (v : ℝ))]
  have h1 : ∀ t i, ∑ c : Fin (2 * η₁) → Bool, Real.exp (lam * (a t i : ℝ) * (cbdVal η₁ c : ℝ)) ≤ 4 ^ η₁ * X ^ (B t i ^ 2) := fun t i => by
    refine (mgf_le η₁ hη _).trans ?_
    refine mul_le_mul_of_nonneg_left ?_ (by positivity)
    rw [show (η₁ : ℝ) * (lam * (a t i : ℝ)) ^ 2 / 4 = (η₁ * lam ^ 2 / 4) * (a t i : ℝ) ^ 2 from by ring, pow_natAbs_sq]
    refine (pow_le_pow_left₀ (Real.exp_pos _).le hX _).trans ?_
    exact pow_le_pow_right₀ hX1 (Nat.pow_le_pow_left (hB t i) 2)
  refine (Finset.prod_le_prod (fun t _ => Finset.prod_nonneg fun i _ => Finset.sum_nonneg fun c _ => (Real.exp_pos _).le) fun t _ =>
    Finset.prod_le_prod (fun i _ => Finset.sum_nonneg fun c _ => (Real.exp_pos _).le) fun i _ => h1 t i).trans (le_of_eq ?_)
  simp only [Finset.prod_mul_distrib, Finset.prod_const, Finset.card_univ, Fintype.card_fin]
  rw [← pow_mul, ← pow_mul]

/-- The moment of squares. -/
theorem square_moment (η : Nat) (hη : 0 < η) (g : Int → ℝ) :
    ∑ b : Fin k → Fin (64 * η) → Fin 256, ∏ t, ∏ i, g (vecI η b t i) = (∑ c : Fin (2 * η) → Bool, g (cbdVal η c)) ^ (256 * k) := by
  rw [show (∑ b : Fin k → Fin (64 * η) → Fin 256, ∏ t, ∏ i, g (vecI η b t i)) = ∏ t : Fin k, ∏ i : Fin 256, ∑ c : Fin (2 * η) → Bool, g (cbdVal η c) from
    sum_cbd_vec η k hη fun t i v => g v]
  simp only [Finset.prod_const, Finset.card_univ, Fintype.card_fin]
  rw [← pow_mul]

/-- The linear part of coefficient `n` of the noise, for `w` in place of e₁ + c_u. -/
def linPart (n : Fin 256) (s e : Fin k → Fin (64 * η₁) → Fin 256) (y : Fin k → Fin (64 * η₁) → Fin 256) (w : Fin k → Fin 256 → Int) : Int :=
  ∑ t, convI (vecI η₁ e t) (vecI η₁ y t) n - ∑ t, convI (vecI η₁ s t) (w t) n

theorem total_moment (hη : η₁ = 2 ∨ η₁ = 3) (hη2 : 0 < η₂) (lam X : ℝ) (hX1 : 1 ≤ X) (hX : Real.exp (η₁ * lam ^ 2 / 4) ≤ X) (Bu : Nat) (n : Fin 256)
    (w : (Fin k → Fin (64 * η₁) → Fin 256) → (Fin k → Fin (64 * η₂) → Fin 256) → Fin k → Fin 256 → Int)
    (hw : ∀ y e1 t i, (w y e1 t i).natAbs ≤ (vecI η₂ e1 t i).natAbs + Bu) :
    ∑ y, ∑ e1, ∑ s, ∑ e, Real.exp (lam * (linPart n s e y (w y e1) : ℝ)) ≤
      ((4 : ℝ) ^ η₁) ^ (256 * k) * ((4 : ℝ) ^ η₁) ^ (256 * k) * (∑ c : Fin (2 * η₁) → Bool, X ^ ((cbdVal η₁ c).natAbs ^ 2)) ^ (256 * k) *
        (∑ c : Fin (2 * η₂) → Bool, X ^ (((cbdVal η₂ c).natAbs + Bu) ^ 2)) ^ (256 * k) := by
  rw [← square_moment η₁ (by omega) fun v => X ^ (v.natAbs ^ 2), ← square_moment η₂ hη2 fun v => X ^ ((v.natAbs + Bu) ^ 2), mul_assoc, Finset.sum_mul_sum, Finset.mul_sum]
  refine Finset.sum_le_sum fun y _ => ?_
  rw [Finset.mul_sum]
  refine Finset.sum_le_sum fun e1 _ => ?_
  have hs : ∀ s e, Real.exp (lam * (linPart n s e y (w y e1) : ℝ)) =
      Real.exp (-lam * ((∑ t, ∑ i, vecI η₁ s t i * (sgn n i * w y e1 t (n - i)) : Int) : ℝ)) *
      Real.exp (lam * ((∑ t, ∑ i, vecI η₁ e t i * (sgn n i * vecI η₁ y t (n - i)) : Int) : ℝ)) := fun s e => by
    rw [← Real.exp_add]
    congr 1
    unfold linPart
    simp only [convI_eq]
    push_cast
    ring
  simp only [hs]
  rw [← Finset.sum_mul_sum]
  have h1 := linear_moment hη (-lam) X hX1 (by rwa [neg_sq]) (fun t i => sgn n i * w y e1 t (n - i)) (fun t i => (vecI η₂ e1 t (n - i)).natAbs + Bu) fun t i => by
    rw [sgn_sq]; exact hw y e1 t (n - i)
  have h2 := linear_moment hη lam X hX1 hX (fun t i => sgn n i * vecI η₁ y t (n - i)) (fun t i => (vecI η₁ y t (n - i)).natAbs) fun t i => by
    rw [sgn_sq]
  rw [Finset.prod_congr rfl fun t _ => prod_sub n fun i => X ^ (((vecI η₂ e1 t i).natAbs + Bu) ^ 2)] at h1
  rw [Finset.prod_congr rfl fun t _ => prod_sub n fun i => X ^ ((vecI η₁ y t i).natAbs ^ 2)] at h2
  have hX0 : 0 ≤ X := by linarith
  refine (mul_le_mul h1 h2 (Finset.sum_nonneg fun _ _ => (Real.exp_pos _).le) ?_).trans (le_of_eq ?_)
  · positivity
  · ring

end

/-! ## Failure -/

/-- The rounding error as an integer. -/
noncomputable def rerr {d : Nat} (hd : d = 1 ∨ d = 4 ∨ d = 5 ∨ d = 10 ∨ d = 11) (x : Zq) : Int := Classical.choose (decompress_compress hd x)

theorem rerr_bound {d : Nat} (hd : d = 1 ∨ d = 4 ∨ d = 5 ∨ d = 10 ∨ d = 11) (x : Zq) : |rerr hd x| ≤ ((3329 + 2 ^ d) / 2 ^ (d + 1) : Nat) :=
  (Classical.choose_spec (decompress_compress hd x)).1

theorem roundErr_eq {d : Nat} (hd : d = 1 ∨ d = 4 ∨ d = 5 ∨ d = 10 ∨ d = 11) (f : Rq) (i : Fin 256) : roundErr d f i = ((rerr hd (f i) : Int) : Zq) := by
  unfold roundErr
  rw [(Classical.choose_spec (decompress_compress hd (f i))).2]
  exact add_sub_cancel_left _ _

theorem cbdVec_eq {k : Nat} (η : Nat) (b : Fin k → Fin (64 * η) → Fin 256) (t : Fin k) : cbdVec η b t.val = fun i => ((vecI η b t i : Int) : Zq) := by
  unfold cbdVec vecI
  rw [dif_pos t.isLt]
  funext i
  exact (cbdInt_zq η _ i).symm

section
variable (P : Params) (hdu : P.du = 1 ∨ P.du = 4 ∨ P.du = 5 ∨ P.du = 10 ∨ P.du = 11) (hdv : P.dv = 1 ∨ P.dv = 4 ∨ P.dv = 5 ∨ P.dv = 10 ∨ P.dv = 11)
  (A : Nat → Nat → Rq) (m : List UInt8)

/-- e₁ + c_u as integers -/
noncomputable def wI (y : Fin P.k → Fin (64 * P.η₁) → Fin 256) (e1 : Fin P.k → Fin (64 * P.η₂) → Fin 256) (t : Fin P.k) (i : Fin 256) : Int :=
  vecI P.η₂ e1 t i + rerr hdu ((NTTInv (dotNTT P.k (fun j => A j t.val) fun j => NTT (cbdVec P.η₁ y j)) + cbdVec P.η₂ e1 t.val) i)

theorem wI_bound (y : Fin P.k → Fin (64 * P.η₁) → Fin 256) (e1 : Fin P.k → Fin (64 * P.η₂) → Fin 256) (t : Fin P.k) (i : Fin 256) :
    (wI P hdu A y e1 t i).natAbs ≤ (vecI P.η₂ e1 t i).natAbs + (3329 + 2 ^ P.du) / 2 ^ (P.du + 1) := by
  have h := rerr_bound hdu ((NTTInv (dotNTT P.k (fun j => A j t.val) fun j => NTT (cbdVec P.η₁ y j)) + cbdVec P.η₂ e1 t.val) i)
  unfold wI
  refine (Int.natAbs_add_le _ _).trans (Nat.add_le_add_left ?_ _)
  rw [Int.abs_eq_natAbs] at h
  exact_mod_cast h

include hdv in
theorem noiseOf_lift (b : NoiseBytes P) (n : Fin 256) : ∃ r : Int, |r| ≤ P.η₂ + ((3329 + 2 ^ P.dv) / 2 ^ (P.dv + 1) : Nat) ∧
    noiseOf P A m b n = ((linPart n b.s b.e b.y (wI P hdu A b.y b.e1) + r : Int) : Zq) := by
  unfold noiseOf noiseTerm
  dsimp only
  generalize NTTInv (dotNTT P.k (fun i => dotNTT P.k (A i) (fun j => NTT (cbdVec P.η₁ b.s j)) + NTT (cbdVec P.η₁ b.e i)) fun j => NTT (cbdVec P.η₁ b.y j)) +
    SamplePolyCBD P.η₂ (List.ofFn fun j => UInt8.ofNat (b.e2 j).val) + (fun i => Decompress 1 (ByteDecode 1 m i)) = v
  refine ⟨cbdInt P.η₂ (bytesOf b.e2) n.val + rerr hdv (v n), ?_, ?_⟩
  · have h1 := cbdInt_bounds P.η₂ (bytesOf b.e2) n.val
    have h2 := rerr_bound hdv (v n)
    refine (abs_add_le _ _).trans (add_le_add (abs_le.2 ⟨h1.1, h1.2⟩) h2)
  · have e1 : ∀ t : Fin P.k, (cbdVec P.η₂ b.e1 t.val + roundErr P.du (NTTInv (dotNTT P.k (fun j => A j t.val) fun j => NTT (cbdVec P.η₁ b.y j)) + cbdVec P.η₂ b.e1 t.val)) =
        fun i => ((wI P hdu A b.y b.e1 t i : Int) : Zq) := fun t => by
      funext i
      show cbdVec P.η₂ b.e1 t.val i + roundErr P.du _ i = _
      rw [roundErr_eq hdu]
      unfold wI
      rw [Int.cast_add, ← congrFun (cbdVec_eq P.η₂ b.e1 t) i]
    rw [Finset.sum_range, Finset.sum_range]
    simp only [e1]
    simp only [cbdVec_eq]
    show (∑ t : Fin P.k, mulRq _ _) n + SamplePolyCBD P.η₂ _ n + roundErr P.dv v n - (∑ t : Fin P.k, mulRq _ _) n = _
    rw [roundErr_eq hdv, ← cbdInt_zq, Finset.sum_apply, Finset.sum_apply]
    simp only [← convI_zq]
    unfold linPart
    push_cast
    show _ + ((cbdInt P.η₂ (bytesOf b.e2) n.val : Int) : Zq) + _ - _ = _
    ring

include hdv in
theorem within_of_linPart (hη2 : P.η₂ = 2) (b : NoiseBytes P)
    (h : ∀ n, |linPart n b.s b.e b.y (wI P hdu A b.y b.e1)| + ((3329 + 2 ^ P.dv) / 2 ^ (P.dv + 1) : Nat) ≤ 829) : WithinThreshold m (noiseOf P A m b) := by
  intro n
  obtain ⟨r, hr, e⟩ := noiseOf_lift P hdu hdv A m b n
  rw [hη2] at hr
  have h1 := abs_le.1 hr
  have h2 := h n
  generalize linPart n b.s b.e b.y (wI P hdu A b.y b.e1) = L at *
  generalize (((3329 + 2 ^ P.dv) / 2 ^ (P.dv + 1) : Nat) : Int) = B at *
  have h3 := abs_le.1 (le_refl |L|)
  push_cast at h1
  refine ⟨L + r, e.symm, by omega, ?_⟩
  split <;> omega

/-- The byte strings as a product. -/
def nbEquiv : NoiseBytes P ≃ (Fin P.k → Fin (64 * P.η₁) → Fin 256) × (Fin P.k → Fin (64 * P.η₂) → Fin 256) × (Fin P.k → Fin (64 * P.η₁) → Fin 256) ×
    (Fin P.k → Fin (64 * P.η₁) → Fin 256) × (Fin (64 * P.η₂) → Fin 256) where
  toFun b := (b.y, b.e1, b.s, b.e, b.e2)
  invFun x := ⟨x.2.2.1, x.2.2.2.1, x.1, x.2.1, x.2.2.2.2⟩
  left_inv _ := rfl
  right_inv _ := rfl

instance : Fintype (NoiseBytes P) := Fintype.ofEquiv _ (nbEquiv P).symm

theorem card_noiseBytes : Nat.card (NoiseBytes P) = 256 ^ (64 * (3 * P.k * P.η₁ + P.k * P.η₂ + P.η₂)) := by
  rw [Nat.card_congr (nbEquiv P)]
  rw [Nat.card_eq_fintype_card]
  simp only [Fintype.card_prod, Fintype.card_fun, Fintype.card_fin]
  rw [← pow_mul, ← pow_mul, ← pow_add, ← pow_add, ← pow_add, ← pow_add]
  congr 1
  ring

theorem sum_noiseBytes (F : (Fin P.k → Fin (64 * P.η₁) → Fin 256) → (Fin P.k → Fin (64 * P.η₂) → Fin 256) → (Fin P.k → Fin (64 * P.η₁) → Fin 256) →
      (Fin P.k → Fin (64 * P.η₁) → Fin 256) → ℝ) :
    ∑ b : NoiseBytes P, F b.y b.e1 b.s b.e = (256 : ℝ) ^ (64 * P.η₂) * ∑ y, ∑ e1, ∑ s, ∑ e, F y e1 s e := by
  rw [Fintype.sum_equiv (nbEquiv P) (fun b => F b.y b.e1 b.s b.e) (fun x => F x.1 x.2.1 x.2.2.1 x.2.2.2.1) fun _ => rfl]
  rw [Fintype.sum_prod_type, Finset.mul_sum]
  refine Finset.sum_congr rfl fun y _ => ?_
  rw [Fintype.sum_prod_type, Finset.mul_sum]
  refine Finset.sum_congr rfl fun e1 _ => ?_
  rw [Fintype.sum_prod_type, Finset.mul_sum]
  refine Finset.sum_congr rfl fun s _ => ?_
  rw [Fintype.sum_prod_type, Finset.mul_sum]
  refine Finset.sum_congr rfl fun e _ => ?_
  dsimp only
  rw [Finset.sum_const, Finset.card_univ, nsmul_eq_mul]
  simp

include hdu hdv in
theorem failure_bound (hη : P.η₁ = 2 ∨ P.η₁ = 3) (hη2 : P.η₂ = 2) (lam X : ℝ) (hlam : 0 ≤ lam) (hX1 : 1 ≤ X) (hX : Real.exp (P.η₁ * lam ^ 2 / 4) ≤ X) (T : Nat)
    (hT : T + (3329 + 2 ^ P.dv) / 2 ^ (P.dv + 1) = 830) :
    (Set.ncard {b : NoiseBytes P | ¬ WithinThreshold m (noiseOf P A m b)} : ℝ) ≤ 512 * Real.exp (-(lam * T)) * ((256 : ℝ) ^ (64 * P.η₂) *
      (((4 : ℝ) ^ P.η₁) ^ (256 * P.k) * ((4 : ℝ) ^ P.η₁) ^ (256 * P.k) * (∑ c : Fin (2 * P.η₁) → Bool, X ^ ((cbdVal P.η₁ c).natAbs ^ 2)) ^ (256 * P.k) *
        (∑ c : Fin (2 * P.η₂) → Bool, X ^ (((cbdVal P.η₂ c).natAbs + (3329 + 2 ^ P.du) / 2 ^ (P.du + 1)) ^ 2)) ^ (256 * P.k))) := by
  classical
  generalize hR : ((256 : ℝ) ^ (64 * P.η₂) * _) = R
  have hm : ∀ lam' : ℝ, lam' ^ 2 = lam ^ 2 → ∀ n, ∑ b : NoiseBytes P, Real.exp (lam' * (linPart n b.s b.e b.y (wI P hdu A b.y b.e1) : ℝ)) ≤ R := fun lam' hl n => by
    rw [← hR]
    rw [sum_noiseBytes P fun y e1 s e => Real.exp (lam' * (linPart n s e y (wI P hdu A y e1) : ℝ))]
    exact mul_le_mul_of_nonneg_left (total_moment hη (by omega) lam' X hX1 (by rw [hl]; exact hX) _ n (wI P hdu A) (wI_bound P hdu A)) (by positivity)
  have hp := hm lam rfl
  have hn := hm (-lam) (neg_sq lam)
  rw [show {b : NoiseBytes P | ¬ WithinThreshold m (noiseOf P A m b)} = ↑(({b | ¬ WithinThreshold m (noiseOf P A m b)} : Finset (NoiseBytes P))) from by ext; simp,
    Set.ncard_coe_finset, Finset.card_filter]
  push_cast
  have hb : ∀ b : NoiseBytes P, (if ¬ WithinThreshold m (noiseOf P A m b) then (1 : ℝ) else 0) ≤
      ∑ n : Fin 256, Real.exp (-(lam * T)) * (Real.exp (lam * (linPart n b.s b.e b.y (wI P hdu A b.y b.e1) : ℝ)) +
        Real.exp (-lam * (linPart n b.s b.e b.y (wI P hdu A b.y b.e1) : ℝ))) := fun b => by
    split
    · rename_i hf
      have : ∃ n, T ≤ (linPart n b.s b.e b.y (wI P hdu A b.y b.e1)).natAbs := by
        by_contra hc
        simp only [not_exists, not_le] at hc
        refine hf (within_of_linPart P hdu hdv A m hη2 b fun n => ?_)
        have := hc n
        rw [Int.abs_eq_natAbs]
        omega
      obtain ⟨n, hL⟩ := this
      refine le_trans ?_ (Finset.single_le_sum (f := fun n : Fin 256 => Real.exp (-(lam * T)) * (Real.exp (lam * (linPart n b.s b.e b.y (wI P hdu A b.y b.e1) : ℝ)) +
        Real.exp (-lam * (linPart n b.s b.e b.y (wI P hdu A b.y b.e1) : ℝ)))) (fun n _ => by positivity) (Finset.mem_univ n))
      generalize linPart n b.s b.e b.y (wI P hdu A b.y b.e1) = L at *
      rw [mul_add, ← Real.exp_add, ← Real.exp_add]
      have hL' : (T : ℝ) ≤ |(L : ℝ)| := by
        rw [← Int.cast_abs, Int.abs_eq_natAbs]
        exact_mod_cast hL
      rcases le_abs.1 hL' with h | h
      · have : 1 ≤ Real.exp (-(lam * T) + lam * L) := Real.one_le_exp (by nlinarith)
        have := Real.exp_pos (-(lam * T) + -lam * L)
        linarith
      · have : 1 ≤ Real.exp (-(lam * T) + -lam * L) := Real.one_le_exp (by nlinarith)
        have := Real.exp_pos (-(lam * T) + lam * L)
        linarith
    · exact Finset.sum_nonneg fun n _ => by positivity
  refine (Finset.sum_le_sum fun b _ => hb b).trans ?_
  rw [Finset.sum_comm]
  have hc : ∀ n : Fin 256, ∑ b : NoiseBytes P, Real.exp (-(lam * T)) * (Real.exp (lam * (linPart n b.s b.e b.y (wI P hdu A b.y b.e1) : ℝ)) +
        Real.exp (-lam * (linPart n b.s b.e b.y (wI P hdu A b.y b.e1) : ℝ))) ≤ Real.exp (-(lam * T)) * (2 * R) := fun n => by
    rw [← Finset.mul_sum, Finset.sum_add_distrib]
    refine mul_le_mul_of_nonneg_left ?_ (Real.exp_pos _).le
    have := hp n
    have := hn n
    linarith
  refine (Finset.sum_le_sum fun n _ => hc n).trans (le_of_eq ?_)
  rw [Finset.sum_const, Finset.card_univ, Fintype.card_fin, nsmul_eq_mul]
  push_cast
  ring

end

theorem noiseTerm_congr {P : Params} (A : Nat → Nat → Rq) (m : List UInt8) {s s' e e' y y' e1 e1' : Nat → Rq} {e2 e2' : Rq} (hs : ∀ i < P.k, s i = s' i)
    (he : ∀ i < P.k, e i = e' i) (hy : ∀ i < P.k, y i = y' i) (he1 : ∀ i < P.k, e1 i = e1' i) (he2 : e2 = e2') : noiseTerm P A m s e y e1 e2 = noiseTerm P A m s' e' y' e1' e2' := by
  have hN : ∀ {f f' : Nat → Rq}, (∀ i < P.k, f i = f' i) → ∀ i < P.k, NTT (f i) = NTT (f' i) := fun h i hi => by rw [h i hi]
  have h1 : ∑ i ∈ range P.k, mulRq (e i) (y i) = ∑ i ∈ range P.k, mulRq (e' i) (y' i) :=
    Finset.sum_congr rfl fun i hi => by rw [he i (Finset.mem_range.1 hi), hy i (Finset.mem_range.1 hi)]
  have h2 : dotNTT P.k (fun i => dotNTT P.k (A i) (fun j => NTT (s j)) + NTT (e i)) (fun j => NTT (y j)) =
      dotNTT P.k (fun i => dotNTT P.k (A i) (fun j => NTT (s' j)) + NTT (e' i)) (fun j => NTT (y' j)) :=
    dotNTT_congr (fun i hi => by rw [he i hi, dotNTT_congr (fun _ _ => rfl) (hN hs)]) (hN hy)
  have h3 : ∑ i ∈ range P.k, mulRq (s i) (e1 i + roundErr P.du (NTTInv (dotNTT P.k (fun j => A j i) fun j => NTT (y j)) + e1 i)) =
      ∑ i ∈ range P.k, mulRq (s' i) (e1' i + roundErr P.du (NTTInv (dotNTT P.k (fun j => A j i) fun j => NTT (y' j)) + e1' i)) :=
    Finset.sum_congr rfl fun i hi => by rw [hs i (Finset.mem_range.1 hi), he1 i (Finset.mem_range.1 hi), dotNTT_congr (fun _ _ => rfl) (hN hy)]
  subst he2
  unfold noiseTerm
  dsimp only
  rw [h1, h2, h3]

/-- e to a negative integer, from above. -/
theorem exp_neg_le (M : Nat) : Real.exp (-(M : ℝ)) ≤ (10 ^ 10 / 27182818283 : ℝ) ^ M := by
  rw [Real.exp_neg, ← Real.exp_one_rpow, Real.rpow_natCast, ← inv_pow]
  refine pow_le_pow_left₀ (by positivity) ?_ M
  have := Real.exp_one_gt_d9
  rw [inv_le_comm₀ (by positivity) (by norm_num)]
  norm_num at this ⊢
  exact this.le

theorem exp_le_inv {u X : ℝ} (h : X * (1 - u) = 1) (hu : u < 1) : Real.exp u ≤ X := by
  have h1 := Real.one_sub_le_exp_neg u
  rw [Real.exp_neg] at h1
  have hp := Real.exp_pos u
  have h2 : (1 - u) * Real.exp u ≤ 1 := by
    have := mul_le_mul_of_nonneg_right h1 hp.le
    rwa [inv_mul_cancel₀ hp.ne'] at this
  have hu' : 0 < 1 - u := by linarith
  nlinarith

theorem count_le {n w : Nat} {B M a b Da Db C N : Nat} {α β E : ℝ} (hDa : 0 < Da) (hDb : 0 < Db) (h : (n : ℝ) ≤ 512 * E * (C * (α ^ N * β ^ N))) (hα : α = a / Da) (hβ : β = b / Db)
    (hE : E ≤ (10 ^ 10 / 27182818283 : ℝ) ^ M) (hN : 512 * 2 ^ B * (10 ^ 10) ^ M * a ^ N * b ^ N * C ≤ w * 27182818283 ^ M * Da ^ N * Db ^ N) : n * 2 ^ B ≤ w := by
  subst hα hβ
  have hDa' : (0 : ℝ) < Da := by exact_mod_cast hDa
  have hDb' : (0 : ℝ) < Db := by exact_mod_cast hDb
  have hK : (0 : ℝ) < 27182818283 ^ M * Da ^ N * Db ^ N := by positivity
  have h1 : (n : ℝ) ≤ 512 * (10 ^ 10 / 27182818283 : ℝ) ^ M * (C * ((a / Da : ℝ) ^ N * (b / Db : ℝ) ^ N)) := by
    refine h.trans ?_
    refine mul_le_mul_of_nonneg_right ?_ (by positivity)
    linarith
  have h2 : (n : ℝ) * 2 ^ B * (27182818283 ^ M * Da ^ N * Db ^ N) ≤ w * (27182818283 ^ M * Da ^ N * Db ^ N) := by
    have h3 : ((512 * 2 ^ B * (10 ^ 10) ^ M * a ^ N * b ^ N * C : Nat) : ℝ) ≤ ((w * 27182818283 ^ M * Da ^ N * Db ^ N : Nat) : ℝ) := by exact_mod_cast hN
    simp only [Nat.cast_mul, Nat.cast_pow, Nat.cast_ofNat] at h3
    calc (n : ℝ) * 2 ^ B * (27182818283 ^ M * Da ^ N * Db ^ N)
        ≤ (512 * (10 ^ 10 / 27182818283 : ℝ) ^ M * (C * ((a / Da : ℝ) ^ N * (b / Db : ℝ) ^ N))) * 2 ^ B * (27182818283 ^ M * Da ^ N * Db ^ N) := by gcongr
      _ = 512 * 2 ^ B * (10 ^ 10) ^ M * a ^ N * b ^ N * C := by
        rw [div_pow, div_pow, div_pow]
        field_simp
      _ ≤ w * 27182818283 ^ M * Da ^ N * Db ^ N := h3
      _ = w * (27182818283 ^ M * Da ^ N * Db ^ N) := by ring
  have h4 := le_of_mul_le_mul_right h2 hK
  exact_mod_cast h4

/-- The bound for parameters that are computed by the kernel. -/
theorem failure_count (P : Params) (hdu : P.du = 1 ∨ P.du = 4 ∨ P.du = 5 ∨ P.du = 10 ∨ P.du = 11) (hdv : P.dv = 1 ∨ P.dv = 4 ∨ P.dv = 5 ∨ P.dv = 10 ∨ P.dv = 11)
    (hη : P.η₁ = 2 ∨ P.η₁ = 3) (hη2 : P.η₂ = 2) (A : Nat → Nat → Rq) (m : List UInt8) (T M B x y a b Da Db : Nat) (hT : T + (3329 + 2 ^ P.dv) / 2 ^ (P.dv + 1) = 830) (hT0 : 0 < T)
    (hy : 0 < y) (hxy : y ≤ x) (hX : 4 * T ^ 2 * (x - y) = P.η₁ * M ^ 2 * x) (hlt : P.η₁ * M ^ 2 < 4 * T ^ 2) (hDa : 0 < Da) (hDb : 0 < Db)
    (ha : ∑ c : Fin (2 * P.η₁) → Bool, (x / y : ℝ) ^ ((cbdVal P.η₁ c).natAbs ^ 2) = a / Da)
    (hb : ∑ c : Fin (2 * P.η₂) → Bool, (x / y : ℝ) ^ (((cbdVal P.η₂ c).natAbs + (3329 + 2 ^ P.du) / 2 ^ (P.du + 1)) ^ 2) = b / Db)
    (hN : 512 * 2 ^ B * (10 ^ 10) ^ M * a ^ (256 * P.k) * b ^ (256 * P.k) * (256 ^ (64 * P.η₂) * ((4 ^ P.η₁) ^ (256 * P.k) * (4 ^ P.η₁) ^ (256 * P.k))) ≤
      256 ^ (64 * (3 * P.k * P.η₁ + P.k * P.η₂ + P.η₂)) * 27182818283 ^ M * Da ^ (256 * P.k) * Db ^ (256 * P.k)) :
    Set.ncard {b : NoiseBytes P | ¬ WithinThreshold m (noiseOf P A m b)} * 2 ^ B ≤ Nat.card (NoiseBytes P) := by
  rw [card_noiseBytes]
  have hT0' : (0 : ℝ) < T := by exact_mod_cast hT0
  have hy' : (0 : ℝ) < y := by exact_mod_cast hy
  have hxy' : (y : ℝ) ≤ x := by exact_mod_cast hxy
  have hX' : 4 * (T : ℝ) ^ 2 * (x - y) = P.η₁ * M ^ 2 * x := by
    rw [← Nat.cast_sub hxy]
    exact_mod_cast hX
  have hlt' : P.η₁ * (M : ℝ) ^ 2 < 4 * T ^ 2 := by exact_mod_cast hlt
  have hu : (P.η₁ : ℝ) * (M / T : ℝ) ^ 2 / 4 = P.η₁ * M ^ 2 / (4 * T ^ 2) := by
    field_simp
  have h := failure_bound P hdu hdv A m hη hη2 (M / T) (x / y) (by positivity) (by rw [le_div_iff₀ hy']; linarith) (by
    refine exp_le_inv ?_ ?_
    · rw [hu]
      field_simp
      linarith
    · rw [hu, div_lt_one (by positivity)]
      exact hlt') T hT
  refine count_le (M := M) (N := 256 * P.k) (C := 256 ^ (64 * P.η₂) * ((4 ^ P.η₁) ^ (256 * P.k) * (4 ^ P.η₁) ^ (256 * P.k))) hDa hDb (h.trans (le_of_eq ?_)) ha hb (exp_neg_le M) hN
  rw [div_mul_cancel₀ _ hT0'.ne']
  push_cast
  ring

end Verif.Proof
