import Verif.Proof.Poly
import Verif.Proof.NttPoly

/-! # C12, C13, C14: the number-theoretic transform and 16-bit coefficient arithmetic

`polyMem x` is a `poly` object with coefficients `x`, `residues x` the ring element it stands for. `Runs m Q` says that `m` ends
normally, without undefined behaviour and without a 16-bit coefficient wrapping, in a result satisfying `Q`. -/

namespace Verif.Props
open Verif.Model Verif.Proof Verif.Spec

/-- C13. `poly_ntt` computes the NTT of FIPS 203 with centred coefficients, for inputs of absolute value up to 15288 (the code documents
inputs reduced modulo q, that is below 3329). -/
theorem C13_poly_ntt (x : Fin 256 → Int16) (h : ∀ i, -15288 ≤ (x i).toInt ∧ (x i).toInt ≤ 15288) :
    Runs (poly_ntt (polyMem x)) (fun r => ∃ y, r = polyMem y ∧ residues y = NTT (residues x) ∧
      ∀ i, -1664 ≤ (y i).toInt ∧ (y i).toInt ≤ 1664) :=
  (poly_ntt_runs (polyR_polyMem x 15288 h) (by omega)).mono fun _ h => h.exists

/-- C13. Components 2i and 2i+1 of the transform are the residue of the polynomial modulo X^2 - 17^(2 BitRev_7(i) + 1). -/
theorem C13_residue (f : Rq) (i : Nat) (hi : i < 128) :
    toPoly f %ₘ (Polynomial.X ^ 2 - Polynomial.C ((17 : Zq) ^ (2 * bitRev7 i + 1))) =
      Polynomial.C (NTT f ⟨2 * i, by omega⟩) + Polynomial.C (NTT f ⟨2 * i + 1, by omega⟩) * Polynomial.X :=
  toPoly_ntt f i hi

/-- C13. `poly_invntt_tomont` undoes `poly_ntt` up to the Montgomery factor 2^16. -/
theorem C13_invntt_ntt (x : Fin 256 → Int16) (h : ∀ i, -15288 ≤ (x i).toInt ∧ (x i).toInt ≤ 15288) :
    Runs (do let r ← poly_ntt (polyMem x); poly_invntt_tomont r) (fun r => ∃ y, r = polyMem y ∧
      (∀ i, residues y i = 2 ^ 16 * residues x i) ∧ ∀ i, -2497 ≤ (y i).toInt ∧ (y i).toInt ≤ 2497) := by
  rw [runs_bind]
  refine (poly_ntt_runs (polyR_polyMem x 15288 h) (by omega)).mono fun r hr => ?_
  refine (poly_invntt_runs hr (by omega)).mono fun r' hr' => ?_
  obtain ⟨y, h1, h2, h3⟩ := hr'.exists
  refine ⟨y, h1, fun i => ?_, h3⟩
  rw [h2, nttInv_ntt]
  norm_num

/-- C13. `poly_invntt_tomont` computes the inverse NTT times 2^16 on every input of absolute value up to 16383. -/
theorem C13_invntt (x : Fin 256 → Int16) (h : ∀ i, -16383 ≤ (x i).toInt ∧ (x i).toInt ≤ 16383) :
    Runs (poly_invntt_tomont (polyMem x)) (fun r => ∃ y, r = polyMem y ∧
      (∀ i, residues y i = 2 ^ 16 * NTTInv (residues x) i) ∧ ∀ i, -2497 ≤ (y i).toInt ∧ (y i).toInt ≤ 2497) := by
  refine (poly_invntt_runs (polyR_polyMem x 16383 h) (by omega)).mono fun r' hr' => ?_
  obtain ⟨y, h1, h2, h3⟩ := hr'.exists
  refine ⟨y, h1, fun i => ?_, h3⟩
  rw [h2]
  norm_num

/-- C13. The two transforms of the specification are inverse to each other. -/
theorem C13_inverse (f : Rq) : NTTInv (NTT f) = f ∧ NTT (NTTInv f) = f := ⟨nttInv_ntt f, ntt_nttInv f⟩

/-- C12. Transform, multiply, transform back: the result is the product in Z_q[X]/(X^256 + 1). -/
theorem C12_ntt_multiplication (x y : Fin 256 → Int16) (hx : ∀ i, -15288 ≤ (x i).toInt ∧ (x i).toInt ≤ 15288)
    (hy : ∀ i, -15288 ≤ (y i).toInt ∧ (y i).toInt ≤ 15288) (r : Mem Int16) (hr : r.size = 256) :
    Runs (do
        let a ← poly_ntt (polyMem x)
        let b ← poly_ntt (polyMem y)
        let r ← poly_basemul_montgomery r a b
        poly_invntt_tomont r)
      (fun r => ∃ z, r = polyMem z ∧
        toPoly (residues z) = (toPoly (residues x) * toPoly (residues y)) %ₘ (Polynomial.X ^ 256 + 1)) := by
  simp only [runs_bind]
  refine (poly_ntt_runs (polyR_polyMem x 15288 hx) (by omega)).mono fun a ha => ?_
  refine (poly_ntt_runs (polyR_polyMem y 15288 hy) (by omega)).mono fun b hb => ?_
  refine (poly_basemul_runs hr ha hb).mono fun c hc => ?_
  refine (poly_invntt_runs hc (by omega)).mono fun r' hr' => ?_
  obtain ⟨z, h1, h2, h3⟩ := hr'.exists
  refine ⟨z, h1, ?_⟩
  have hm : (fun i => 169 * MultiplyNTTs (NTT (residues x)) (NTT (residues y)) i) =
      NTT (fun i => 169 * mulRq (residues x) (residues y) i) := by
    rw [← ntt_mul]
    funext i
    unfold NTT
    rw [Finset.mul_sum]
    exact Finset.sum_congr rfl fun j _ => by rw [mul_assoc]
  have hz : residues z = mulRq (residues x) (residues y) := by
    rw [h2, hm, nttInv_ntt]
    funext i
    have := zq_inv_R
    linear_combination (mulRq (residues x) (residues y) i) * this
  rw [← toPoly_mulRq, hz]

/-- C12. The pointwise product alone: `MultiplyNTTs` of FIPS 203, times the Montgomery factor 2^-16 = 169. -/
theorem C12_basemul (x y : Fin 256 → Int16) (hy : ∀ i, -1664 ≤ (y i).toInt ∧ (y i).toInt ≤ 1664) (r : Mem Int16) (hr : r.size = 256) :
    Runs (poly_basemul_montgomery r (polyMem x) (polyMem y)) (fun r => ∃ z, r = polyMem z ∧
      (∀ i, 2 ^ 16 * residues z i = MultiplyNTTs (residues x) (residues y) i) ∧
      ∀ i, -4994 ≤ (z i).toInt ∧ (z i).toInt ≤ 4994) := by
  have hx : ∀ i, -32768 ≤ (x i).toInt ∧ (x i).toInt ≤ 32768 := fun i => by
    have := (x i).le_toInt; have := (x i).toInt_lt; omega
  refine (poly_basemul_runs hr (polyR_polyMem x 32768 hx) (polyR_polyMem y 1664 hy)).mono fun r' hr' => ?_
  obtain ⟨z, h1, h2, h3⟩ := hr'.exists
  refine ⟨z, h1, fun i => ?_, h3⟩
  rw [h2]
  have := zq_inv_R
  linear_combination (MultiplyNTTs (residues x) (residues y) i) * this

/-- C14. The butterflies of the forward transform never wrap, and grow the coefficients by at most 7 * 2497. -/
theorem C14_ntt (x : Fin 256 → Int16) (B : Int) (hB : B ≤ 15288) (h : ∀ i, -B ≤ (x i).toInt ∧ (x i).toInt ≤ B) :
    Runs (ntt (polyMem x)) (fun r => ∃ y, r = polyMem y ∧ residues y = NTT (residues x) ∧
      ∀ i, -(B + 7 * 2497) ≤ (y i).toInt ∧ (y i).toInt ≤ B + 7 * 2497) :=
  (ntt_runsR (polyR_polyMem x B h) hB).mono fun _ h => by
    obtain ⟨y, h1, h2, h3⟩ := h.exists
    exact ⟨y, h1, h2, fun i => by have := h3 i; omega⟩

/-- C14. `poly_add` gives the exact integer sums whenever they fit in 16 bits. -/
theorem C14_poly_add (r : Mem Int16) (hr : r.size = 256) (x y : Fin 256 → Int16)
    (h : ∀ i, -32768 ≤ (x i).toInt + (y i).toInt ∧ (x i).toInt + (y i).toInt ≤ 32767) :
    Runs (poly_add r (polyMem x) (polyMem y)) (fun r => ∃ z, r = polyMem z ∧ ∀ i, (z i).toInt = (x i).toInt + (y i).toInt) :=
  poly_add_exact r hr x y h

/-- C14. `poly_sub` gives the exact integer differences whenever they fit in 16 bits. -/
theorem C14_poly_sub (r : Mem Int16) (hr : r.size = 256) (x y : Fin 256 → Int16)
    (h : ∀ i, -32768 ≤ (x i).toInt - (y i).toInt ∧ (x i).toInt - (y i).toInt ≤ 32767) :
    Runs (poly_sub r (polyMem x) (polyMem y)) (fun r => ∃ z, r = polyMem z ∧ ∀ i, (z i).toInt = (x i).toInt - (y i).toInt) :=
  poly_sub_exact r hr x y h

/-- An input for which the hypotheses hold: all coefficients at the bound. -/
example : ∀ i : Fin 256, -15288 ≤ ((fun _ => 15288 : Fin 256 → Int16) i).toInt ∧ ((fun _ => 15288 : Fin 256 → Int16) i).toInt ≤ 15288 :=
  fun _ => by show -15288 ≤ (15288 : Int16).toInt ∧ (15288 : Int16).toInt ≤ 15288; decide

/-- The hypothesis of `C14_poly_add` is needed: 32767 + 1 does not fit, and the model reports it. -/
example : ¬ Runs (poly_add (polyMem fun _ => 0) (polyMem fun _ => 32767) (polyMem fun _ => 1)) (fun _ => True) := by
  decide +kernel

/-- The transform of the polynomial X has the root in component 2i+1 and not 0: the specification distinguishes inputs. -/
example : NTT (fun i => if i.val = 1 then 1 else 0) ≠ NTT (fun _ => 0) := fun h => by
  have := congrFun (ntt_injective h) ⟨1, by omega⟩
  revert this
  decide

/-- X^255 * X = -1 in the ring: the product is negacyclic. -/
example : mulRq (fun i => if i.val = 255 then 1 else 0) (fun i => if i.val = 1 then 1 else 0) = fun i => if i.val = 0 then -1 else 0 := by
  funext k
  unfold mulRq
  rw [Finset.sum_eq_single ⟨255, by omega⟩, Finset.sum_eq_single ⟨1, by omega⟩]
  · have := k.isLt
    by_cases h : k.val = 0
    · simp [h]
    · rw [if_neg (by simp; omega), if_neg (by simp; omega), if_neg h]
  · intro b _ hb
    have : b.val ≠ 1 := fun h => hb (Fin.ext h)
    simp [this]
  · simp
  · intro b _ hb
    have : b.val ≠ 255 := fun h => hb (Fin.ext h)
    simp [this]
  · simp

end Verif.Props
