import Verif.Proof.NttSpec
import Verif.Spec.Polynomial
import Mathlib.RingTheory.AdjoinRoot

/-! # The specification NTT and ring product, in terms of Mathlib polynomials -/

namespace Verif.Proof
open Verif.Spec Finset Polynomial

theorem evAlg_mul {R : Type} [CommRing R] [Algebra Zq R] (w : R) (hw : w ^ 256 = -1) (f g : Rq) :
    ∑ k : Fin 256, algebraMap Zq R (mulRq f g k) * w ^ k.val =
      (∑ i : Fin 256, algebraMap Zq R (f i) * w ^ i.val) * ∑ j : Fin 256, algebraMap Zq R (g j) * w ^ j.val := by
  unfold mulRq
  rw [sum_mul_sum]
  simp only [map_sum, sum_mul]
  rw [sum_comm]
  refine Fintype.sum_congr _ _ fun a => ?_
  rw [sum_comm]
  refine Fintype.sum_congr _ _ fun b => ?_
  have ha := a.isLt
  have hb := b.isLt
  have hk : ∀ k : Fin 256, (algebraMap Zq R
      (if a.val + b.val = k.val then f a * g b else if a.val + b.val = k.val + 256 then -(f a * g b) else 0)) * w ^ k.val =
      if k = (⟨(a.val + b.val) % 256, by omega⟩ : Fin 256) then
        (algebraMap Zq R (f a)) * w ^ a.val * ((algebraMap Zq R (g b)) * w ^ b.val)
      else 0 := by
    intro k
    have hkl := k.isLt
    by_cases h1 : a.val + b.val = k.val
    · rw [if_pos h1, if_pos (Fin.ext (by simp; omega)), ← h1, map_mul, pow_add]; ring
    · rw [if_neg h1]
      by_cases h2 : a.val + b.val = k.val + 256
      · rw [if_pos h2, if_pos (Fin.ext (by simp; omega)), map_neg, map_mul]
        have : w ^ a.val * w ^ b.val = - w ^ k.val := by
          rw [← pow_add, h2, pow_add, hw]; ring
        linear_combination (-(algebraMap Zq R (f a)) * (algebraMap Zq R (g b))) * this
      · rw [if_neg h2, if_neg (fun h => by have := congrArg Fin.val h; simp at this; omega), map_zero, zero_mul]
  rw [Fintype.sum_congr _ _ hk, sum_ite_eq']
  simp

theorem toPoly_degree (f : Rq) : (toPoly f).degree < 256 := by
  unfold toPoly
  refine lt_of_le_of_lt (degree_sum_le _ _) ?_
  rw [Finset.sup_lt_iff (by decide)]
  intro i _
  refine lt_of_le_of_lt (degree_C_mul_X_pow_le _ _) ?_
  exact_mod_cast i.isLt

theorem monic_pow_one (n : Nat) (hn : n ≠ 0) : (X ^ n + 1 : Zq[X]).Monic := by
  have := monic_X_pow_add_C (1 : Zq) hn
  rwa [map_one] at this

theorem degree_pow_one (n : Nat) (hn : 0 < n) : (X ^ n + 1 : Zq[X]).degree = n := by
  have := degree_X_pow_add_C hn (1 : Zq)
  rwa [map_one] at this

theorem toPoly_mulRq_dvd (f g : Rq) (n : Nat) (hn : n = 256) : (X ^ n + 1 : Zq[X]) ∣ toPoly f * toPoly g - toPoly (mulRq f g) := by
  rw [← Ideal.mem_span_singleton, ← Ideal.Quotient.eq_zero_iff_mem, map_sub, map_mul, sub_eq_zero]
  have hw : (Ideal.Quotient.mk (Ideal.span {(X ^ n + 1 : Zq[X])}) X) ^ n = -1 := by
    rw [eq_neg_iff_add_eq_zero, ← map_pow, ← map_one (Ideal.Quotient.mk (Ideal.span {(X ^ n + 1 : Zq[X])})), ← map_add,
      Ideal.Quotient.eq_zero_iff_mem]
    exact Ideal.mem_span_singleton_self _
  generalize hI : Ideal.span {(X ^ n + 1 : Zq[X])} = I at hw ⊢
  rw [hn] at hw
  have h := evAlg_mul (R := Zq[X] ⧸ I) _ hw f g
  have hp : ∀ f : Rq, Ideal.Quotient.mk I (toPoly f) =
      ∑ i : Fin 256, algebraMap Zq (Zq[X] ⧸ I) (f i) * (Ideal.Quotient.mk I X) ^ i.val := by
    intro f
    unfold toPoly
    rw [map_sum]
    refine Fintype.sum_congr _ _ fun i => ?_
    rw [map_mul, map_pow]; rfl
  rw [hp, hp, hp]
  exact h.symm

/-- `mulRq` is the product modulo X^256 + 1. -/
theorem toPoly_mulRq (f g : Rq) : toPoly (mulRq f g) = (toPoly f * toPoly g) %ₘ (X ^ 256 + 1) := by
  obtain ⟨n, hn⟩ : ∃ n, n = 256 := ⟨_, rfl⟩
  rw [← hn]
  obtain ⟨q, hq⟩ := toPoly_mulRq_dvd f g n hn
  refine ((div_modByMonic_unique q (toPoly (mulRq f g)) (monic_pow_one n (by omega)) ⟨?_, ?_⟩).2).symm
  · rw [← hq]; ring
  · rw [degree_pow_one n (by omega), hn]
    exact toPoly_degree _

/-- `NTT` consists of the residues modulo X^2 - ζ^(2 BitRev_7(i) + 1). -/
theorem toPoly_ntt (f : Rq) (i : Nat) (hi : i < 128) :
    toPoly f %ₘ (X ^ 2 - Polynomial.C (root i)) = Polynomial.C (NTT f ⟨2 * i, by omega⟩) + Polynomial.C (NTT f ⟨2 * i + 1, by omega⟩) * X := by
  have hn0 : NTT f ⟨2 * i, by omega⟩ = ∑ m : Fin 128, ext f (2 * m.val) * root i ^ m.val := ntt_at i 0 hi (by omega) f
  have hn1 := ntt_at i 1 hi (by omega) f
  have hsum : toPoly f = ∑ m : Fin 128, (Polynomial.C (ext f (2 * m.val)) * X ^ (2 * m.val) + Polynomial.C (ext f (2 * m.val + 1)) * X ^ (2 * m.val + 1)) := by
    unfold toPoly
    have h0 : ∀ m : Fin 256, Polynomial.C (f m) * X ^ m.val = (fun m => Polynomial.C (ext f m) * (X : Zq[X]) ^ m) m.val := fun m => by
      simp only [ext_lt f m.isLt]
    rw [Fintype.sum_congr _ _ h0, Fin.sum_univ_eq_sum_range (fun m => Polynomial.C (ext f m) * (X : Zq[X]) ^ m),
      Fin.sum_univ_eq_sum_range (fun m => Polynomial.C (ext f (2 * m)) * (X : Zq[X]) ^ (2 * m) + Polynomial.C (ext f (2 * m + 1)) * X ^ (2 * m + 1))]
    have : ∀ (g : Nat → Zq[X]) n, ∑ m ∈ range (2 * n), g m = ∑ m ∈ range n, (g (2 * m) + g (2 * m + 1)) := by
      intro g n
      induction n with
      | zero => simp
      | succ n ih =>
        rw [show 2 * (n + 1) = 2 * n + 1 + 1 from by ring, sum_range_succ, sum_range_succ, ih, sum_range_succ, add_assoc]
    exact this _ 128
  have hdvd : (X ^ 2 - Polynomial.C (root i) : Zq[X]) ∣
      toPoly f - (Polynomial.C (NTT f ⟨2 * i, by omega⟩) + Polynomial.C (NTT f ⟨2 * i + 1, by omega⟩) * X) := by
    rw [hn0, hn1, hsum, map_sum, map_sum, sum_mul, ← sum_add_distrib, ← sum_sub_distrib]
    refine dvd_sum fun m _ => ?_
    have hd : (X ^ 2 - Polynomial.C (root i) : Zq[X]) ∣ (X ^ 2) ^ m.val - (Polynomial.C (root i)) ^ m.val := sub_dvd_pow_sub_pow _ _ _
    rw [map_mul, map_mul, map_pow, pow_succ X (2 * m.val), pow_mul]
    have : Polynomial.C (ext f (2 * m.val)) * (X ^ 2) ^ m.val + Polynomial.C (ext f (2 * m.val + 1)) * ((X ^ 2) ^ m.val * X) -
        (Polynomial.C (ext f (2 * m.val)) * Polynomial.C (root i) ^ m.val + Polynomial.C (ext f (2 * m.val + 1)) * Polynomial.C (root i) ^ m.val * X) =
        ((X ^ 2) ^ m.val - (Polynomial.C (root i)) ^ m.val) * (Polynomial.C (ext f (2 * m.val)) + Polynomial.C (ext f (2 * m.val + 1)) * X) := by ring
    rw [this]
    exact dvd_mul_of_dvd_left hd _
  obtain ⟨q, hq⟩ := hdvd
  refine (div_modByMonic_unique q _ (monic_X_pow_sub_C _ (by decide)) ⟨?_, ?_⟩).2
  · rw [← hq]; ring
  · rw [degree_X_pow_sub_C (by decide)]
    refine lt_of_le_of_lt (degree_add_le _ _) (max_lt ?_ ?_)
    · exact lt_of_le_of_lt degree_C_le (by decide)
    · exact lt_of_le_of_lt (degree_C_mul_X_le _) (by decide)

end Verif.Proof
