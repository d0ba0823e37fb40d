import Verif.Proof.Ntt
import Mathlib.Algebra.QuadraticAlgebra.Basic
import Mathlib.Algebra.BigOperators.Fin
import Mathlib.Algebra.BigOperators.Module
import Mathlib.Algebra.Ring.GeomSum
import Mathlib.Data.Fintype.EquivFin
import Mathlib.Data.Fintype.Pi

/-! # The specification NTT: it is a bijection and turns products in R_q into products in T_q -/

namespace Verif.Proof
open Verif.Model Verif.Spec Finset

instance : Fact (Nat.Prime 3329) := ⟨by norm_num⟩

/-- A polynomial as a function on natural numbers. -/
def ext (f : Rq) : Nat → Zq := fun i => if h : i < 256 then f ⟨i, h⟩ else 0

theorem ext_lt (f : Rq) {i : Nat} (h : i < 256) : ext f i = f ⟨i, h⟩ := by unfold ext; rw [dif_pos h]

theorem levI_ntt (f : Rq) (i : Nat) (hi : i < 256) : levI (ext f) 7 i = NTT f ⟨i, hi⟩ := by
  unfold levI lev NTT
  rw [Finset.sum_range]
  refine Fintype.sum_congr _ _ fun j => ?_
  have hj : j.val < 128 := j.isLt
  simp only [Nat.reduceSub, Nat.reducePow, pow_one]
  rw [ext_lt _ (by omega), cnode_root _ (by omega)]
  congr 3
  omega

theorem root_pow_128 (i : Nat) : root i ^ 128 = -1 := by
  unfold root
  rw [← pow_mul, Nat.mul_comm, pow_mul, zeta_128, Odd.neg_one_pow ⟨bitRev7 i, rfl⟩]

theorem root_pow_256 (i : Nat) : root i ^ 256 = 1 := by
  rw [show 256 = 128 * 2 from rfl, pow_mul, root_pow_128]; ring

theorem root_ne_table : ∀ i, i < 128 → ∀ j, j < 128 → i ≠ j → bitRev7 i ≠ bitRev7 j := by decide +kernel

theorem zeta_pow_inj_table : ∀ e, e < 256 → e ≠ 0 → 17 ^ e % 3329 ≠ 1 := by decide +kernel

theorem zeta_ne_one {e : Nat} (h : e < 256) (h0 : e ≠ 0) : ζ ^ e ≠ 1 := by
  rw [zeta_pow]
  intro hc
  have h1 := zeta_pow_inj_table e h h0
  have : ((17 ^ e % 3329 : Nat) : Zq) = ((1 : Nat) : Zq) := by rw [hc]; rfl
  rw [ZMod.natCast_eq_natCast_iff'] at this
  simp at this
  exact h1 this

theorem bitRev7_lt (i : Nat) : bitRev7 i < 128 := by unfold bitRev7; omega

theorem root_ne {i j : Nat} (hi : i < 128) (hj : j < 128) (hij : i ≠ j) : root i ≠ root j := by
  have h := root_ne_table i hi j hj hij
  have h1 := bitRev7_lt i
  have h2 := bitRev7_lt j
  unfold root
  generalize bitRev7 i = a at *
  generalize bitRev7 j = b at *
  have key : ∀ a b, a < 128 → b < 128 → a < b → ζ ^ (2 * a + 1) ≠ ζ ^ (2 * b + 1) := by
    intro a b ha hb hab heq
    have h3 : ζ ^ (2 * b + 1) = ζ ^ (2 * a + 1) * ζ ^ (2 * (b - a)) := by
      rw [← pow_add]; congr 1; omega
    rw [h3] at heq
    have h4 : ζ ^ (2 * a + 1) ≠ 0 := by
      intro h0
      have : ζ ^ (2 * a + 1) * ζ ^ (256 - (2 * a + 1)) = 1 := by
        rw [← pow_add, show 2 * a + 1 + (256 - (2 * a + 1)) = 256 from by omega, zeta_256]
      rw [h0, zero_mul] at this
      exact absurd this (by decide)
    have h5 : ζ ^ (2 * (b - a)) = 1 := mul_left_cancel₀ h4 (by rw [mul_one]; exact heq.symm)
    exact zeta_ne_one (by omega) (by omega) h5
  rcases Nat.lt_or_gt_of_ne h with h | h
  · exact key a b h1 h2 h
  · exact (key b a h2 h1 h).symm

/-- Orthogonality. -/
theorem root_orth (i j : Nat) (hi : i < 128) (hj : j < 128) :
    ∑ k : Fin 128, root i ^ k.val * root j ^ (256 - k.val) = if i = j then 128 else 0 := by
  have h1 : ∀ k : Fin 128, root i ^ k.val * root j ^ (256 - k.val) = (root i * root j ^ 255) ^ k.val := by
    intro k
    have hk := k.isLt
    rw [mul_pow, ← pow_mul]
    congr 1
    have : 255 * k.val = 256 * (k.val - 1) + (256 - k.val) ∨ k.val = 0 := by omega
    rcases this with h | h
    · rw [h, pow_add, pow_mul, root_pow_256, one_pow, one_mul]
    · rw [h]; simp [root_pow_256]
  rw [Fintype.sum_congr _ _ h1]
  split
  · rename_i h
    subst h
    rw [← pow_succ', root_pow_256]
    simp
  · rename_i h
    rw [Fin.sum_univ_eq_sum_range (fun k => (root i * root j ^ 255) ^ k) 128]
    have hg := mul_neg_geom_sum (root i * root j ^ 255) 128
    have hp : (root i * root j ^ 255) ^ 128 = 1 := by
      rw [mul_pow, ← pow_mul, Nat.mul_comm, pow_mul, root_pow_128, root_pow_128]; decide +kernel
    rw [hp, sub_self] at hg
    rcases mul_eq_zero.mp hg with h' | h'
    · exfalso
      have h2 : root i * root j ^ 255 = 1 := (sub_eq_zero.mp h').symm
      apply root_ne hi hj h
      calc root i = root i * root j ^ 256 := by rw [root_pow_256, mul_one]
        _ = (root i * root j ^ 255) * root j := by ring
        _ = root j := by rw [h2, one_mul]
    · exact h'

theorem ntt_nttInv (g : Rq) : NTT (NTTInv g) = g := by
  funext i
  unfold NTT NTTInv
  have hi := i.isLt
  have step : ∀ j : Fin 128,
      (3303 * ∑ k : Fin 128, g ⟨2 * k.val + (2 * j.val + i.val % 2) % 2, by omega⟩ *
        root k ^ (256 - (2 * j.val + i.val % 2) / 2)) * root (i.val / 2) ^ j.val =
      ∑ k : Fin 128, 3303 * g ⟨2 * k.val + i.val % 2, by omega⟩ * (root (i.val / 2) ^ j.val * root k ^ (256 - j.val)) := by
    intro j
    rw [mul_sum, sum_mul]
    refine Fintype.sum_congr _ _ fun k => ?_
    have e1 : (2 * j.val + i.val % 2) % 2 = i.val % 2 := by omega
    have e2 : (2 * j.val + i.val % 2) / 2 = j.val := by omega
    simp only [e1, e2]
    ring
  rw [Fintype.sum_congr _ _ step, sum_comm]
  have step2 : ∀ k : Fin 128,
      ∑ j : Fin 128, 3303 * g ⟨2 * k.val + i.val % 2, by omega⟩ * (root (i.val / 2) ^ j.val * root k ^ (256 - j.val)) =
      if (⟨i.val / 2, by omega⟩ : Fin 128) = k then g ⟨2 * k.val + i.val % 2, by omega⟩ else 0 := by
    intro k
    rw [← mul_sum, root_orth _ _ (by omega) k.isLt]
    by_cases h : i.val / 2 = k.val
    · rw [if_pos h, if_pos (Fin.ext h)]
      have : (3303 : Zq) * 128 = 1 := by decide
      linear_combination (g ⟨2 * k.val + i.val % 2, by omega⟩) * this
    · rw [if_neg h, if_neg (fun h' => h (by rw [← h'])), mul_zero]
  rw [Fintype.sum_congr _ _ step2, sum_ite_eq]
  simp only [mem_univ, if_true]
  congr 1
  exact Fin.ext (by simp; omega)

theorem ntt_surjective : Function.Surjective NTT := fun g => ⟨NTTInv g, ntt_nttInv g⟩
theorem ntt_injective : Function.Injective NTT := Finite.injective_iff_surjective.mpr ntt_surjective
theorem nttInv_ntt (f : Rq) : NTTInv (NTT f) = f := ntt_injective (ntt_nttInv _)

/-! ## Products -/

/-- `f` evaluated at a square root of `r`. -/
def evQ (r : Zq) (f : Rq) : QuadraticAlgebra Zq r 0 := ∑ i : Fin 256, (algebraMap Zq _ (f i)) * (⟨0, 1⟩ : QuadraticAlgebra Zq r 0) ^ i.val

theorem omega_sq (r : Zq) : (⟨0, 1⟩ : QuadraticAlgebra Zq r 0) ^ 2 = algebraMap Zq _ r := by
  rw [pow_two]
  ext <;> simp

theorem omega_even (r : Zq) (n : Nat) : (⟨0, 1⟩ : QuadraticAlgebra Zq r 0) ^ (2 * n) = algebraMap Zq _ (r ^ n) := by
  rw [pow_mul, omega_sq, map_pow]

theorem sum_fin_double (g : Nat → QuadraticAlgebra Zq r 0) :
    ∑ m : Fin 256, g m.val = ∑ m : Fin 128, (g (2 * m.val) + g (2 * m.val + 1)) := by
  rw [Fin.sum_univ_eq_sum_range, Fin.sum_univ_eq_sum_range (fun m => g (2 * m) + g (2 * m + 1))]
  have : ∀ n, ∑ m ∈ range (2 * n), g m = ∑ m ∈ range n, (g (2 * m) + g (2 * m + 1)) := by
    intro n
    induction n with
    | zero => simp
    | succ n ih =>
      rw [show 2 * (n + 1) = 2 * n + 1 + 1 from by ring, sum_range_succ, sum_range_succ, ih, sum_range_succ, add_assoc]
  exact this 128

theorem ntt_at (i e : Nat) (hi : i < 128) (he : e < 2) (f : Rq) :
    NTT f ⟨2 * i + e, by omega⟩ = ∑ m : Fin 128, ext f (2 * m.val + e) * root i ^ m.val := by
  unfold NTT
  have h1 : (2 * i + e) % 2 = e := by omega
  have h2 : (2 * i + e) / 2 = i := by omega
  simp only [h1, h2]
  refine Finset.sum_congr rfl fun m _ => ?_
  have := m.isLt
  rw [ext_lt f (by omega)]

theorem evQ_ntt (i : Nat) (hi : i < 128) (f : Rq) :
    evQ (root i) f = ⟨NTT f ⟨2 * i, by omega⟩, NTT f ⟨2 * i + 1, by omega⟩⟩ := by
  have h0 : evQ (root i) f = ∑ m : Fin 256, (fun m => (algebraMap Zq (QuadraticAlgebra Zq (root i) 0) (ext f m)) *
      (⟨0, 1⟩ : QuadraticAlgebra Zq (root i) 0) ^ m) m.val := by
    unfold evQ
    exact Fintype.sum_congr _ _ fun m => by simp only [ext_lt f m.isLt]
  rw [h0, sum_fin_double (fun m => (algebraMap Zq (QuadraticAlgebra Zq (root i) 0) (ext f m)) *
      (⟨0, 1⟩ : QuadraticAlgebra Zq (root i) 0) ^ m)]
  have h1 : ∀ m : Fin 128, (algebraMap Zq (QuadraticAlgebra Zq (root i) 0) (ext f (2 * m.val))) *
      (⟨0, 1⟩ : QuadraticAlgebra Zq (root i) 0) ^ (2 * m.val) +
      (algebraMap Zq (QuadraticAlgebra Zq (root i) 0) (ext f (2 * m.val + 1))) *
      (⟨0, 1⟩ : QuadraticAlgebra Zq (root i) 0) ^ (2 * m.val + 1) =
      ⟨ext f (2 * m.val) * root i ^ m.val, ext f (2 * m.val + 1) * root i ^ m.val⟩ := by
    intro m
    rw [pow_succ, omega_even]
    generalize root i ^ m.val = c
    ext <;> simp
  rw [Fintype.sum_congr _ _ h1]
  have hre : ∀ (s : Finset (Fin 128)) (g : Fin 128 → QuadraticAlgebra Zq (root i) 0), (∑ m ∈ s, g m) =
      ⟨∑ m ∈ s, (g m).re, ∑ m ∈ s, (g m).im⟩ := by
    intro s g
    induction s using Finset.induction_on with
    | empty => rfl
    | insert a s ha ih => rw [sum_insert ha, sum_insert ha, sum_insert ha, ih]; rfl
  have hn0 : NTT f ⟨2 * i, by omega⟩ = ∑ m : Fin 128, ext f (2 * m.val) * root i ^ m.val := ntt_at i 0 hi (by omega) f
  rw [hre, hn0, ntt_at i 1 hi (by omega)]

theorem evQ_mul (i : Nat) (f g : Rq) : evQ (root i) (mulRq f g) = evQ (root i) f * evQ (root i) g := by
  have hw : (⟨0, 1⟩ : QuadraticAlgebra Zq (root i) 0) ^ 256 = -1 := by
    rw [show 256 = 2 * 128 from rfl, omega_even, root_pow_128, map_neg, map_one]
  unfold evQ mulRq
  generalize (⟨0, 1⟩ : QuadraticAlgebra Zq (root i) 0) = w at *
  rw [sum_mul_sum]
  simp only [map_sum, sum_mul]
  rw [sum_comm]
  refine Fintype.sum_congr _ _ fun a => ?_
  rw [sum_comm]
  refine Fintype.sum_congr _ _ fun b => ?_
  have ha := a.isLt
  have hb := b.isLt
  have hk : ∀ k : Fin 256, (algebraMap Zq (QuadraticAlgebra Zq (root i) 0)
      (if a.val + b.val = k.val then f a * g b else if a.val + b.val = k.val + 256 then -(f a * g b) else 0)) * w ^ k.val =
      if k = (⟨(a.val + b.val) % 256, by omega⟩ : Fin 256) then
        (algebraMap Zq (QuadraticAlgebra Zq (root i) 0) (f a)) * w ^ a.val * ((algebraMap Zq (QuadraticAlgebra Zq (root i) 0) (g b)) * w ^ b.val)
      else 0 := by
    intro k
    have hkl := k.isLt
    by_cases h1 : a.val + b.val = k.val
    · rw [if_pos h1, if_pos (Fin.ext (by simp; omega)), ← h1, map_mul, pow_add]; ring
    · rw [if_neg h1]
      by_cases h2 : a.val + b.val = k.val + 256
      · rw [if_pos h2, if_pos (Fin.ext (by simp; omega)), map_neg, map_mul]
        have : w ^ a.val * w ^ b.val = - w ^ k.val := by
          rw [← pow_add, h2, pow_add, hw]; ring
        linear_combination (-(algebraMap Zq (QuadraticAlgebra Zq (root i) 0) (f a)) * (algebraMap Zq (QuadraticAlgebra Zq (root i) 0) (g b))) * this
      · rw [if_neg h2, if_neg (fun h => by have := congrArg Fin.val h; simp at this; omega), map_zero, zero_mul]
  rw [Fintype.sum_congr _ _ hk, sum_ite_eq']
  simp

/-- The NTT turns products in R_q into products in T_q. -/
theorem ntt_mul (f g : Rq) : NTT (mulRq f g) = MultiplyNTTs (NTT f) (NTT g) := by
  funext k
  have hk := k.isLt
  have h := evQ_mul (k.val / 2) f g
  rw [evQ_ntt _ (by omega), evQ_ntt _ (by omega), evQ_ntt _ (by omega)] at h
  unfold MultiplyNTTs
  dsimp only
  split
  · have h' := congrArg QuadraticAlgebra.re h
    simp only [QuadraticAlgebra.re_mul] at h'
    have e : k = ⟨2 * (k.val / 2), by omega⟩ := Fin.ext (by simp; omega)
    conv_lhs => rw [e]
    rw [h']; ring
  · have h' := congrArg QuadraticAlgebra.im h
    simp only [QuadraticAlgebra.im_mul] at h'
    have e : k = ⟨2 * (k.val / 2) + 1, by omega⟩ := Fin.ext (by simp; omega)
    conv_lhs => rw [e]
    rw [h']; ring

end Verif.Proof
