import Verif.Proof.NttSpec
import Verif.Proof.Correct
import Mathlib.LinearAlgebra.Vandermonde
import Mathlib.LinearAlgebra.Matrix.ToLin
import Mathlib.Data.Real.Basic
import Mathlib.Algebra.BigOperators.Ring.Finset
import Mathlib.Algebra.Order.BigOperators.Ring.Finset
import Mathlib.FieldTheory.Finite.Basic

/-! # The product of a uniform vector with a fixed one, and vectors whose NTT vanishes at given places -/

namespace Verif.Proof
open Verif.Model Verif.Spec Finset

/-! ## Sums over a surjective homomorphism -/

theorem sum_hom {G T : Type} [AddCommGroup G] [AddCommGroup T] [Fintype G] [Fintype T] (φ : G →+ T) (hφ : Function.Surjective φ) (F : T → ℝ) :
    (Fintype.card T : ℝ) * ∑ g, F (φ g) = Fintype.card G * ∑ t, F t := by
  have h1 : ∑ g : G, ∑ t : T, F (φ g + t) = Fintype.card G * ∑ t, F t := by
    rw [Finset.sum_congr rfl fun g _ => Fintype.sum_equiv (Equiv.addLeft (φ g)) (fun t => F (φ g + t)) F fun t => rfl]
    rw [Finset.sum_const, Finset.card_univ, nsmul_eq_mul]
  have h2 : ∑ g : G, ∑ t : T, F (φ g + t) = Fintype.card T * ∑ g, F (φ g) := by
    rw [Finset.sum_comm]
    rw [Finset.sum_congr rfl fun t _ => show ∑ g : G, F (φ g + t) = ∑ g, F (φ g) from ?_]
    · rw [Finset.sum_const, Finset.card_univ, nsmul_eq_mul]
    · obtain ⟨h, rfl⟩ := hφ t
      exact Fintype.sum_equiv (Equiv.addRight h) _ _ fun g => by simp [map_add]
  rw [← h1, h2]

/-! ## Vandermonde systems at the roots -/

/-- The roots for a set of places, numbered. -/
noncomputable def nodes (S : Finset (Fin 128)) (j : Fin #S) : Zq := root (S.equivFin.symm j).val.val

theorem nodes_injective (S : Finset (Fin 128)) : Function.Injective (nodes S) := by
  intro a b h
  by_contra hab
  refine root_ne (S.equivFin.symm a).val.isLt (S.equivFin.symm b).val.isLt ?_ h
  intro h'
  exact hab (S.equivFin.symm.injective (Subtype.ext (Fin.ext h')))

theorem vander_bijective (S : Finset (Fin 128)) : Function.Bijective ((Matrix.vandermonde (nodes S)).mulVec) := by
  have h : IsUnit (Matrix.vandermonde (nodes S)) := by
    rw [Matrix.isUnit_iff_isUnit_det, isUnit_iff_ne_zero]
    exact Matrix.det_vandermonde_ne_zero_iff.2 (nodes_injective S)
  exact ⟨Matrix.mulVec_injective_of_isUnit h, Matrix.mulVec_surjective_iff_isUnit.2 h⟩

theorem vander_exists (S : Finset (Fin 128)) (t : Fin 128 → Zq) : ∃ x : Fin #S → Zq, ∀ i ∈ S, ∑ j, x j * root i.val ^ j.val = t i := by
  obtain ⟨x, hx⟩ := (vander_bijective S).2 fun j => t (S.equivFin.symm j).val
  refine ⟨x, fun i hi => ?_⟩
  have := congrFun hx (S.equivFin ⟨i, hi⟩)
  simp only [Matrix.mulVec, dotProduct, Matrix.vandermonde_apply, nodes, Equiv.symm_apply_apply] at this
  rw [← this]
  exact Finset.sum_congr rfl fun j _ => mul_comm _ _

theorem vander_unique (S : Finset (Fin 128)) (x x' : Fin #S → Zq) (h : ∀ i ∈ S, ∑ j, x j * root i.val ^ j.val = ∑ j, x' j * root i.val ^ j.val) : x = x' := by
  refine (vander_bijective S).1 (funext fun a => ?_)
  simp only [Matrix.mulVec, dotProduct, Matrix.vandermonde_apply, nodes]
  have := h _ (S.equivFin.symm a).2
  rw [Finset.sum_congr rfl fun j _ => mul_comm _ _, this]
  exact Finset.sum_congr rfl fun j _ => mul_comm _ _

theorem card_le_128 (S : Finset (Fin 128)) : #S ≤ 128 := by simpa using Finset.card_le_univ S

/-! ## The weight of the vectors that vanish at given places -/

/-- A vector of 128 as its first `s` and the others. -/
def splitEquiv (s : Nat) (hs : s ≤ 128) : (Fin 128 → Zq) ≃ (Fin s → Zq) × (Fin (128 - s) → Zq) :=
  (Equiv.arrowCongr (finCongr (show 128 = s + (128 - s) by omega)) (Equiv.refl Zq)).trans (Fin.appendEquiv s (128 - s)).symm

theorem splitEquiv_symm_sum (s : Nat) (hs : s ≤ 128) (x : Fin s → Zq) (z : Fin (128 - s) → Zq) (f : Fin 128 → Zq → Zq) :
    ∑ j, f j ((splitEquiv s hs).symm (x, z) j) = ∑ j, f ⟨j.val, by omega⟩ (x j) + ∑ j : Fin (128 - s), f ⟨s + j.val, by omega⟩ (z j) := by
  rw [Fintype.sum_equiv (finCongr (show 128 = s + (128 - s) by omega)) (fun j => f j ((splitEquiv s hs).symm (x, z) j))
    (fun j => f ⟨j.val, by omega⟩ (Fin.append x z j)) fun j => rfl]
  rw [Fin.sum_univ_add]
  simp

theorem splitEquiv_symm_prod (s : Nat) (hs : s ≤ 128) (x : Fin s → Zq) (z : Fin (128 - s) → Zq) (f : Zq → ℝ) :
    ∏ j, f ((splitEquiv s hs).symm (x, z) j) = (∏ j, f (x j)) * ∏ j, f (z j) := by
  rw [Fintype.prod_equiv (finCongr (show 128 = s + (128 - s) by omega)) (fun j => f ((splitEquiv s hs).symm (x, z) j))
    (fun j => f (Fin.append x z j)) fun j => rfl]
  rw [Fin.prod_univ_add]
  simp

/-- A vector `u` vanishes at the places `S`: Σ u_j root_i^j = 0. -/
def Vanish (S : Finset (Fin 128)) (u : Fin 128 → Zq) : Prop := ∀ i ∈ S, ∑ j, u j * root i.val ^ j.val = 0

open Classical in
theorem vanish_weight (S : Finset (Fin 128)) (ω : Zq → ℝ) (g : ℝ) (h0 : ∀ u, 0 ≤ ω u) (hg : ∀ u, ω u ≤ g) :
    ∑ u : Fin 128 → Zq, (if Vanish S u then ∏ j, ω (u j) else 0) ≤ (∑ u, ω u) ^ (128 - #S) * g ^ #S := by
  have hs := card_le_128 S
  have hg0 : 0 ≤ g := (h0 0).trans (hg 0)
  rw [← (splitEquiv #S hs).symm.sum_comp, Fintype.sum_prod_type, Finset.sum_comm]
  have hz : ∀ z : Fin (128 - #S) → Zq, ∑ x : Fin #S → Zq, (if Vanish S ((splitEquiv #S hs).symm (x, z)) then ∏ j, ω ((splitEquiv #S hs).symm (x, z) j) else 0) ≤
      (∏ j, ω (z j)) * g ^ #S := fun z => by
    by_cases hx : ∃ x0, Vanish S ((splitEquiv #S hs).symm (x0, z))
    · obtain ⟨x0, h1⟩ := hx
      rw [Finset.sum_eq_single x0]
      · rw [if_pos h1, splitEquiv_symm_prod, mul_comm]
        refine mul_le_mul_of_nonneg_left ?_ (Finset.prod_nonneg fun j _ => h0 _)
        refine (Finset.prod_le_prod (fun j _ => h0 _) fun j _ => hg _).trans (le_of_eq ?_)
        simp
      · intro x _ hne
        rw [if_neg]
        intro h2
        refine hne (vander_unique S x x0 fun i hi => ?_)
        have e1 := h1 i hi
        have e2 := h2 i hi
        rw [splitEquiv_symm_sum #S hs _ _ fun j y => y * root i.val ^ j.val] at e1 e2
        exact add_right_cancel (e2.trans e1.symm)
      · simp
    · rw [Finset.sum_eq_zero]
      · exact mul_nonneg (Finset.prod_nonneg fun j _ => h0 _) (pow_nonneg hg0 _)
      · intro x _
        rw [if_neg fun h => hx ⟨x, h⟩]
  refine (Finset.sum_le_sum fun z _ => hz z).trans (le_of_eq ?_)
  rw [← Finset.sum_mul]
  congr 1
  have := (Finset.prod_univ_sum (fun _ : Fin (128 - #S) => (univ : Finset Zq)) fun _ u => ω u).symm
  rw [Fintype.piFinset_univ] at this
  rw [this]
  simp

/-! ## A uniform vector times a fixed one -/

theorem root_pow_half (i : Nat) : root i ^ 1664 = -1 := by
  rw [show 1664 = 128 * 13 from rfl, pow_mul, root_pow_128]
  decide

/-- The norm of a nonzero residue modulo X² - root is not zero. -/
theorem norm_ne_zero (i : Nat) (b0 b1 : Zq) (h : ¬ (b0 = 0 ∧ b1 = 0)) : b0 ^ 2 - root i * b1 ^ 2 ≠ 0 := by
  intro e
  have e' : root i * b1 ^ 2 = b0 ^ 2 := (sub_eq_zero.1 e).symm
  by_cases h1 : b1 = 0
  · subst h1
    refine h ⟨?_, rfl⟩
    rw [zero_pow two_ne_zero, mul_zero] at e'
    exact (pow_eq_zero_iff two_ne_zero).1 e'.symm
  · have hb0 : b0 ≠ 0 := by
      intro h0
      rw [h0, zero_pow two_ne_zero] at e'
      rcases mul_eq_zero.1 e' with h2 | h2
      · have := root_pow_half i
        rw [h2, zero_pow (by norm_num)] at this
        revert this; decide
      · exact h1 ((pow_eq_zero_iff two_ne_zero).1 h2)
    have hf : ∀ x : Zq, x ≠ 0 → x ^ 3328 = 1 := fun x hx => ZMod.pow_card_sub_one_eq_one hx
    have := congrArg (· ^ 1664) e'
    simp only [mul_pow] at this
    rw [root_pow_half, ← pow_mul, ← pow_mul, hf _ h1, hf _ hb0] at this
    revert this; decide

/-- Division in one place. -/
theorem slot_div (i : Nat) (b0 b1 : Zq) (h : ¬ (b0 = 0 ∧ b1 = 0)) (t0 t1 : Zq) :
    ∃ a0 a1 : Zq, a0 * b0 + a1 * b1 * root i = t0 ∧ a0 * b1 + a1 * b0 = t1 := by
  have hn := norm_ne_zero i b0 b1 h
  refine ⟨(t0 * b0 - t1 * b1 * root i) / (b0 ^ 2 - root i * b1 ^ 2), (t1 * b0 - t0 * b1) / (b0 ^ 2 - root i * b1 ^ 2), ?_, ?_⟩
  · rw [div_mul_eq_mul_div, div_mul_eq_mul_div, div_mul_eq_mul_div, ← add_div, div_eq_iff hn]
    ring
  · rw [div_mul_eq_mul_div, div_mul_eq_mul_div, ← add_div, div_eq_iff hn]
    ring

/-- The places where all of a family of elements of T_q vanish. -/
def zeroPlaces {k : Nat} (y : Fin k → Rq) : Finset (Fin 128) := {i | ∀ j, y j ⟨2 * i.val, by omega⟩ = 0 ∧ y j ⟨2 * i.val + 1, by omega⟩ = 0}

/-- The sum of products as a homomorphism. -/
def dotHom {k : Nat} (y : Fin k → Rq) : (Fin k → Rq) →+ Rq where
  toFun a := NTTInv (∑ j, MultiplyNTTs (a j) (y j))
  map_zero' := by
    have : ∀ f : Rq, MultiplyNTTs 0 f = 0 := fun f => by
      rw [show MultiplyNTTs 0 f = MultiplyNTTs f 0 from mulT_comm 0 f]
      exact mulT_zero f
    simp only [Pi.zero_apply, this, Finset.sum_const_zero]
    have := nttInv_sub 0 0
    simpa using this
  map_add' a b := by
    rw [← nttInv_add, ← Finset.sum_add_distrib]
    congr 1
    exact Finset.sum_congr rfl fun j _ => add_mulT _ _ _

theorem dotHom_apply {k : Nat} (y a : Fin k → Rq) : dotHom y a = NTTInv (∑ j, MultiplyNTTs (a j) (y j)) := rfl

theorem dotHom_image {k : Nat} (y : Fin k → Rq) (g : Rq) (hg : ∀ i ∈ zeroPlaces y, NTT g ⟨2 * i.val, by omega⟩ = 0 ∧ NTT g ⟨2 * i.val + 1, by omega⟩ = 0) :
    ∃ a, dotHom y a = g := by
  have hs : ∀ i : Fin 128, ∃ a0 a1 : Fin k → Zq,
      ∑ j, (a0 j * y j ⟨2 * i.val, by omega⟩ + a1 j * y j ⟨2 * i.val + 1, by omega⟩ * root i.val) = NTT g ⟨2 * i.val, by omega⟩ ∧
      ∑ j, (a0 j * y j ⟨2 * i.val + 1, by omega⟩ + a1 j * y j ⟨2 * i.val, by omega⟩) = NTT g ⟨2 * i.val + 1, by omega⟩ := fun i => by
    by_cases hi : i ∈ zeroPlaces y
    · refine ⟨0, 0, ?_, ?_⟩
      · rw [(hg i hi).1]; simp
      · rw [(hg i hi).2]; simp
    · have hj : ∃ j, ¬ (y j ⟨2 * i.val, by omega⟩ = 0 ∧ y j ⟨2 * i.val + 1, by omega⟩ = 0) := by
        by_contra hc
        simp only [not_exists, not_not] at hc
        exact hi (by simp [zeroPlaces, hc])
      obtain ⟨j, hj⟩ := hj
      obtain ⟨a0, a1, e0, e1⟩ := slot_div i.val _ _ hj (NTT g ⟨2 * i.val, by omega⟩) (NTT g ⟨2 * i.val + 1, by omega⟩)
      refine ⟨Pi.single j a0, Pi.single j a1, ?_, ?_⟩
      · rw [Finset.sum_eq_single j (fun j' _ hne => by simp [hne]) (by simp)]
        simpa using e0
      · rw [Finset.sum_eq_single j (fun j' _ hne => by simp [hne]) (by simp)]
        simpa using e1
  choose a0 a1 h0 h1 using hs
  refine ⟨fun j n => if n.val % 2 = 0 then a0 ⟨n.val / 2, by omega⟩ j else a1 ⟨n.val / 2, by omega⟩ j, ?_⟩
  refine (congrArg NTTInv (?_ : _ = NTT g)).trans (nttInv_ntt g)
  funext n
  rw [Finset.sum_apply]
  unfold MultiplyNTTs
  have e2 : ∀ m : Nat, 2 * m % 2 = 0 := fun m => by omega
  have e3 : ∀ m : Nat, (2 * m + 1) % 2 = 1 := fun m => by omega
  have e4 : ∀ m : Nat, 2 * m / 2 = m := fun m => by omega
  have e5 : ∀ m : Nat, (2 * m + 1) / 2 = m := fun m => by omega
  simp only [e2, e3, e4, e5, if_true, one_ne_zero, if_false]
  rcases Nat.mod_two_eq_zero_or_one n.val with h | h
  · simp only [h, if_true]
    rw [h0 ⟨n.val / 2, by omega⟩]
    congr 1
    exact Fin.ext (by show 2 * (n.val / 2) = n.val; omega)
  · simp only [h, one_ne_zero, if_false]
    rw [h1 ⟨n.val / 2, by omega⟩]
    congr 1
    exact Fin.ext (by show 2 * (n.val / 2) + 1 = n.val; omega)

/-- The coefficients from number `2 b` on. -/
abbrev HighIx (b : Nat) := {n : Fin 256 // 2 * b ≤ n.val}

theorem card_high (b : Nat) (hb : b ≤ 128) : Fintype.card (HighIx b) = 256 - 2 * b := by
  rw [Fintype.card_subtype]
  have : ({n : Fin 256 | 2 * b ≤ n.val} : Finset (Fin 256)) = univ.filter fun n => ¬ n.val < 2 * b := by
    ext n; simp
  rw [this, Finset.filter_not, Finset.card_sdiff_of_subset (Finset.filter_subset _ _), Finset.card_univ, Fintype.card_fin]
  congr 1
  rcases Nat.lt_or_ge b 128 with h | h
  · exact Fin.card_filter_val_lt (n := 256) (m := 2 * b) |>.trans (by omega)
  · rw [Finset.filter_true_of_mem fun n _ => by omega, Finset.card_univ, Fintype.card_fin]; omega

/-- All coefficients from number 2 |B| on take any values. -/
theorem dotHom_high {k : Nat} (y : Fin k → Rq) : Function.Surjective fun a : Fin k → Rq => fun n : HighIx #(zeroPlaces y) => dotHom y a n.val := by
  intro t
  have hb := card_le_128 (zeroPlaces y)
  have hx : ∀ e : Fin 2, ∃ x : Fin #(zeroPlaces y) → Zq, ∀ i ∈ zeroPlaces y, ∑ j, x j * root i.val ^ j.val =
      - ∑ j : Fin (128 - #(zeroPlaces y)), t ⟨⟨2 * (#(zeroPlaces y) + j.val) + e.val, by omega⟩, by show _ ≤ _; dsimp only; omega⟩ * root i.val ^ (#(zeroPlaces y) + j.val) :=
    fun e => vander_exists _ fun i => - ∑ j : Fin (128 - #(zeroPlaces y)), t ⟨⟨2 * (#(zeroPlaces y) + j.val) + e.val, by omega⟩, by show _ ≤ _; dsimp only; omega⟩ * root i.val ^ (#(zeroPlaces y) + j.val)
  choose x hx using hx
  let g : Rq := fun n => if h : n.val / 2 < #(zeroPlaces y) then x ⟨n.val % 2, by omega⟩ ⟨n.val / 2, h⟩ else t ⟨n, by omega⟩
  have hg : ∀ (e : Fin 2) (i : Fin 128), i ∈ zeroPlaces y → NTT g ⟨2 * i.val + e.val, by omega⟩ = 0 := fun e i hi => by
    unfold NTT
    have e1 : (2 * i.val + e.val) / 2 = i.val := by omega
    have e2 : (2 * i.val + e.val) % 2 = e.val := by omega
    simp only [e1, e2]
    rw [Fintype.sum_equiv (finCongr (show 128 = #(zeroPlaces y) + (128 - #(zeroPlaces y)) by omega)) (fun j : Fin 128 => g ⟨2 * j.val + e.val, by omega⟩ * root i.val ^ j.val)
      (fun j => g ⟨2 * j.val + e.val, by omega⟩ * root i.val ^ j.val) fun j => rfl]
    rw [Fin.sum_univ_add]
    simp only [Fin.val_castAdd, Fin.val_natAdd]
    have hl := hx e i hi
    have h1 : ∀ j : Fin #(zeroPlaces y), g ⟨2 * j.val + e.val, by omega⟩ = x e j := fun j => by
      have e3 : (2 * j.val + e.val) / 2 = j.val := by omega
      have e4 : (2 * j.val + e.val) % 2 = e.val := by omega
      simp only [g, e3, e4, j.isLt, dif_pos]
    have h2 : ∀ j : Fin (128 - #(zeroPlaces y)), g ⟨2 * (#(zeroPlaces y) + j.val) + e.val, by omega⟩ =
        t ⟨⟨2 * (#(zeroPlaces y) + j.val) + e.val, by omega⟩, by show _ ≤ _; dsimp only; omega⟩ := fun j => by
      have e3 : (2 * (#(zeroPlaces y) + j.val) + e.val) / 2 = #(zeroPlaces y) + j.val := by omega
      simp only [g, e3, add_lt_iff_neg_left, not_lt_zero, dif_neg, not_false_eq_true]
    simp only [h1, h2]
    rw [hl]
    exact neg_add_cancel _
  obtain ⟨a, ha⟩ := dotHom_image y g fun i hi => ⟨hg 0 i hi, hg 1 i hi⟩
  refine ⟨a, funext fun n => ?_⟩
  show dotHom y a n.val = t n
  rw [ha]
  show dite _ _ _ = _
  rw [dif_neg]
  have := n.2
  omega

/-- The sum of a product of a function over the coefficients. -/
theorem dotHom_sum {k : Nat} (y : Fin k → Rq) (H : Zq → ℝ) (W : ℝ) (h0 : ∀ z, 0 ≤ H z) (hW : ∀ z, H z ≤ W) :
    ∑ a : Fin k → Rq, ∏ n, H (dotHom y a n) ≤ (3329 : ℝ) ^ (256 * k) * (W ^ (2 * #(zeroPlaces y)) * ((∑ z, H z) / 3329) ^ (256 - 2 * #(zeroPlaces y))) := by
  have hb := card_le_128 (zeroPlaces y)
  have hW0 : 0 ≤ W := (h0 0).trans (hW 0)
  generalize hB : #(zeroPlaces y) = b at *
  let φ : (Fin k → Rq) →+ (HighIx b → Zq) :=
    { toFun := fun a n => dotHom y a n.val, map_zero' := by rw [map_zero]; rfl, map_add' := fun a a' => by rw [map_add]; rfl }
  have hφ : Function.Surjective φ := by
    have := dotHom_high y
    rw [hB] at this
    exact this
  have key := sum_hom φ hφ fun t => ∏ n, H (t n)
  have hc : Fintype.card (HighIx b → Zq) = 3329 ^ (256 - 2 * b) := by
    rw [Fintype.card_fun, card_high b hb, ZMod.card]
  have hc' : Fintype.card (Fin k → Rq) = 3329 ^ (256 * k) := by
    rw [Fintype.card_fun, Fintype.card_fun, ZMod.card, Fintype.card_fin, Fintype.card_fin, ← pow_mul]
  have hs : ∑ t : HighIx b → Zq, ∏ n, H (t n) = (∑ z, H z) ^ (256 - 2 * b) := by
    have := (Finset.prod_univ_sum (fun _ : HighIx b => (univ : Finset Zq)) fun _ u => H u).symm
    rw [Fintype.piFinset_univ] at this
    rw [this, Finset.prod_const, Finset.card_univ, card_high b hb]
  rw [hc, hc', hs] at key
  have hle : ∀ f : Rq, ∏ n, H (f n) ≤ W ^ (2 * b) * ∏ n : HighIx b, H (f n.val) := fun f => by
    rw [← Finset.prod_filter_mul_prod_filter_not univ fun n : Fin 256 => 2 * b ≤ n.val, mul_comm]
    refine mul_le_mul ?_ (le_of_eq ?_) (Finset.prod_nonneg fun n _ => h0 _) (pow_nonneg hW0 _)
    · refine (Finset.prod_le_prod (fun n _ => h0 _) fun n _ => hW _).trans (le_of_eq ?_)
      rw [Finset.prod_const]
      congr 1
      have h1 := card_high b hb
      rw [Fintype.card_subtype] at h1
      have h2 := Finset.card_filter_add_card_filter_not (s := (univ : Finset (Fin 256))) fun n => 2 * b ≤ n.val
      rw [h1, Finset.card_univ, Fintype.card_fin] at h2
      omega
    · exact Finset.prod_subtype _ (fun n => by simp) _
  refine (Finset.sum_le_sum fun a _ => hle (dotHom y a)).trans ?_
  rw [← Finset.mul_sum, mul_left_comm]
  refine mul_le_mul_of_nonneg_left (le_of_eq ?_) (pow_nonneg hW0 _)
  push_cast at key
  rw [div_pow, ← mul_div_assoc, eq_div_iff (by positivity), mul_comm, ← key]
  rfl

end Verif.Proof
