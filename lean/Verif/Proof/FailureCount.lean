import Verif.Proof.FailureAvg

/-! # Decryption failure for a uniform matrix: the count -/

namespace Verif.Proof
open Verif.Model Verif.Spec Finset

/-! ## The distribution of the rounding error -/

/-- Compression and decompression of `u`. -/
def rerrZ (d u : Nat) : Nat := (3329 * ((2 * 2 ^ d * u + 3329) / 6658 % 2 ^ d) + 2 ^ (d - 1)) / 2 ^ d

/-- The rounding error of `u`, computed. -/
def rerrF (d u : Nat) : Int := if rerrZ d u + 2 < u then (rerrZ d u : Int) + 3329 - u else rerrZ d u - u

/-- The number of `u < N` in `[s, s + 2^k)` with `p u`, by halving. -/
def cntB (N : Nat) (p : Nat → Bool) : Nat → Nat → Nat
  | 0, s => if s < N ∧ p s = true then 1 else 0
  | k + 1, s => cntB N p k s + cntB N p k (s + 2 ^ k)

theorem cntB_eq (N : Nat) (p : Nat → Bool) (k s : Nat) : cntB N p k s = #{u ∈ Ico s (s + 2 ^ k) | u < N ∧ p u = true} := by
  induction k generalizing s with
  | zero =>
    rw [pow_zero, Nat.Ico_succ_singleton, Finset.filter_singleton]
    unfold cntB
    split <;> rfl
  | succ k ih =>
    rw [cntB, ih, ih, Finset.card_filter, Finset.card_filter, Finset.card_filter, Finset.sum_Ico_consecutive _ (Nat.le_add_right _ _) (Nat.le_add_right _ _), pow_succ, Nat.mul_two, Nat.add_assoc]

theorem cntB_range {N k : Nat} (hN : N ≤ 2 ^ k) (p : Nat → Bool) : cntB N p k 0 = #{u ∈ range N | p u = true} := by
  rw [cntB_eq]
  refine congrArg Finset.card (Finset.ext fun u => ?_)
  simp only [Finset.mem_filter, Finset.mem_Ico, Finset.mem_range]
  constructor
  · exact fun h => h.2
  · exact fun h => ⟨⟨Nat.zero_le _, by omega⟩, h⟩

theorem cntB_none {N k : Nat} (hN : N ≤ 2 ^ k) {p : Nat → Bool} (h : cntB N p k 0 = 0) : ∀ u < N, p u = false := by
  rw [cntB_range hN, Finset.card_eq_zero, Finset.filter_eq_empty_iff] at h
  exact fun u hu => by simpa using h (Finset.mem_range.2 hu)

theorem rerrF_small10 (u : Nat) (hu : u < 3329) : (rerrF 10 u).natAbs ≤ 2 := by
  have := cntB_none (N := 3329) (k := 12) (by decide) (p := fun u => decide (¬ (rerrF 10 u).natAbs ≤ 2)) (by decide +kernel) u hu
  simpa using this
theorem rerrF_small11 (u : Nat) (hu : u < 3329) : (rerrF 11 u).natAbs ≤ 2 := by
  have := cntB_none (N := 3329) (k := 12) (by decide) (p := fun u => decide (¬ (rerrF 11 u).natAbs ≤ 2)) (by decide +kernel) u hu
  simpa using this

theorem rerr_eq {d : Nat} (hd : d = 1 ∨ d = 4 ∨ d = 5 ∨ d = 10 ∨ d = 11) (h : d = 10 ∨ d = 11) (x : Zq) : rerr hd x = rerrF d x.val := by
  have hs : (rerrF d x.val).natAbs ≤ 2 := by
    rcases h with rfl | rfl
    · exact rerrF_small10 _ zq_val_lt
    · exact rerrF_small11 _ zq_val_lt
  have hb := rerr_bound hd x
  have hb' : |rerr hd x| ≤ 2 := hb.trans (by rcases h with rfl | rfl <;> decide)
  have he := (Classical.choose_spec (decompress_compress hd x)).2
  change _ = x + ((rerr hd x : Int) : Zq) at he
  have hv : (Decompress d (Compress d x)).val = rerrZ d x.val := by
    have hc := compress_lt d x
    rcases h with rfl | rfl
    · rw [decompress_val (d := 9) (by omega) hc, compress_nat]; rfl
    · rw [decompress_val (d := 10) (by omega) hc, compress_nat]; rfl
  have hF : ((rerrF d x.val : Int) : Zq) = Decompress d (Compress d x) - x := by
    have e1 : ((Decompress d (Compress d x)).val : Zq) = Decompress d (Compress d x) := ZMod.natCast_zmod_val _
    have e2 : (x.val : Zq) = x := ZMod.natCast_zmod_val x
    rw [hv] at e1
    rw [← e1]
    conv => rhs; rhs; rw [← e2]
    generalize x.val = u
    unfold rerrF
    generalize rerrZ d u = w
    split
    · push_cast
      rw [zq_q]; ring
    · push_cast
      rfl
  rw [he, add_sub_cancel_left, ZMod.intCast_eq_intCast_iff_dvd_sub] at hF
  have := abs_le.1 hb'
  obtain ⟨c, hc⟩ := hF
  push_cast at hc
  omega

theorem sum_zq (f : Nat → ℝ) : ∑ z : Zq, f z.val = ∑ u ∈ range 3329, f u := Fin.sum_univ_eq_sum_range f 3329

theorem rerr_count10 : ∀ r ∈ ([(-2, 128), (-1, 1024), (0, 1024), (1, 1024), (2, 129)] : List (Int × Nat)), #{u ∈ range 3329 | rerrF 10 u = r.1} = r.2 := by
  intro r hr
  have e := cntB_range (N := 3329) (k := 12) (by decide) fun u => decide (rerrF 10 u = r.1)
  simp only [decide_eq_true_eq] at e
  rw [← e]
  revert r
  decide +kernel
theorem rerr_count11 : ∀ r ∈ ([(-2, 0), (-1, 640), (0, 2048), (1, 641), (2, 0)] : List (Int × Nat)), #{u ∈ range 3329 | rerrF 11 u = r.1} = r.2 := by
  intro r hr
  have e := cntB_range (N := 3329) (k := 12) (by decide) fun u => decide (rerrF 11 u = r.1)
  simp only [decide_eq_true_eq] at e
  rw [← e]
  revert r
  decide +kernel

theorem sum_rerr {d : Nat} (hd : d = 1 ∨ d = 4 ∨ d = 5 ∨ d = 10 ∨ d = 11) (h : d = 10 ∨ d = 11) (f : Int → ℝ) : ∑ z : Zq, f (rerr hd z) =
    ∑ r ∈ Icc (-2 : Int) 2, (#{u ∈ range 3329 | rerrF d u = r} : ℝ) * f r := by
  simp only [rerr_eq hd h]
  rw [sum_zq fun u => f (rerrF d u), ← Finset.sum_fiberwise_of_maps_to (t := Icc (-2 : Int) 2) (g := rerrF d)]
  · refine Finset.sum_congr rfl fun r _ => ?_
    rw [Finset.sum_congr rfl (g := fun _ => f r), Finset.sum_const, nsmul_eq_mul]
    intro u hu
    rw [(Finset.mem_filter.1 hu).2]
  · intro u hu
    have hu' := Finset.mem_range.1 hu
    have : (rerrF d u).natAbs ≤ 2 := by
      rcases h with rfl | rfl
      · exact rerrF_small10 _ hu'
      · exact rerrF_small11 _ hu'
    rw [Finset.mem_Icc]
    omega

theorem Icc22 : Icc (-2 : Int) 2 = {-2, -1, 0, 1, 2} := by decide

theorem sum_rerr10 (f : Int → ℝ) (hd : 10 = 1 ∨ 10 = 4 ∨ 10 = 5 ∨ 10 = 10 ∨ 10 = 11) : ∑ z : Zq, f (rerr hd z) = 128 * f (-2) + 1024 * f (-1) + 1024 * f 0 + 1024 * f 1 + 129 * f 2 := by
  rw [sum_rerr hd (Or.inl rfl), Icc22]
  rw [Finset.sum_insert (by decide), Finset.sum_insert (by decide), Finset.sum_insert (by decide), Finset.sum_insert (by decide), Finset.sum_singleton]
  rw [rerr_count10 (-2, 128) (by simp), rerr_count10 (-1, 1024) (by simp), rerr_count10 (0, 1024) (by simp), rerr_count10 (1, 1024) (by simp), rerr_count10 (2, 129) (by simp)]
  push_cast
  ring

theorem sum_rerr11 (f : Int → ℝ) (hd : 11 = 1 ∨ 11 = 4 ∨ 11 = 5 ∨ 11 = 10 ∨ 11 = 11) : ∑ z : Zq, f (rerr hd z) = 640 * f (-1) + 2048 * f 0 + 641 * f 1 := by
  rw [sum_rerr hd (Or.inr rfl), Icc22]
  rw [Finset.sum_insert (by decide), Finset.sum_insert (by decide), Finset.sum_insert (by decide), Finset.sum_insert (by decide), Finset.sum_singleton]
  rw [rerr_count11 (-2, 0) (by simp), rerr_count11 (-1, 640) (by simp), rerr_count11 (0, 2048) (by simp), rerr_count11 (1, 641) (by simp), rerr_count11 (2, 0) (by simp)]
  push_cast
  ring

theorem moment10 (hd : 10 = 1 ∨ 10 = 4 ∨ 10 = 5 ∨ 10 = 10 ∨ 10 = 11) (X : ℝ) :
    ∑ c : Fin (2 * 2) → Bool, ∑ z : Zq, X ^ ((cbdVal 2 c + rerr hd z).natAbs ^ 2) = 14593 + 23556 * X + 11782 * X ^ 4 + 3076 * X ^ 9 + 257 * X ^ 16 := by
  rw [sum_cbdVal2 fun v => ∑ z : Zq, X ^ ((v + rerr hd z).natAbs ^ 2)]
  rw [sum_rerr10 fun r => X ^ ((-2 + r).natAbs ^ 2), sum_rerr10 fun r => X ^ ((-1 + r).natAbs ^ 2), sum_rerr10 fun r => X ^ ((0 + r).natAbs ^ 2),
    sum_rerr10 fun r => X ^ ((1 + r).natAbs ^ 2), sum_rerr10 fun r => X ^ ((2 + r).natAbs ^ 2)]
  norm_num
  ring

theorem moment11 (hd : 11 = 1 ∨ 11 = 4 ∨ 11 = 5 ∨ 11 = 10 ∨ 11 = 11) (X : ℝ) :
    ∑ c : Fin (2 * 2) → Bool, ∑ z : Zq, X ^ ((cbdVal 2 c + rerr hd z).natAbs ^ 2) = 17412 + 25351 * X + 9220 * X ^ 4 + 1281 * X ^ 9 := by
  rw [sum_cbdVal2 fun v => ∑ z : Zq, X ^ ((v + rerr hd z).natAbs ^ 2)]
  rw [sum_rerr11 fun r => X ^ ((-2 + r).natAbs ^ 2), sum_rerr11 fun r => X ^ ((-1 + r).natAbs ^ 2), sum_rerr11 fun r => X ^ ((0 + r).natAbs ^ 2),
    sum_rerr11 fun r => X ^ ((1 + r).natAbs ^ 2), sum_rerr11 fun r => X ^ ((2 + r).natAbs ^ 2)]
  norm_num
  ring

/-- The sum over all residues of the moment of one coefficient. -/
theorem coef_sum (P : Params) (hdu : P.du = 1 ∨ P.du = 4 ∨ P.du = 5 ∨ P.du = 10 ∨ P.du = 11) (hη2 : P.η₂ = 2) (X : ℝ) :
    ∑ z, coefMoment P hdu X z = ∑ c : Fin (2 * 2) → Bool, ∑ z : Zq, X ^ ((cbdVal 2 c + rerr hdu z).natAbs ^ 2) := by
  unfold coefMoment
  rw [hη2, Finset.sum_comm]
  exact Finset.sum_congr rfl fun c _ => Fintype.sum_equiv (Equiv.addRight _) _ _ fun z => rfl

theorem coef_le (P : Params) (hdu : P.du = 1 ∨ P.du = 4 ∨ P.du = 5 ∨ P.du = 10 ∨ P.du = 11) (X : ℝ) (hX : 1 ≤ X) (z : Zq) :
    coefMoment P hdu X z ≤ ∑ c : Fin (2 * P.η₂) → Bool, X ^ (((cbdVal P.η₂ c).natAbs + (3329 + 2 ^ P.du) / 2 ^ (P.du + 1)) ^ 2) := by
  refine Finset.sum_le_sum fun c _ => pow_le_pow_right₀ hX (Nat.pow_le_pow_left ?_ 2)
  refine (Int.natAbs_add_le _ _).trans (Nat.add_le_add_left ?_ _)
  have h := rerr_bound hdu (z + ((cbdVal P.η₂ c : Int) : Zq))
  rw [Int.abs_eq_natAbs] at h
  exact_mod_cast h

theorem weight_le (η : Nat) (hη : η = 2 ∨ η = 3) (φ : Int → ℝ) (h0 : ∀ v, 0 ≤ φ v) (g : ℝ) (hg : ∀ v ∈ Icc (-η : Int) η, (Nat.choose (2 * η) (η + v).toNat : ℝ) * φ v ≤ g) (u : Zq) :
    weight η φ u ≤ g := by
  have hg0 : 0 ≤ g := (mul_nonneg (Nat.cast_nonneg _) (h0 0)).trans (hg 0 (by simp))
  unfold weight
  rw [sum_cbdVal η hη fun v => if ((v : Int) : Zq) = u then φ v else 0]
  by_cases h : ∃ v ∈ Icc (-η : Int) η, ((v : Int) : Zq) = u
  · obtain ⟨v, hv, e⟩ := h
    rw [Finset.sum_eq_single v]
    · rw [if_pos e]; exact hg v hv
    · intro v' hv' hne
      rw [if_neg, mul_zero]
      intro e'
      rw [← e, ZMod.intCast_eq_intCast_iff_dvd_sub] at e'
      obtain ⟨c, hc⟩ := e'
      push_cast at hc
      rw [Finset.mem_Icc] at hv hv'
      apply hne
      rcases hη with rfl | rfl <;> (push_cast at hv hv'; omega)
    · exact fun h => absurd hv h
  · rw [Finset.sum_eq_zero]
    · exact hg0
    · intro v hv
      rw [if_neg fun e => h ⟨v, hv, e⟩, mul_zero]

/-! ## The count -/

theorem sum_two_le {ι : Type} [Fintype ι] (f : Fin 256 → ι → ℝ) (lam E R : ℝ) (hE : 0 ≤ E) (hp : ∀ n, ∑ x, Real.exp (lam * f n x) ≤ R) (hn : ∀ n, ∑ x, Real.exp (-lam * f n x) ≤ R) :
    ∑ n, ∑ x, E * (Real.exp (lam * f n x) + Real.exp (-lam * f n x)) ≤ 512 * E * R := by
  have hc : ∀ n : Fin 256, ∑ x, E * (Real.exp (lam * f n x) + Real.exp (-lam * f n x)) ≤ E * (2 * R) := fun n => by
    rw [← Finset.mul_sum, Finset.sum_add_distrib]
    refine mul_le_mul_of_nonneg_left ?_ hE
    have := hp n
    have := hn n
    linarith
  refine (Finset.sum_le_sum fun n _ => hc n).trans (le_of_eq ?_)
  rw [Finset.sum_const, Finset.card_univ, Fintype.card_fin, nsmul_eq_mul]
  push_cast
  ring

section
variable (P : Params) (hdu : P.du = 1 ∨ P.du = 4 ∨ P.du = 5 ∨ P.du = 10 ∨ P.du = 11) (hdv : P.dv = 1 ∨ P.dv = 4 ∨ P.dv = 5 ∨ P.dv = 10 ∨ P.dv = 11)

include hdv in
open Classical in
theorem fail_indicator (hη2 : P.η₂ = 2) (A : Nat → Nat → Rq) (m : List UInt8) (lam : ℝ) (hlam : 0 ≤ lam) (T : Nat) (hT : T + (3329 + 2 ^ P.dv) / 2 ^ (P.dv + 1) = 830) (b : NoiseBytes P) :
    (if ¬ WithinThreshold m (noiseOf P A m b) then (1 : ℝ) else 0) ≤
      ∑ n : Fin 256, Real.exp (-(lam * T)) * (Real.exp (lam * (linPart n b.s b.e b.y (wI P hdu A b.y b.e1) : ℝ)) +
        Real.exp (-lam * (linPart n b.s b.e b.y (wI P hdu A b.y b.e1) : ℝ))) := by
  split
  · rename_i hf
    have : ∃ n, T ≤ (linPart n b.s b.e b.y (wI P hdu A b.y b.e1)).natAbs := by
      by_contra hc
      simp only [not_exists, not_le] at hc
      refine hf (within_of_linPart P hdu hdv A m hη2 b fun n => ?_)
      have := hc n
      rw [Int.abs_eq_natAbs]
      omega
    obtain ⟨n, hL⟩ := this
    refine le_trans ?_ (Finset.single_le_sum (f := fun n : Fin 256 => Real.exp (-(lam * T)) * (Real.exp (lam * (linPart n b.s b.e b.y (wI P hdu A b.y b.e1) : ℝ)) +
      Real.exp (-lam * (linPart n b.s b.e b.y (wI P hdu A b.y b.e1) : ℝ)))) (fun n _ => by positivity) (Finset.mem_univ n))
    generalize linPart n b.s b.e b.y (wI P hdu A b.y b.e1) = L at *
    rw [mul_add, ← Real.exp_add, ← Real.exp_add]
    have hL' : (T : ℝ) ≤ |(L : ℝ)| := by
      rw [← Int.cast_abs, Int.abs_eq_natAbs]
      exact_mod_cast hL
    rcases le_abs.1 hL' with h | h
    · have : 1 ≤ Real.exp (-(lam * T) + lam * L) := Real.one_le_exp (by nlinarith)
      have := Real.exp_pos (-(lam * T) + -lam * L)
      linarith
    · have : 1 ≤ Real.exp (-(lam * T) + -lam * L) := Real.one_le_exp (by nlinarith)
      have := Real.exp_pos (-(lam * T) + lam * L)
      linarith
  · exact Finset.sum_nonneg fun n _ => by positivity

include hdu hdv in
theorem failure_avg (hη : P.η₁ = 2 ∨ P.η₁ = 3) (hη2 : P.η₂ = 2) (m : (Fin P.k → Fin P.k → Rq) × NoiseBytes P → List UInt8) (lam X W a g G : ℝ) (hlam : 0 ≤ lam) (hX1 : 1 ≤ X)
    (hX : Real.exp (P.η₁ * lam ^ 2 / 4) ≤ X) (hW : ∀ z, coefMoment P hdu X z ≤ W) (ha : ∑ z, coefMoment P hdu X z = 3329 * a) (ha0 : 0 < a)
    (hg : ∀ u, weight P.η₁ (fun v => X ^ (v.natAbs ^ 2)) u ≤ g) (hG : ∑ c : Fin (2 * P.η₁) → Bool, X ^ ((cbdVal P.η₁ c).natAbs ^ 2) = G) (T : Nat)
    (hT : T + (3329 + 2 ^ P.dv) / 2 ^ (P.dv + 1) = 830) (R : ℝ)
    (hR : ((256 : ℝ) ^ (64 * P.η₂) * (((4 : ℝ) ^ P.η₁) ^ (256 * P.k) * ((4 : ℝ) ^ P.η₁) ^ (256 * P.k) * ((3329 : ℝ) ^ (256 * P.k * P.k) * a ^ (256 * P.k) *
        (G ^ (256 * P.k) * (1 + ((W / a) ^ (2 * P.k) - 1) * (g / G) ^ (2 * P.k)) ^ 128)))) = R) :
    (Set.ncard {x : (Fin P.k → Fin P.k → Rq) × NoiseBytes P | ¬ WithinThreshold (m x) (noiseOf P (matOf x.1) (m x) x.2)} : ℝ) ≤ 512 * Real.exp (-(lam * T)) * R := by
  classical
  have hm : ∀ lam' : ℝ, lam' ^ 2 = lam ^ 2 → ∀ n, ∑ A : Fin P.k → Fin P.k → Rq, ∑ b : NoiseBytes P, Real.exp (lam' * (linPart n b.s b.e b.y (wI P hdu (matOf A) b.y b.e1) : ℝ)) ≤ R :=
    fun lam' hl n => by
      rw [← hR]
      exact total_avg P hdu hη (by omega) lam' X W a g G hX1 (by rw [hl]; exact hX) hW ha ha0 hg hG n
  have hp := hm lam rfl
  have hn := hm (-lam) (neg_sq lam)
  rw [show {x : (Fin P.k → Fin P.k → Rq) × NoiseBytes P | ¬ WithinThreshold (m x) (noiseOf P (matOf x.1) (m x) x.2)} =
    ↑(({x | ¬ WithinThreshold (m x) (noiseOf P (matOf x.1) (m x) x.2)} : Finset ((Fin P.k → Fin P.k → Rq) × NoiseBytes P))) from by ext; simp,
    Set.ncard_coe_finset, Finset.card_filter]
  push_cast
  refine (Finset.sum_le_sum fun x _ => fail_indicator P hdu hdv hη2 (matOf x.1) (m x) lam hlam T hT x.2).trans ?_
  rw [Finset.sum_comm]
  have key := sum_two_le (ι := (Fin P.k → Fin P.k → Rq) × NoiseBytes P) (fun (n : Fin 256) (x : (Fin P.k → Fin P.k → Rq) × NoiseBytes P) =>
      ((linPart n x.2.s x.2.e x.2.y (wI P hdu (matOf x.1) x.2.y x.2.e1) : Int) : ℝ)) lam (Real.exp (-(lam * T))) R (Real.exp_pos _).le
    (fun n => (Fintype.sum_prod_type _).trans_le (hp n)) (fun n => (Fintype.sum_prod_type _).trans_le (hn n))
  generalize (512 : ℝ) * Real.exp (-(lam * T)) * R = Q at *
  convert key

end

theorem card_mat (P : Params) : Nat.card ((Fin P.k → Fin P.k → Rq) × NoiseBytes P) = 3329 ^ (256 * P.k * P.k) * 256 ^ (64 * (3 * P.k * P.η₁ + P.k * P.η₂ + P.η₂)) := by
  rw [Nat.card_prod, card_noiseBytes, Nat.card_eq_fintype_card, Fintype.card_fun, Fintype.card_fun, Fintype.card_fun, ZMod.card, Fintype.card_fin, Fintype.card_fin, ← pow_mul, ← pow_mul, mul_assoc 256]

/-- From the real bound to natural numbers. -/
theorem count_avg {n w K N B M a b c Da Db Dc C : Nat} {α β γ E : ℝ} (hDa : 0 < Da) (hDb : 0 < Db) (hDc : 0 < Dc) (h : (n : ℝ) ≤ 512 * E * (K * (C * (α ^ N * (β ^ N * γ ^ 128)))))
    (hα : α = a / Da) (hβ : β = b / Db) (hγ0 : 0 ≤ γ) (hγ : γ ≤ c / Dc) (hE : E ≤ (10 ^ 10 / 27182818283 : ℝ) ^ M)
    (hN : 512 * 2 ^ B * (10 ^ 10) ^ M * a ^ N * b ^ N * c ^ 128 * C ≤ w * 27182818283 ^ M * Da ^ N * Db ^ N * Dc ^ 128) : n * 2 ^ B ≤ K * w := by
  subst hα hβ
  have hDa' : (0 : ℝ) < Da := by exact_mod_cast hDa
  have hDb' : (0 : ℝ) < Db := by exact_mod_cast hDb
  have hDc' : (0 : ℝ) < Dc := by exact_mod_cast hDc
  have hK : (0 : ℝ) < 27182818283 ^ M * Da ^ N * Db ^ N * Dc ^ 128 := by positivity
  have h1 : (n : ℝ) ≤ 512 * (10 ^ 10 / 27182818283 : ℝ) ^ M * (K * (C * ((a / Da : ℝ) ^ N * ((b / Db : ℝ) ^ N * (c / Dc : ℝ) ^ 128)))) := by
    refine h.trans ?_
    gcongr
  have h2 : (n : ℝ) * 2 ^ B * (27182818283 ^ M * Da ^ N * Db ^ N * Dc ^ 128) ≤ K * w * (27182818283 ^ M * Da ^ N * Db ^ N * Dc ^ 128) := by
    have h3 : ((512 * 2 ^ B * (10 ^ 10) ^ M * a ^ N * b ^ N * c ^ 128 * C : Nat) : ℝ) ≤ ((w * 27182818283 ^ M * Da ^ N * Db ^ N * Dc ^ 128 : Nat) : ℝ) := by exact_mod_cast hN
    simp only [Nat.cast_mul, Nat.cast_pow, Nat.cast_ofNat] at h3
    calc (n : ℝ) * 2 ^ B * (27182818283 ^ M * Da ^ N * Db ^ N * Dc ^ 128)
        ≤ (512 * (10 ^ 10 / 27182818283 : ℝ) ^ M * (K * (C * ((a / Da : ℝ) ^ N * ((b / Db : ℝ) ^ N * (c / Dc : ℝ) ^ 128))))) * 2 ^ B * (27182818283 ^ M * Da ^ N * Db ^ N * Dc ^ 128) := by
          gcongr
      _ = (K : ℝ) * (512 * 2 ^ B * (10 ^ 10) ^ M * a ^ N * b ^ N * c ^ 128 * C) := by
        rw [div_pow, div_pow, div_pow, div_pow]
        field_simp
      _ ≤ (K : ℝ) * (w * 27182818283 ^ M * Da ^ N * Db ^ N * Dc ^ 128) := by gcongr
      _ = (K : ℝ) * w * (27182818283 ^ M * Da ^ N * Db ^ N * Dc ^ 128) := by ring
  have h4 := le_of_mul_le_mul_right h2 hK
  exact_mod_cast h4

theorem shuffle (E q u v w a G γ : ℝ) : E * (u * (v * w * (q * a * (G * γ)))) = E * (q * (u * (v * w) * (a * (G * γ)))) := by ring

/-- The bound for parameters that are computed by the kernel. -/
theorem failure_uniform (P : Params) (hdu : P.du = 1 ∨ P.du = 4 ∨ P.du = 5 ∨ P.du = 10 ∨ P.du = 11) (hdv : P.dv = 1 ∨ P.dv = 4 ∨ P.dv = 5 ∨ P.dv = 10 ∨ P.dv = 11)
    (hη : P.η₁ = 2 ∨ P.η₁ = 3) (hη2 : P.η₂ = 2) (m : (Fin P.k → Fin P.k → Rq) × NoiseBytes P → List UInt8) (T M B a Da b Db c Dc : Nat) (X W g : ℝ)
    (hT : T + (3329 + 2 ^ P.dv) / 2 ^ (P.dv + 1) = 830) (hT0 : 0 < T) (hX1 : 1 ≤ X) (hX : Real.exp (P.η₁ * M ^ 2 / (4 * T ^ 2)) ≤ X) (ha0 : 0 < a) (hDa : 0 < Da) (hDb : 0 < Db) (hDc : 0 < Dc)
    (hW : ∑ c : Fin (2 * P.η₂) → Bool, X ^ (((cbdVal P.η₂ c).natAbs + (3329 + 2 ^ P.du) / 2 ^ (P.du + 1)) ^ 2) ≤ W)
    (ha : ∑ c : Fin (2 * 2) → Bool, ∑ z : Zq, X ^ ((cbdVal 2 c + rerr hdu z).natAbs ^ 2) = 3329 * (a / Da))
    (hg : ∀ v ∈ Icc (-P.η₁ : Int) P.η₁, (Nat.choose (2 * P.η₁) (P.η₁ + v).toNat : ℝ) * X ^ (v.natAbs ^ 2) ≤ g)
    (hb : ∑ c : Fin (2 * P.η₁) → Bool, X ^ ((cbdVal P.η₁ c).natAbs ^ 2) = b / Db)
    (hγ0 : 0 ≤ 1 + ((W / (a / Da)) ^ (2 * P.k) - 1) * (g / (b / Db)) ^ (2 * P.k)) (hγ : 1 + ((W / (a / Da)) ^ (2 * P.k) - 1) * (g / (b / Db)) ^ (2 * P.k) ≤ c / Dc)
    (hN : 512 * 2 ^ B * (10 ^ 10) ^ M * a ^ (256 * P.k) * b ^ (256 * P.k) * c ^ 128 * (256 ^ (64 * P.η₂) * ((4 ^ P.η₁) ^ (256 * P.k) * (4 ^ P.η₁) ^ (256 * P.k))) ≤
      256 ^ (64 * (3 * P.k * P.η₁ + P.k * P.η₂ + P.η₂)) * 27182818283 ^ M * Da ^ (256 * P.k) * Db ^ (256 * P.k) * Dc ^ 128) :
    Set.ncard {x : (Fin P.k → Fin P.k → Rq) × NoiseBytes P | ¬ WithinThreshold (m x) (noiseOf P (matOf x.1) (m x) x.2)} * 2 ^ B ≤
      Nat.card ((Fin P.k → Fin P.k → Rq) × NoiseBytes P) := by
  rw [card_mat]
  have hT0' : (0 : ℝ) < T := by exact_mod_cast hT0
  have ha0' : (0 : ℝ) < a := by exact_mod_cast ha0
  have hDa' : (0 : ℝ) < Da := by exact_mod_cast hDa
  have h := failure_avg P hdu hdv hη hη2 m (M / T) X W (a / Da) g (b / Db) (by positivity) hX1 (by
    refine le_of_eq_of_le (congrArg Real.exp ?_) hX
    field_simp) (fun z => (coef_le P hdu X hX1 z).trans hW) ((coef_sum P hdu hη2 X).trans ha) (by positivity)
    (weight_le P.η₁ hη _ (fun v => pow_nonneg (by linarith) _) g hg) hb T hT _ rfl
  rw [div_mul_cancel₀ _ hT0'.ne'] at h
  refine count_avg (M := M) (N := 256 * P.k) (K := 3329 ^ (256 * P.k * P.k)) (C := 256 ^ (64 * P.η₂) * ((4 ^ P.η₁) ^ (256 * P.k) * (4 ^ P.η₁) ^ (256 * P.k))) hDa hDb hDc
    (h.trans (le_of_eq ?_)) rfl rfl hγ0 hγ (exp_neg_le M) hN
  simp only [Nat.cast_mul, Nat.cast_pow, Nat.cast_ofNat]
  exact shuffle ..

/-- A bound for every choice of the message is a bound for the worst message. -/
theorem fail_exists (P : Params) {B n : Nat}
    (h : ∀ m : (Fin P.k → Fin P.k → Rq) × NoiseBytes P → List UInt8,
      Set.ncard {x : (Fin P.k → Fin P.k → Rq) × NoiseBytes P | ¬ WithinThreshold (m x) (noiseOf P (matOf x.1) (m x) x.2)} * 2 ^ B ≤ n) :
    Set.ncard {x : (Fin P.k → Fin P.k → Rq) × NoiseBytes P | ∃ m, ¬ WithinThreshold m (noiseOf P (matOf x.1) m x.2)} * 2 ^ B ≤ n := by
  classical
  refine (Nat.mul_le_mul_right _ (Set.ncard_le_ncard ?_)).trans (h fun x => if hx : ∃ m, ¬ WithinThreshold m (noiseOf P (matOf x.1) m x.2) then hx.choose else [])
  intro x hx
  rw [Set.mem_ofPred_eq] at hx ⊢
  rw [dif_pos hx]
  exact hx.choose_spec

theorem exp_le_sum {X : ℝ} (u : ℝ) (h0 : 0 ≤ u) (h1 : u ≤ 1) (h : 1 + u + u ^ 2 / 2 + u ^ 3 / 6 + u ^ 4 / 24 + u ^ 5 / 100 ≤ X) : Real.exp u ≤ X := by
  refine (Real.exp_bound' h0 h1 (n := 5) (by decide)).trans (le_of_eq_of_le ?_ h)
  simp only [Finset.sum_range_succ, Finset.sum_range_zero, Nat.factorial]
  norm_num
  ring

theorem choose2_le (X : ℝ) (h : X ≤ 6 / 4 ∧ X ^ 4 ≤ 6) :
    ∀ v ∈ Icc (-(2 : Nat) : Int) (2 : Nat), (Nat.choose (2 * 2) ((2 : Nat) + v).toNat : ℝ) * X ^ (v.natAbs ^ 2) ≤ 6 := by
  have c : Nat.choose 4 1 = 4 ∧ Nat.choose 4 2 = 6 ∧ Nat.choose 4 3 = 4 ∧ Nat.choose 4 4 = 1 := by decide
  intro v hv
  rw [Icc2] at hv
  simp only [Finset.mem_insert, Finset.mem_singleton] at hv
  rcases hv with rfl | rfl | rfl | rfl | rfl <;> norm_num [c, show Int.toNat 2 = 2 from rfl, show Int.toNat 3 = 3 from rfl, show Int.toNat 4 = 4 from rfl, show Int.toNat 5 = 5 from rfl, show Int.toNat 6 = 6 from rfl] <;> linarith

theorem choose3_le (X : ℝ) (h : X ≤ 20 / 15 ∧ X ^ 4 ≤ 20 / 6 ∧ X ^ 9 ≤ 20) :
    ∀ v ∈ Icc (-(3 : Nat) : Int) (3 : Nat), (Nat.choose (2 * 3) ((3 : Nat) + v).toNat : ℝ) * X ^ (v.natAbs ^ 2) ≤ 20 := by
  have c : Nat.choose 6 1 = 6 ∧ Nat.choose 6 2 = 15 ∧ Nat.choose 6 3 = 20 ∧ Nat.choose 6 4 = 15 ∧ Nat.choose 6 5 = 6 ∧ Nat.choose 6 6 = 1 := by decide
  intro v hv
  rw [Icc3] at hv
  simp only [Finset.mem_insert, Finset.mem_singleton] at hv
  rcases hv with rfl | rfl | rfl | rfl | rfl | rfl | rfl <;> norm_num [c, show Int.toNat 2 = 2 from rfl, show Int.toNat 3 = 3 from rfl, show Int.toNat 4 = 4 from rfl, show Int.toNat 5 = 5 from rfl, show Int.toNat 6 = 6 from rfl] <;> linarith

/-- Markov's inequality for sets of pairs. -/
theorem markov {α β : Type} [Fintype α] [Fintype β] [Nonempty β] (S : Set (α × β)) (B1 B2 : Nat) (h : S.ncard * 2 ^ (B1 + B2) ≤ Nat.card (α × β)) :
    {a : α | Nat.card β < {b : β | (a, b) ∈ S}.ncard * 2 ^ B1}.ncard * 2 ^ B2 ≤ Nat.card α := by
  classical
  have e : S.ncard = ∑ a, {b : β | (a, b) ∈ S}.ncard := by
    rw [show S = ↑({x | x ∈ S} : Finset (α × β)) from by ext; simp, Set.ncard_coe_finset, Finset.card_filter, Fintype.sum_prod_type]
    refine Finset.sum_congr rfl fun a _ => ?_
    rw [← Finset.card_filter, ← Set.ncard_coe_finset]
    simp
  have hT : {a : α | Nat.card β < {b : β | (a, b) ∈ S}.ncard * 2 ^ B1}.ncard * Nat.card β ≤ S.ncard * 2 ^ B1 := by
    rw [show {a : α | Nat.card β < {b : β | (a, b) ∈ S}.ncard * 2 ^ B1} = ↑({a | Nat.card β < {b : β | (a, b) ∈ S}.ncard * 2 ^ B1} : Finset α) from by ext; simp,
      Set.ncard_coe_finset, e, Finset.sum_mul, ← smul_eq_mul]
    refine (Finset.card_nsmul_le_sum _ _ _ fun a ha => (Finset.mem_filter.1 ha).2.le).trans ?_
    exact Finset.sum_le_sum_of_subset (Finset.filter_subset _ _)
  rw [Nat.card_prod, pow_add, ← mul_assoc] at h
  refine Nat.le_of_mul_le_mul_right ((?_ : _ ≤ S.ncard * 2 ^ B1 * 2 ^ B2).trans h) (Nat.card_pos (α := β))
  rw [mul_right_comm]
  exact Nat.mul_le_mul_right _ hT

end Verif.Proof
