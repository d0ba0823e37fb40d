import Verif.Avx.PolyvecProof
import Verif.Proof.NttPoly

/-! # C33 to C36: polynomial arithmetic of the AVX2 implementation

The functions `Avx.poly_...` run the assembly code of avx2/ntt.S, invntt.S, basemul.S, fq.S and shuffle.S, instruction by instruction.
`Runs m Q` says that `m` ends normally (no access outside an object, no read of an undefined register or cell, no misaligned access) in
a result satisfying `Q`. Vector instructions wrap silently, so the absence of wrap-around is part of what the statements about values say.
In the NTT domain the AVX2 code keeps coefficient `avxPos m` at index `m`. -/

set_option autoImplicit false

namespace Verif.Props
open Verif.Proof Verif.Spec Verif.Avx

/-- C33. `poly_ntt` computes the NTT of FIPS 203, for inputs bounded by q, with output bounded by 16118: both bounds are those of the comment
in avx2/poly.c:387-396. -/
theorem C33_poly_ntt (x : Fin 256 → Int16) (h : ∀ i, -3329 ≤ (x i).toInt ∧ (x i).toInt ≤ 3329) :
    Runs (Avx.poly_ntt (polyMem x)) (fun r => ∃ y, r = polyMem y ∧ (∀ m, residues y m = NTT (residues x) (avxPos m)) ∧
      ∀ i, -16118 ≤ (y i).toInt ∧ (y i).toInt ≤ 16118) :=
  (poly_ntt_Rq (polyR_polyMem x 3329 h)).mono fun _ h => polyV_exists h

/-- C33. The same for larger inputs, up to 15288, with a coarser bound of the output. -/
theorem C33_poly_ntt_wide (x : Fin 256 → Int16) (B : Int) (hB : B ≤ 15288) (h : ∀ i, -B ≤ (x i).toInt ∧ (x i).toInt ≤ B) :
    Runs (Avx.poly_ntt (polyMem x)) (fun r => ∃ y, r = polyMem y ∧ (∀ m, residues y m = NTT (residues x) (avxPos m)) ∧
      ∀ i, -(B + 17479) ≤ (y i).toInt ∧ (y i).toInt ≤ B + 17479) :=
  (poly_ntt_R (polyR_polyMem x B h) hB).mono fun _ h => polyV_exists h

/-- C33. The AVX2 code and the reference code compute the same transform: same residues, at index `avxPos m` and `m`. -/
theorem C33_agrees_with_ref (x : Fin 256 → Int16) (h : ∀ i, -15288 ≤ (x i).toInt ∧ (x i).toInt ≤ 15288) :
    ∃ y z t t', Avx.poly_ntt (polyMem x) = .ok (polyMem y) t ∧ Model.poly_ntt (polyMem x) = .ok (polyMem z) t' ∧
      ∀ m, residues y m = residues z (avxPos m) := by
  obtain ⟨r, t, h1, y, rfl, hy, -⟩ := (C33_poly_ntt_wide x 15288 (by omega) h).exists_ok
  obtain ⟨r', t', h2, hr'⟩ := (Proof.poly_ntt_runs (polyR_polyMem x 15288 h) (by omega)).exists_ok
  obtain ⟨z, rfl, hz, -⟩ := hr'.exists
  exact ⟨y, z, t, t', h1, h2, fun m => by rw [hy, hz]⟩

/-- C34. `poly_invntt_tomont` computes the inverse NTT times 2^16 on arbitrary 16-bit inputs, with output bounded by 14870: this is what
the comment in avx2/poly.c:405-416 says. -/
theorem C34_poly_invntt (x : Fin 256 → Int16) (g : Rq) (hg : ∀ m, residues x m = g (avxPos m)) :
    Runs (Avx.poly_invntt_tomont (polyMem x)) (fun r => ∃ y, r = polyMem y ∧ (∀ i, residues y i = 2 ^ 16 * NTTInv g i) ∧
      ∀ i, -14870 ≤ (y i).toInt ∧ (y i).toInt ≤ 14870) := by
  refine (poly_invntt_R (polyV_polyMem hg fun i => word_bounds (x i))).mono fun r hr => ?_
  obtain ⟨y, h1, h2, h3⟩ := hr.exists
  exact ⟨y, h1, fun i => by rw [h2]; norm_num, h3⟩

/-- C34. Every input stands for some element of the ring, so `C34_poly_invntt` covers all inputs. -/
theorem C34_all_inputs (x : Fin 256 → Int16) : ∃ g : Rq, ∀ m, residues x m = g (avxPos m) := by
  refine ⟨fun i => residues x ⟨nttMem i.val, nttMem_lt i.isLt⟩, fun m => ?_⟩
  congr 1
  exact Fin.ext (nttMem_nttIdx m.isLt).symm

/-- C34. The inverse transform undoes the forward transform, up to the factor 2^16. -/
theorem C34_invntt_ntt (x : Fin 256 → Int16) (h : ∀ i, -15288 ≤ (x i).toInt ∧ (x i).toInt ≤ 15288) :
    Runs (do let r ← Avx.poly_ntt (polyMem x); Avx.poly_invntt_tomont r) (fun r => ∃ y, r = polyMem y ∧
      (∀ i, residues y i = 2 ^ 16 * residues x i) ∧ ∀ i, -14870 ≤ (y i).toInt ∧ (y i).toInt ≤ 14870) := by
  rw [runs_bind]
  refine (poly_ntt_R (polyR_polyMem x 15288 h) (by omega)).mono fun r hr => ?_
  refine (poly_invntt_R hr).mono fun r' hr' => ?_
  obtain ⟨y, h1, h2, h3⟩ := hr'.exists
  exact ⟨y, h1, fun i => by rw [h2, nttInv_ntt]; norm_num, h3⟩

/-- C35. `poly_basemul_montgomery` computes `MultiplyNTTs` of FIPS 203 times 2^-16. One input of absolute value below q, the other one
arbitrary: the output is bounded by 6656, as the comment in avx2/poly.c:427-434 says. -/
theorem C35_basemul (x y : Fin 256 → Int16) (f g : Rq) (hf : ∀ m, residues x m = f (avxPos m)) (hg : ∀ m, residues y m = g (avxPos m))
    (h : (∀ i, -3329 < (x i).toInt ∧ (x i).toInt < 3329) ∨ (∀ i, -3329 < (y i).toInt ∧ (y i).toInt < 3329)) (r : Mem Int16) (hr : r.size = 256) :
    Runs (Avx.poly_basemul_montgomery r (polyMem x) (polyMem y)) (fun r => ∃ z, r = polyMem z ∧
      (∀ m, 2 ^ 16 * residues z m = MultiplyNTTs f g (avxPos m)) ∧ ∀ i, -6656 ≤ (z i).toInt ∧ (z i).toInt ≤ 6656) := by
  have key : Runs (Avx.poly_basemul_montgomery r (polyMem x) (polyMem y)) (fun r' => PolyV r' (fun i => 169 * MultiplyNTTs f g i) 6656) := by
    rcases h with h | h
    · exact poly_basemul_q hr (polyV_polyMem hf (B := 3328) fun i => by have := h i; omega) (polyV_polyMem hg fun i => word_bounds (y i)) (.inl (by omega))
    · exact poly_basemul_q hr (polyV_polyMem hf fun i => word_bounds (x i)) (polyV_polyMem hg (B := 3328) fun i => by have := h i; omega) (.inr (by omega))
  refine key.mono fun r' hr' => ?_
  obtain ⟨z, h1, h2, h3⟩ := polyV_exists hr'
  refine ⟨z, h1, fun m => ?_, h3⟩
  rw [h2]
  linear_combination (MultiplyNTTs f g (avxPos m)) * zq_inv_R

/-- C35. The bound 6656 does not extend to inputs bounded by q inclusive: with -q and -32768 in all places the value 6658 is produced. -/
theorem C35_bound_needs_strict (r : Mem Int16) (hr : r.size = 256) :
    Runs (Avx.poly_basemul_montgomery r (polyMem fun _ => -3329) (polyMem fun _ => -32768)) (fun r => r[16]? = some (some 6658)) := by
  have hm : ∀ c : Int16, (polyMem fun _ => c).Has 0 256 (fun m => (fun _ => c) (nttIdx m)) := fun c i hi => by
    rw [Nat.zero_add]; exact polyMem_get _ i hi
  refine (poly_basemul_exact (x := fun _ => -3329) (y := fun _ => -32768) hr (polyMem_size _) (hm _) (polyMem_size _) (hm _)).mono ?_
  rintro r' ⟨-, h⟩
  rw [show (16 : Nat) = 0 + 16 from rfl, h 16 (by omega)]
  decide +kernel

/-- C35. Inputs bounded by q inclusive give outputs bounded by 6658. -/
theorem C35_basemul_q (x y : Fin 256 → Int16) (f g : Rq) (hf : ∀ m, residues x m = f (avxPos m)) (hg : ∀ m, residues y m = g (avxPos m))
    (h : ∀ i, -3329 ≤ (x i).toInt ∧ (x i).toInt ≤ 3329) (r : Mem Int16) (hr : r.size = 256) :
    Runs (Avx.poly_basemul_montgomery r (polyMem x) (polyMem y)) (fun r => ∃ z, r = polyMem z ∧
      (∀ m, 2 ^ 16 * residues z m = MultiplyNTTs f g (avxPos m)) ∧ ∀ i, -6658 ≤ (z i).toInt ∧ (z i).toInt ≤ 6658) := by
  refine (poly_basemul_R hr (polyV_polyMem hf (B := 3329) h) (polyV_polyMem hg fun i => word_bounds (y i)) (M := 3329)
    (by norm_num) (by norm_num) (by norm_num)).mono fun r' hr' => ?_
  obtain ⟨z, h1, h2, h3⟩ := polyV_exists hr'
  refine ⟨z, h1, fun m => ?_, h3⟩
  rw [h2]
  linear_combination (MultiplyNTTs f g (avxPos m)) * zq_inv_R

/-- C35. Transform, multiply, transform back: the result is the product in Z_q[X]/(X^256 + 1). -/
theorem C35_ntt_multiplication (x y : Fin 256 → Int16) (hx : ∀ i, -3329 ≤ (x i).toInt ∧ (x i).toInt ≤ 3329)
    (hy : ∀ i, -3329 ≤ (y i).toInt ∧ (y i).toInt ≤ 3329) (r : Mem Int16) (hr : r.size = 256) :
    Runs (do
        let a ← Avx.poly_ntt (polyMem x)
        let b ← Avx.poly_ntt (polyMem y)
        let r ← Avx.poly_basemul_montgomery r a b
        Avx.poly_invntt_tomont r)
      (fun r => ∃ z, r = polyMem z ∧
        toPoly (residues z) = (toPoly (residues x) * toPoly (residues y)) %ₘ (Polynomial.X ^ 256 + 1)) := by
  simp only [runs_bind]
  refine (poly_ntt_Rq (polyR_polyMem x 3329 hx)).mono fun a ha => ?_
  refine (poly_ntt_Rq (polyR_polyMem y 3329 hy)).mono fun b hb => ?_
  refine (poly_basemul_R hr ha hb (M := 5629) (by norm_num) (by norm_num) (by norm_num)).mono fun c hc => ?_
  refine (poly_invntt_R hc).mono fun r' hr' => ?_
  obtain ⟨z, h1, h2, h3⟩ := hr'.exists
  refine ⟨z, h1, ?_⟩
  have hm : (fun i => 169 * MultiplyNTTs (NTT (residues x)) (NTT (residues y)) i) =
      NTT (fun i => 169 * mulRq (residues x) (residues y) i) := by
    rw [← ntt_mul]
    funext i
    unfold NTT
    rw [Finset.mul_sum]
    exact Finset.sum_congr rfl fun j _ => by rw [mul_assoc]
  have hz : residues z = mulRq (residues x) (residues y) := by
    rw [h2, hm, nttInv_ntt]
    funext i
    have := zq_inv_R
    linear_combination (mulRq (residues x) (residues y) i) * this
  rw [← toPoly_mulRq, hz]

/-- C35. The accumulated product of two vectors does not wrap, for the ranges that occur in the scheme: first vector bounded by 4095 (12-bit
decoding or matrix entries), second by 16118 (output of the transform). -/
theorem C35_basemul_acc (p : Model.ParamSet) (r : Mem Int16) (hr : r.size = 256) (a b : Model.Polyvec) (f g : Nat → Rq)
    (ha : VecV (Model.KYBER_K p) a f 4095) (hb : VecV (Model.KYBER_K p) b g 16118) :
    Runs (Avx.polyvec_basemul_acc_montgomery p r a b) (fun r' => PolyV r' (fun i => 169 * dotNTT (Model.KYBER_K p) f g i) (5342 * Model.KYBER_K p)) :=
  Avx.polyvec_basemul_acc_runs (M := 5342) hr ha hb (fun h1 h2 h3 => poly_basemul_R (M := 2671) h1 h2 h3 (by norm_num) (by norm_num) (by norm_num)) (by norm_num)

/-- C36. `poly_reduce` maps every 16-bit coefficient to a representative in 0..q (q itself can occur, see the example below). -/
theorem C36_poly_reduce (x : Fin 256 → Int16) :
    Runs (Avx.poly_reduce (polyMem x)) (fun r => ∃ y, r = polyMem y ∧ residues y = residues x ∧ ∀ i, 0 ≤ (y i).toInt ∧ (y i).toInt ≤ 3329) := by
  refine (Avx.poly_reduce_runs (polyR_polyMem x 32768 fun i => word_bounds (x i))).mono fun r hr => ?_
  obtain ⟨y, h1, h2, -⟩ := PolyR.exists hr.is
  refine ⟨y, h1, h2, fun i => ?_⟩
  obtain ⟨z, hz, -, hz'⟩ := hr.coef i.val i.isLt
  rw [h1, polyMem_get y i.val i.isLt] at hz
  simp only [Option.some.injEq] at hz
  rw [show y i = z from hz]
  exact hz'

/-- C36. `poly_tomont` multiplies every 16-bit coefficient by 2^16. -/
theorem C36_poly_tomont (x : Fin 256 → Int16) :
    Runs (Avx.poly_tomont (polyMem x)) (fun r => ∃ y, r = polyMem y ∧ (∀ i, residues y i = 2 ^ 16 * residues x i) ∧
      ∀ i, -2341 ≤ (y i).toInt ∧ (y i).toInt ≤ 2341) := by
  refine (Avx.poly_tomont_runs (polyR_polyMem x 32768 fun i => word_bounds (x i))).mono fun r hr => ?_
  obtain ⟨y, h1, h2, h3⟩ := (PolyIs.toR (g := fun i => 65536 * residues x i) hr fun i hi => by rw [ext_lt _ hi]).exists
  exact ⟨y, h1, fun i => by rw [h2]; norm_num, h3⟩

/-- C36. `poly_add` and `poly_sub` give the exact integer sums and differences whenever they fit in 16 bits. -/
theorem C36_poly_add_sub (x y : Fin 256 → Int16) :
    Runs (Avx.poly_add (polyMem x) (polyMem y)) (fun r => ∃ z, r = polyMem z ∧ ∀ i,
      -32768 ≤ (x i).toInt + (y i).toInt → (x i).toInt + (y i).toInt ≤ 32767 → (z i).toInt = (x i).toInt + (y i).toInt) ∧
    Runs (Avx.poly_sub (polyMem x) (polyMem y)) (fun r => ∃ z, r = polyMem z ∧ ∀ i,
      -32768 ≤ (y i).toInt - (x i).toInt → (y i).toInt - (x i).toInt ≤ 32767 → (z i).toInt = (y i).toInt - (x i).toInt) := by
  have hm : ∀ x : Fin 256 → Int16, (polyMem x).Has 0 256 (fun m => x (Fin.ofNat 256 m)) := fun x i hi => by
    rw [Nat.zero_add, polyMem_get x i hi]
    show _ = some (some (x (Fin.ofNat 256 i)))
    rw [show Fin.ofNat 256 i = ⟨i, hi⟩ from Fin.ext (Nat.mod_eq_of_lt hi)]
  have hout : ∀ (r : Mem Int16) (w : Nat → Int16), r.size = 256 → r.Has 0 256 w → r = polyMem fun i => w i.val := fun r w hs hw => by
    apply Array.ext_getElem?
    intro i
    by_cases hi : i < 256
    · have := hw i hi
      rw [Nat.zero_add] at this
      rw [this, polyMem_get _ i hi]
    · rw [Array.getElem?_eq_none (by omega), Array.getElem?_eq_none (by rw [polyMem_size]; omega)]
  have hv : ∀ i : Fin 256, Fin.ofNat 256 i.val = i := fun i => Fin.ext (Nat.mod_eq_of_lt i.isLt)
  constructor
  · refine (Avx.poly_add_exact (polyMem_size x) (hm x) (polyMem_size y) (hm y)).mono ?_
    rintro r ⟨hs, hh⟩
    refine ⟨_, hout r _ hs hh, fun i h1 h2 => ?_⟩
    rw [toInt_ofBitVec, hv]
    exact toInt_addW (a := (x i).toBitVec) (b := (y i).toBitVec) h1 h2
  · refine (Avx.poly_sub_exact (polyMem_size x) (hm x) (polyMem_size y) (hm y)).mono ?_
    rintro r ⟨hs, hh⟩
    refine ⟨_, hout r _ hs hh, fun i h1 h2 => ?_⟩
    rw [toInt_ofBitVec, hv]
    exact toInt_subW (a := (y i).toBitVec) (b := (x i).toBitVec) h1 h2

/-- C36. `poly_nttunpack` brings a polynomial from the standard order to the order of the AVX2 code, leaving the coefficients unchanged. -/
theorem C36_poly_nttunpack (x : Fin 256 → Int16) :
    Runs (Avx.poly_nttunpack (polyMem x)) (fun r => r = polyMem fun m => x (avxPos m)) := by
  have hm : (polyMem x).Has 0 256 (fun m => x (Fin.ofNat 256 m)) := fun i hi => by
    rw [Nat.zero_add, polyMem_get x i hi]
    show _ = some (some (x (Fin.ofNat 256 i)))
    rw [show Fin.ofNat 256 i = ⟨i, hi⟩ from Fin.ext (Nat.mod_eq_of_lt hi)]
  refine (Avx.poly_nttunpack_exact (polyMem_size x) hm).mono ?_
  rintro r ⟨hs, hh⟩
  apply Array.ext_getElem?
  intro i
  by_cases hi : i < 256
  · have := hh i hi
    rw [Nat.zero_add] at this
    rw [this, polyMem_get _ i hi]
    show some (some (x (Fin.ofNat 256 (nttIdx i)))) = _
    rw [show Fin.ofNat 256 (nttIdx i) = avxPos ⟨i, hi⟩ from Fin.ext (Nat.mod_eq_of_lt (nttIdx_lt hi))]
  · rw [Array.getElem?_eq_none (by omega), Array.getElem?_eq_none (by rw [polyMem_size]; omega)]

/-! ## Concrete cases -/

/-- Inputs for which the hypotheses of `C33_poly_ntt` hold: all coefficients at the bound. -/
example : ∀ i : Fin 256, -3329 ≤ ((fun _ => 3329 : Fin 256 → Int16) i).toInt ∧ ((fun _ => 3329 : Fin 256 → Int16) i).toInt ≤ 3329 :=
  fun _ => by show -3329 ≤ (3329 : Int16).toInt ∧ (3329 : Int16).toInt ≤ 3329; decide

/-- The result of `C33_poly_ntt` is not constant: the transform of the constant 1 is 1, 0, 1, 0, ... in standard order. -/
example : ∃ y t, Avx.poly_ntt (polyMem fun i => if i.val = 0 then 1 else 0) = .ok (polyMem y) t ∧
    ∀ m, residues y m = NTT (residues fun i => if i.val = 0 then 1 else 0) (avxPos m) := by
  obtain ⟨r, t, h1, y, rfl, hy, -⟩ := (C33_poly_ntt (fun i => if i.val = 0 then 1 else 0) fun i => by split <;> decide).exists_ok
  exact ⟨y, t, h1, hy⟩

/-- The order of the AVX2 code is a permutation: no coefficient is lost. -/
example : Function.Injective avxPos := by decide +kernel

/-- `poly_reduce` does return q: the Barrett quotient of -3329 is rounded down. -/
example : (redW (-3329 : W)).toInt = 3329 := by decide

end Verif.Props
