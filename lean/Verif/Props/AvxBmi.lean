import Verif.Props.AvxSample
import Verif.Avx.KemWProof

/-! # C69: the variant of avx2/rejsample.c with `BMI` defined -/

set_option autoImplicit false

namespace Verif.Props
open Verif.Model Verif.Spec Verif.Proof

attribute [local irreducible] Avx.rej_uniform_avx Avx.rej_uniform_avx_bmi Avx.gen_matrix Avx.gen_matrixW

/-- C69. `rej_uniform_avx` compiled with `BMI`, on any 504 bytes: the array begins with the 12-bit numbers of the buffer below q in order, at most 256 of them, and their number is
returned. -/
theorem C69_rej_uniform (r : Mem Int16) (hr : r.size = 256) (X : List UInt8) (hX : X.length = 504) :
    Runs (Avx.rej_uniform_avx_bmi r (Mem.ofList X)) (fun s => ∃ y : List Int16,
      y.map Int16.toInt = (((twelveBit X).filter (· < 3329)).take 256).map Int.ofNat ∧ s.1.size = 256 ∧ s.1.Holds 0 y ∧ s.2 = y.length) := by
  refine (Avx.Bmi.rej_uniform_avx_bmi_runs hr (Mem.holds_ofList X) hX).mono fun s hs => ⟨_, ?_, hs.1, hs.2.1, ?_⟩
  · rw [List.map_map, ← accepted_twelveBit]
    refine List.map_congr_left fun d hd => ?_
    exact i16_nat (accepted_lt (List.mem_of_mem_take hd))
  · rw [hs.2.2, List.length_map]

/-- C69. The mask computed for the flags `g` begins with the entries of row `g` of the table that the other variant uses, for all entries that are used. -/
theorem C69_mask (g : Fin 256) (k : Fin 8) (hk : k.val < Avx.popcnt g.val) :
    (((Avx.bmiMask (Avx.pdep 64 g.val 0x0101010101010101) >>> (8 * k.val)) % 256 : Nat) : Int) = (Avx.idxTable.getD g.val []).getD k.val 0 := by
  revert g k
  decide +kernel

/-- C69. The two variants do differ: the rows are filled up with 255 in the table and with 0 here, so that the cells after the numbers found may get different values. -/
theorem C69_mask_rest : ∃ g : Fin 256, ∃ k : Fin 8, (((Avx.bmiMask (Avx.pdep 64 g.val 0x0101010101010101) >>> (8 * k.val)) % 256 : Nat) : Int) ≠
    (Avx.idxTable.getD g.val []).getD k.val 0 % 256 := by decide +kernel

/-- C69. `gen_matrix` with this variant gives exactly the same matrix, or both are still running. -/
theorem C69_gen_matrix (p : ParamSet) (junk : Fin 4 → Nat → UInt8) (fuel : Nat) (ρ : List UInt8) (hl : ρ.length = 32) (tr : Bool) :
    (∃ a, Runs (Avx.gen_matrix p junk fuel (Matrix.uninit p) (Mem.ofList ρ) 0 tr) (· = a) ∧
      Runs (Avx.gen_matrix_bmi p junk fuel (Matrix.uninit p) (Mem.ofList ρ) 0 tr) (· = a)) ∨
    (Avx.gen_matrix p junk fuel (Matrix.uninit p) (Mem.ofList ρ) 0 tr = .diverge ∧
      Avx.gen_matrix_bmi p junk fuel (Matrix.uninit p) (Mem.ofList ρ) 0 tr = .diverge) := by
  have h := Avx.gen_matrix_runsG (junk := junk) (fuel := fuel) (ρ := ρ) tr (matSz_uninit p) (Mem.holds_ofList ρ) hl
  have h' := Avx.gen_matrixW_runsG Avx.Bmi.rejSpec_bmi (junk := junk) (fuel := fuel) (ρ := ρ) tr (matSz_uninit p) (Mem.holds_ofList ρ) hl
  unfold Avx.gen_matrix_bmi
  by_cases c : ∀ i, i < KYBER_K p → ∀ j, j < KYBER_K p → (SampleNTT (iters fuel) (entrySeed ρ tr i j)).isSome
  · left
    obtain ⟨a, t, e, ha⟩ := (h.1 c).exists_ok
    refine ⟨a, ?_, (h'.1 c).mono fun b hb => Avx.matV_unique hb ha⟩
    rw [e]
    exact rfl
  · exact .inr ⟨h.2 c, h'.2 c⟩

/-- C69. So it is the matrix of FIPS 203 (compare C46). -/
theorem C69_matrix (p : ParamSet) (junk : Fin 4 → Nat → UInt8) (fuel : Nat) (ρ : List UInt8) (hl : ρ.length = 32) (tr : Bool) (A : Nat → Nat → Rq)
    (hA : ∀ i < (fips p).k, ∀ j < (fips p).k, SampleNTT (112 + 56 * fuel) (ρ ++ [UInt8.ofNat j, UInt8.ofNat i]) = some (A i j)) :
    Runs (Avx.gen_matrix_bmi p junk fuel (Matrix.uninit p) (Mem.ofList ρ) 0 tr)
      (fun a => a.size = (fips p).k ∧ ∀ i < (fips p).k, ∀ j < (fips p).k, avxEntryIs a i j (if tr then A j i else A i j)) := by
  have h1 := C46_gen_matrix p junk fuel ρ hl tr A hA
  rcases C69_gen_matrix p junk fuel ρ hl tr with ⟨a, h2, h3⟩ | ⟨h2, _⟩
  · refine h3.mono ?_
    rintro _ rfl
    obtain ⟨b, t, e, hb⟩ := h1.exists_ok
    rw [e] at h2
    cases h2
    exact hb
  · rw [h2] at h1
    exact h1.elim

/-- A case: all candidates equal to 1 (bytes 1, 16, 0 repeated), so 256 numbers are found. -/
example : Runs (Avx.rej_uniform_avx_bmi (Mem.uninit Int16 256) (Mem.ofList (List.replicate 168 [1, 16, 0]).flatten)) (fun s => s.2 = 256) := by
  refine (C69_rej_uniform _ (Mem.size_uninit _) _ (by decide +kernel)).mono fun s hs => ?_
  obtain ⟨y, h1, _, _, h2⟩ := hs
  have e : ((((twelveBit (List.replicate 168 [1, 16, 0]).flatten).filter (· < 3329)).take 256).map Int.ofNat).length = 256 := by
    rw [← accepted_twelveBit]; decide +kernel
  rw [← h1, List.length_map] at e
  rw [h2, e]

/-- A case: the seed of the key pair for d = 0 and k = 2, with one extra block per entry. -/
example (junk : Fin 4 → Nat → UInt8) (tr : Bool) : ∃ A : Nat → Nat → Rq, Runs (Avx.gen_matrix_bmi .k2 junk 1 (Matrix.uninit .k2) (Mem.ofList katRho) 0 tr)
    (fun a => a.size = 2 ∧ ∀ i < 2, ∀ j < 2, avxEntryIs a i j (if tr then A j i else A i j)) := by
  obtain ⟨A, hA⟩ := kat_expandA
  obtain ⟨hs, rfl⟩ := expandA_some.1 hA
  refine ⟨fun i j => (SampleNTT 168 (katRho ++ [UInt8.ofNat j, UInt8.ofNat i])).getD 0, C69_matrix .k2 junk 1 katRho rfl tr _ fun i hi j hj => ?_⟩
  obtain ⟨f, hf⟩ := Option.isSome_iff_exists.1 (hs i hi j hj)
  show SampleNTT 168 _ = some ((SampleNTT 168 _).getD 0)
  rw [hf]
  rfl

end Verif.Props
