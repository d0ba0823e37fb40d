import Verif.Proof.CbdDist

/-! # C20: centred binomial noise -/

set_option autoImplicit false

namespace Verif.Props
open Verif.Model Verif.Proof Verif.Spec

/-- C20. `poly_cbd_eta1` computes SamplePolyCBD_η1 of FIPS 203 (η1 = 3 for K = 2, otherwise 2), with every coefficient in [-η1, η1],
for every byte string. -/
theorem C20_cbd_eta1 (p : ParamSet) (r : Mem Int16) (hr : r.size = 256) (buf : Mem UInt8) (B : List UInt8) (hb : buf.Holds 0 B)
    (hB : B.length = 64 * (fips p).η₁) :
    Runs (poly_cbd_eta1 p r buf) (fun r' => ∃ y, r' = polyMem y ∧ residues y = SamplePolyCBD (fips p).η₁ B ∧
      ∀ i, -((fips p).η₁ : Int) ≤ (y i).toInt ∧ (y i).toInt ≤ (fips p).η₁) := by
  cases p
  · exact (cbd3_runs hr hb hB).mono fun r' h => (PolyR.of_cbd (η := 3) (by omega) hr h rfl).exists
  · exact (cbd2_runs hr hb hB).mono fun r' h => (PolyR.of_cbd (η := 2) (by omega) hr h rfl).exists
  · exact (cbd2_runs hr hb hB).mono fun r' h => (PolyR.of_cbd (η := 2) (by omega) hr h rfl).exists

/-- C20. `poly_cbd_eta2` computes SamplePolyCBD_2. -/
theorem C20_cbd_eta2 (p : ParamSet) (r : Mem Int16) (hr : r.size = 256) (buf : Mem UInt8) (B : List UInt8) (hb : buf.Holds 0 B)
    (hB : B.length = 64 * (fips p).η₂) :
    Runs (poly_cbd_eta2 r buf) (fun r' => ∃ y, r' = polyMem y ∧ residues y = SamplePolyCBD (fips p).η₂ B ∧
      ∀ i, -((fips p).η₂ : Int) ≤ (y i).toInt ∧ (y i).toInt ≤ (fips p).η₂) := by
  cases p <;> exact (cbd2_runs hr hb hB).mono fun r' h => (PolyR.of_cbd (η := 2) (by omega) hr h rfl).exists

/-- C20. Joint distribution: among all byte strings of length 64 η, the number of those for which `SamplePolyCBD_η` yields exactly the
coefficients `v` is the product of the binomial coefficients C(2η, η + v_i): the coefficients are independent and centred binomial. -/
theorem C20_distribution (η : Nat) (hη : η = 2 ∨ η = 3) (v : Fin 256 → Int) (hv : ∀ i, -η ≤ v i ∧ v i ≤ η) :
    Finset.card {b : Fin (64 * η) → Fin 256 | ∀ i, SamplePolyCBD η (List.ofFn fun i => UInt8.ofNat (b i).val) i = ((v i : Int) : Zq)} =
      ∏ i, Nat.choose (2 * η) (η + v i).toNat := by
  rw [← cbd_count η hη v hv]
  refine congrArg Finset.card (Finset.filter_congr fun b _ => ?_)
  refine forall_congr' fun i => ?_
  rw [← cbdInt_zq]
  have h1 := cbdInt_bounds η (bytesOf b) i.val
  have h2 := hv i
  change ((cbdInt η (bytesOf b) i.val : Int) : Zq) = _ ↔ _
  generalize cbdInt η (bytesOf b) i.val = x at *
  rw [ZMod.intCast_eq_intCast_iff_dvd_sub]
  constructor
  · rintro ⟨c, hc⟩
    push_cast at hc
    omega
  · rintro rfl
    simp

/-- C20. The distribution of the code's output: the number of byte strings for which `cbd2` yields the coefficients `v`. -/
theorem C20_distribution_code (r : Mem Int16) (hr : r.size = 256) (v : Fin 256 → Int) (hv : ∀ i, -2 ≤ v i ∧ v i ≤ 2) :
    Set.ncard {b : Fin 128 → Fin 256 | Runs (cbd2 r (Mem.ofList (List.ofFn fun i => UInt8.ofNat (b i).val)))
      (fun r' => ∃ y, r' = polyMem y ∧ ∀ i, (y i).toInt = v i)} = ∏ i, Nat.choose 4 (2 + v i).toNat := by
  have hc : _ = ∏ i, Nat.choose 4 (2 + v i).toNat := (cbd_count 2 (by omega) v hv).trans (Finset.prod_congr rfl fun i _ => rfl)
  rw [← hc, ← Set.ncard_coe_finset]
  refine congrArg Set.ncard (Set.ext fun b => ?_)
  simp only [Set.mem_setOf_eq, Finset.coe_filter, Finset.mem_univ, true_and]
  have hrun := cbd2_runs hr (Mem.holds_ofList (bytesOf b)) (by rw [bytesOf_length])
  have hb : ∀ i, -2 ≤ cbdInt 2 (bytesOf b) i ∧ cbdInt 2 (bytesOf b) i ≤ 2 := fun i => cbdInt_bounds 2 (bytesOf b) i
  change Runs (cbd2 r (Mem.ofList (bytesOf b))) _ ↔ _
  constructor
  · intro h i
    obtain ⟨m, t, _, hu, y, hy, hv⟩ := (hrun.and h).exists_ok
    have e := eq_polyMem hr hu (fun i => i16 (cbdInt 2 (bytesOf b) i.val)) fun _ _ => rfl
    have g1 := polyMem_get y i.val i.isLt
    rw [← hy, e, polyMem_get _ i.val i.isLt] at g1
    simp only [Option.some.injEq] at g1
    have := hv i
    rw [show y i = y ⟨i.val, i.isLt⟩ from rfl, ← g1, toInt_i16_of (by have := hb i.val; omega) (by have := hb i.val; omega)] at this
    exact this
  · intro h
    refine hrun.mono fun r' hu => ⟨fun i => i16 (cbdInt 2 (bytesOf b) i.val), eq_polyMem hr hu _ fun _ _ => rfl, fun i => ?_⟩
    rw [toInt_i16_of (by have := hb i.val; omega) (by have := hb i.val; omega)]
    exact h i

/-- C20. The distribution of the code's output: the number of byte strings for which `cbd3` yields the coefficients `v`. -/
theorem C20_distribution_code3 (r : Mem Int16) (hr : r.size = 256) (v : Fin 256 → Int) (hv : ∀ i, -3 ≤ v i ∧ v i ≤ 3) :
    Set.ncard {b : Fin 192 → Fin 256 | Runs (cbd3 r (Mem.ofList (List.ofFn fun i => UInt8.ofNat (b i).val)))
      (fun r' => ∃ y, r' = polyMem y ∧ ∀ i, (y i).toInt = v i)} = ∏ i, Nat.choose 6 (3 + v i).toNat := by
  have hc : _ = ∏ i, Nat.choose 6 (3 + v i).toNat := (cbd_count 3 (by omega) v hv).trans (Finset.prod_congr rfl fun i _ => rfl)
  rw [← hc, ← Set.ncard_coe_finset]
  refine congrArg Set.ncard (Set.ext fun b => ?_)
  simp only [Set.mem_setOf_eq, Finset.coe_filter, Finset.mem_univ, true_and]
  have hrun := cbd3_runs hr (Mem.holds_ofList (bytesOf b)) (by rw [bytesOf_length])
  have hb : ∀ i, -3 ≤ cbdInt 3 (bytesOf b) i ∧ cbdInt 3 (bytesOf b) i ≤ 3 := fun i => cbdInt_bounds 3 (bytesOf b) i
  change Runs (cbd3 r (Mem.ofList (bytesOf b))) _ ↔ _
  constructor
  · intro h i
    obtain ⟨m, t, _, hu, y, hy, hv⟩ := (hrun.and h).exists_ok
    have e := eq_polyMem hr hu (fun i => i16 (cbdInt 3 (bytesOf b) i.val)) fun _ _ => rfl
    have g1 := polyMem_get y i.val i.isLt
    rw [← hy, e, polyMem_get _ i.val i.isLt] at g1
    simp only [Option.some.injEq] at g1
    have := hv i
    rw [show y i = y ⟨i.val, i.isLt⟩ from rfl, ← g1, toInt_i16_of (by have := hb i.val; omega) (by have := hb i.val; omega)] at this
    exact this
  · intro h
    refine hrun.mono fun r' hu => ⟨fun i => i16 (cbdInt 3 (bytesOf b) i.val), eq_polyMem hr hu _ fun _ _ => rfl, fun i => ?_⟩
    rw [toInt_i16_of (by have := hb i.val; omega) (by have := hb i.val; omega)]
    exact h i

/-- The specification on concrete bits: byte 0x03 gives first coefficient 2 for η = 2; byte 0x0c gives -2. -/
example : SamplePolyCBD 2 (0x03 :: List.replicate 127 0) 0 = 2 ∧ SamplePolyCBD 2 (0x0c :: List.replicate 127 0) 0 = -2 := by decide +kernel

/-- The code on the same bytes. -/
example : Runs (cbd2 (Mem.uninit Int16 256) (Mem.ofList (0x03 :: 0x0c :: List.replicate 126 0)))
    (fun r : Mem Int16 => r[0]? = some (some 2) ∧ r[1]? = some (some 0) ∧ r[2]? = some (some (-2 : Int16))) := by decide +kernel

/-- The range hypothesis of the distribution theorem is satisfiable. -/
example : ∀ i : Fin 256, -((2 : Nat) : Int) ≤ (fun _ => 1 : Fin 256 → Int) i ∧ (fun _ => 1 : Fin 256 → Int) i ≤ (2 : Nat) := fun _ => by simp

end Verif.Props
