import Verif.Proof.ZeroSeed3
import Verif.Proof.Correct

/-! # The matrix of the all-zero seed

test_speed.c measures `gen_matrix` on a seed of 32 zero bytes. The rejection sampling of all of its 16 entries finishes within three blocks. -/

namespace Verif.Proof
open Verif.Model Verif.Spec

theorem zero_expandA (p : ParamSet) : (ExpandA (KYBER_K p) 168 (List.replicate 32 0)).isSome = true := by
  rw [Option.isSome_iff_exists]
  refine ⟨_, expandA_some.2 ⟨fun i hi j hj => ?_, rfl⟩⟩
  have hk : KYBER_K p ≤ 4 := by cases p <;> decide
  rcases (by omega : i = 0 ∨ i = 1 ∨ i = 2 ∨ i = 3) with rfl | rfl | rfl | rfl <;> rcases (by omega : j = 0 ∨ j = 1 ∨ j = 2 ∨ j = 3) with rfl | rfl | rfl | rfl
  · exact zero_sample00
  · exact zero_sample10
  · exact zero_sample20
  · exact zero_sample30
  · exact zero_sample01
  · exact zero_sample11
  · exact zero_sample21
  · exact zero_sample31
  · exact zero_sample02
  · exact zero_sample12
  · exact zero_sample22
  · exact zero_sample32
  · exact zero_sample03
  · exact zero_sample13
  · exact zero_sample23
  · exact zero_sample33

theorem zero_expandA_iters (p : ParamSet) {fuel : Nat} (h : 1 ≤ fuel) : (ExpandA (KYBER_K p) (iters fuel) (List.replicate 32 0)).isSome = true := by
  obtain ⟨A, hA⟩ := Option.isSome_iff_exists.1 (zero_expandA p)
  obtain ⟨A', hA', -⟩ := expandA_mono (N' := iters fuel) (by unfold iters; omega) hA
  rw [hA']
  rfl

end Verif.Proof
