import Verif.Proof.InitNtt
import Verif.Spec.Ring

/-! # C77: the table of zetas -/

set_option autoImplicit false

namespace Verif.Props
open Verif.Model Verif.Spec Verif.Proof

/-- C77. The code in the comment of ref/ntt.c, run on any object of 128 cells, has no undefined behaviour and writes the table that the file contains. -/
theorem C77_generator (z : Mem Int16) (hz : z.size = 128) : Runs (init_ntt z) (fun r => r = Mem.ofList zetasList) := init_ntt_runs z hz

/-- C77. The table has the powers of 17 in bit-reversed order, times 2^16, as centred representatives. -/
theorem C77_table : zetasList.length = 128 ∧ ∀ (i : Nat) (z : Int16), zetasList[i]? = some z →
    ((z.toInt : Int) : Zq) = 17 ^ bitRev7 i * 2 ^ 16 ∧ -1664 ≤ z.toInt ∧ z.toInt ≤ 1664 := by
  refine ⟨zetas_length, fun i z h => ?_⟩
  have hi : i < 128 := by
    have := (List.getElem?_eq_some_iff.1 h).1
    rw [zetas_length] at this
    exact this
  have key : ∀ i < 128, ∀ z ∈ zetasList[i]?, (z.toInt - 17 ^ bitRev7 i * 2 ^ 16) % 3329 = 0 ∧ -1664 ≤ z.toInt ∧ z.toInt ≤ 1664 := by decide +kernel
  obtain ⟨h1, h2⟩ := key i hi z h
  refine ⟨?_, h2⟩
  have := (ZMod.intCast_zmod_eq_zero_iff_dvd (z.toInt - 17 ^ bitRev7 i * 2 ^ 16) 3329).2 (Int.dvd_of_emod_eq_zero h1)
  push_cast at this
  exact sub_eq_zero.1 this

/-- C77. The index table of the generator is bit reversal. -/
theorem C77_tree : treeList.map (·.toNat) = (List.range 128).map bitRev7 := by decide +kernel

/-- The second entry belongs to 17^64 and is the result of the 64th multiplication of the generator. -/
example : zetasList[1]? = some (-758 : Int16) ∧ (-758 - 17 ^ 64 * 2 ^ 16 : Int) % 3329 = 0 ∧ bitRev7 1 = 64 := by decide

end Verif.Props
