import Verif.Proof.Reduce
import Mathlib.Data.Int.ModEq

/-! # C15: modular reductions are exact on their whole domain -/

namespace Verif.Props
open Verif.Model Verif.Proof

/-- C15. Montgomery reduction of every `a` in `[-q*2^15, q*2^15)` returns a value strictly between `-q` and `q` that is congruent to
`a * 2^-16` modulo `q` (written as `2^16 * r ≡ a`). -/
theorem C15_montgomery_reduce (a : Int) (hlo : -(3329 * 2 ^ 15) ≤ a) (hhi : a < 3329 * 2 ^ 15) :
    Runs (montgomery_reduce a) (fun r => -3329 < r.toInt ∧ r.toInt < 3329 ∧ 2 ^ 16 * r.toInt ≡ a [ZMOD 3329]) := by
  refine (montgomery_core a (by omega) (by omega)).mono ?_
  rintro r ⟨t, h1, h2, h3⟩
  refine ⟨by omega, by omega, ?_⟩
  rw [Int.modEq_iff_dvd]
  exact ⟨t, by omega⟩

/-- The range of the previous theorem is the documented one; the congruence itself holds on a larger domain, in particular for the
product of any two 16-bit values. -/
theorem C15_montgomery_reduce_congr (a : Int) (hlo : -2 ^ 30 ≤ a) (hhi : a ≤ 2 ^ 30) :
    Runs (montgomery_reduce a) (fun r => 2 ^ 16 * r.toInt ≡ a [ZMOD 3329]) := by
  refine (montgomery_core a (by omega) (by omega)).mono ?_
  rintro r ⟨t, h1, h2, h3⟩
  rw [Int.modEq_iff_dvd]
  exact ⟨t, by omega⟩

/-- C15. Barrett reduction of every 16-bit value returns its centred representative modulo `q`. -/
theorem C15_barrett_reduce (a : Int16) :
    Runs (barrett_reduce a) (fun r => -((3329 - 1) / 2) ≤ r.toInt ∧ r.toInt ≤ (3329 - 1) / 2 ∧ r.toInt ≡ a.toInt [ZMOD 3329]) := by
  refine (barrett_core a).mono ?_
  rintro r ⟨h1, h2, h3⟩
  refine ⟨by omega, by omega, ?_⟩
  exact (Int.modEq_iff_dvd.mpr h3).symm

/-- The hypotheses of `C15_montgomery_reduce` are met at both ends of the range and inside. -/
example : (-(3329 * 2 ^ 15) : Int) ≤ -109084672 ∧ (-109084672 : Int) < 3329 * 2 ^ 15 ∧
    Runs (montgomery_reduce 12345678) (fun r => (2 ^ 16 * r.toInt - 12345678) % 3329 = 0) := by decide

/-- Barrett reduction at the extreme of the 16-bit range. -/
example : Runs (barrett_reduce (-32768)) (fun r => r.toInt = 522) := by decide

end Verif.Props
