import Verif.Proof.Verify

/-! # C27, C28: constant-time comparison and conditional move -/

namespace Verif.Props
open Verif.Model Verif.Proof

/-- C27. Comparing two byte strings of the same length, wherever they are stored, gives 0 exactly if they are equal, else 1. -/
theorem C27_verify (a b : Mem UInt8) (ao bo : Nat) (x y : List UInt8) (hlen : x.length = y.length)
    (ha : a.Holds ao x) (hb : b.Holds bo y) :
    Runs (verify a ao b bo x.length) (fun r => r = if x = y then 0 else 1) := by
  refine (verify_runs (ha.has 0) (hlen ▸ hb.has 0)).mono ?_
  rintro r ⟨h1, h2⟩
  have h3 : (∀ i, i < x.length → x.getD i 0 = y.getD i 0) ↔ x = y := by
    constructor
    · intro h
      apply List.ext_getElem hlen
      intro i hi hi'
      have := h i hi
      simpa [hi, hi'] using this
    · rintro rfl; simp
  rw [h3] at h2
  split
  · exact h2.mpr ‹_›
  · rcases h1 with h1 | h1
    · exact absurd (h2.mp h1) ‹_›
    · exact h1

example : (Mem.ofList [1, 2, 3]).Holds 0 [(1 : UInt8), 2, 3] ∧
    Runs (verify (Mem.ofList [1, 2, 3]) 0 (Mem.ofList [9, 1, 2, 131]) 1 3) (fun r => r = 1) :=
  ⟨Mem.holds_ofList _, by decide⟩

/-- C28. `cmov` with flag 0 or 1: `r` keeps its bytes, or all `len` bytes become those of `x`; nothing else is written. -/
theorem C28_cmov (r x : Mem UInt8) (ro xo : Nat) (old new : List UInt8) (hlen : old.length = new.length)
    (hr : r.Holds ro old) (hx : x.Holds xo new) (b : Bool) :
    Runs (cmov r ro x xo new.length (if b then 1 else 0)) (fun r' => r.Wrote r' ro (if b then new else old)) := by
  refine (cmov_runs (hlen ▸ hr.has 0) (hx.has 0) b).mono ?_
  intro r' h
  refine h.wrote_of (by cases b <;> simp [hlen]) ?_
  intro i hi
  cases b <;> simp at hi <;> simp [hi]

example : Runs (cmov (Mem.ofList [1, 2, 3, 4]) 1 (Mem.ofList [7, 8]) 0 2 1)
    (fun r' => r' = Mem.ofList [1, 7, 8, 4]) := by decide

/-- C28. `cmov_int16` with flag 0 or 1 keeps the old value or stores the new one; nothing else is written. -/
theorem C28_cmov_int16 (r : Mem Int16) (o : Nat) (old v : Int16) (hr : r.Holds o [old]) (b : Bool) :
    Runs (cmov_int16 r o v (if b then 1 else 0)) (fun r' => r.Wrote r' o [if b then v else old]) := by
  refine (cmov_int16_runs (hr 0 (by simp)) v b).mono ?_
  intro r' h
  exact h.wrote_of rfl (by simp)

example : Runs (cmov_int16 (Mem.ofList [5, -7]) 1 1665 1) (fun r' => r' = Mem.ofList [5, 1665]) := by decide

end Verif.Props
