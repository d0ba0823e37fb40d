import Verif.Proof.InPlaceSquare
import Verif.Props.Ntt

/-! # C74: polynomial arithmetic in place

The code adds and subtracts in place (`poly_add(&v, &v, &epp)`, `poly_sub(&mp, &v, &mp)`, `polyvec_add(&b, &b, &ep)`); Verif/Model/Poly.lean reads the operands from copies. Here the
arguments lie in one memory, so that a write is seen by later reads. -/

set_option autoImplicit false

namespace Verif.Props
open Verif.Model Verif.Proof Verif.Spec

/-- The polynomial at offset `o` of a memory. -/
def polyAt (X : Mem Int16) (o : Nat) : Poly := X.extract o (o + 256)

/-- The vector of polynomials at offset `o` of a memory. -/
def vecAt (p : ParamSet) (X : Mem Int16) (o : Nat) : Polyvec := Array.ofFn fun i : Fin (KYBER_K p) => polyAt X (o + 256 * i)

/-- The run `m` in one memory `X` does what the run `m'` on objects of their own does: it is undefined or still running if and only if `m'` is, and if it returns, the new memory has
the result of `m'` at offset `r` and is unchanged outside of the `n` cells from there. -/
def DoneInPlace {α : Type} (X : Mem Int16) (r n : Nat) (view : Mem Int16 → α) (m : C (Mem Int16)) (m' : C α) : Prop :=
  (∀ u, m = .ub u ↔ m' = .ub u) ∧ (m = .diverge ↔ m' = .diverge) ∧
  ∀ X' t, m = .ok X' t → ∃ t', m' = .ok (view X') t' ∧ X'.size = X.size ∧ ∀ j, j < r ∨ r + n ≤ j → X'[j]? = X[j]?

theorem doneInPlace_of {α : Type} {X : Mem Int16} {r n : Nat} {view : Mem Int16 → α} {m : C (Mem Int16)} {m' : C α} {R : Mem Int16 → α → Prop} (h : Sim R m m')
    (hR : ∀ X' v, R X' v → v = view X' ∧ X'.size = X.size ∧ ∀ j, j < r ∨ r + n ≤ j → X'[j]? = X[j]?) : DoneInPlace X r n view m m' := by
  cases m with
  | ok v t => cases m' with
    | ok w t' =>
      refine ⟨fun u => by simp, by simp, fun X' t0 e => ?_⟩
      cases e
      obtain ⟨e, h2⟩ := hR _ _ h
      exact ⟨t', by rw [e], h2⟩
    | ub u => exact h.elim
    | diverge => exact h.elim
  | ub u => cases m' with
    | ok w t' => exact h.elim
    | ub u' => cases (show u = u' from h); exact ⟨fun _ => by simp, by simp, by simp⟩
    | diverge => exact h.elim
  | diverge => cases m' with
    | ok w t' => exact h.elim
    | ub u' => exact h.elim
    | diverge => exact ⟨by simp, by simp, by simp⟩

section
variable (X : Mem Int16) (r a b : Nat) (hr : r + 256 ≤ X.size) (ha : a + 256 ≤ X.size) (hb : b + 256 ≤ X.size)
include hr ha hb

/-- C74. `poly_add` with arguments anywhere in one memory, provided the result does not begin inside of an operand after its first coefficient: in particular the result may be an
operand, or both. -/
theorem C74_poly_add (hra : r ≤ a ∨ a + 256 ≤ r) (hrb : r ≤ b ∨ b + 256 ≤ r) :
    DoneInPlace X r 256 (polyAt · r) (poly_add_in X r a b) (poly_add (polyAt X r) (polyAt X a) (polyAt X b)) :=
  doneInPlace_of (sim_poly_add hr ha hb hra hrb) fun _ _ h => ⟨(h.part hr).symm, h.size, h.outside⟩

/-- C74. The same for `poly_sub`. -/
theorem C74_poly_sub (hra : r ≤ a ∨ a + 256 ≤ r) (hrb : r ≤ b ∨ b + 256 ≤ r) :
    DoneInPlace X r 256 (polyAt · r) (poly_sub_in X r a b) (poly_sub (polyAt X r) (polyAt X a) (polyAt X b)) :=
  doneInPlace_of (sim_poly_sub hr ha hb hra hrb) fun _ _ h => ⟨(h.part hr).symm, h.size, h.outside⟩

/-- C74. `poly_basemul_montgomery` if the result does not overlap the operands; these may overlap each other. -/
theorem C74_poly_basemul (hra : r + 256 ≤ a ∨ a + 256 ≤ r) (hrb : r + 256 ≤ b ∨ b + 256 ≤ r) :
    DoneInPlace X r 256 (polyAt · r) (poly_basemul_montgomery_in X r a b) (poly_basemul_montgomery (polyAt X r) (polyAt X a) (polyAt X b)) :=
  doneInPlace_of (sim_poly_basemul hr ha hb hra hrb) fun _ _ h => ⟨(h.part hr).symm, h.size, h.outside⟩

end

/-- C74. `polyvec_add`. -/
theorem C74_polyvec_add (p : ParamSet) (X : Mem Int16) (r a b : Nat) (hr : r + 256 * KYBER_K p ≤ X.size) (ha : a + 256 * KYBER_K p ≤ X.size) (hb : b + 256 * KYBER_K p ≤ X.size)
    (hra : r ≤ a ∨ a + 256 * KYBER_K p ≤ r) (hrb : r ≤ b ∨ b + 256 * KYBER_K p ≤ r) :
    DoneInPlace X r (256 * KYBER_K p) (vecAt p · r) (polyvec_add_in p X r a b) (polyvec_add p (vecAt p X r) (vecAt p X a) (vecAt p X b)) :=
  doneInPlace_of (sim_polyvec_add hr ha hb hra hrb) fun _ _ h => ⟨h.inside, h.size, h.outside⟩

/-- C74. The calls of the code. `poly_add(&v, &v, &epp)`: `v` at offset 0, `epp` behind it. -/
theorem C74_add_call (v e : Poly) (hv : v.size = 256) (he : e.size = 256) : DoneInPlace (v ++ e) 0 256 (polyAt · 0) (poly_add_in (v ++ e) 0 0 256) (poly_add v v e) := by
  have h := C74_poly_add (v ++ e) 0 0 256 (by rw [Array.size_append]; omega) (by rw [Array.size_append]; omega) (by rw [Array.size_append]; omega) (by omega) (by omega)
  have e1 : polyAt (v ++ e) 0 = v := by unfold polyAt; rw [Nat.zero_add, ← hv, Array.extract_append_left, Array.extract_size]
  have e2 : polyAt (v ++ e) 256 = e := by
    unfold polyAt
    rw [show 256 + 256 = v.size + e.size from by omega, ← hv, Array.extract_append_right, Array.extract_size]
  rwa [e1, e2] at h

/-- C74. `poly_sub(&mp, &v, &mp)`: `mp` at offset 0, `v` behind it. -/
theorem C74_sub_call (m v : Poly) (hm : m.size = 256) (hv : v.size = 256) : DoneInPlace (m ++ v) 0 256 (polyAt · 0) (poly_sub_in (m ++ v) 0 256 0) (poly_sub m v m) := by
  have h := C74_poly_sub (m ++ v) 0 256 0 (by rw [Array.size_append]; omega) (by rw [Array.size_append]; omega) (by rw [Array.size_append]; omega) (by omega) (by omega)
  have e1 : polyAt (m ++ v) 0 = m := by unfold polyAt; rw [Nat.zero_add, ← hm, Array.extract_append_left, Array.extract_size]
  have e2 : polyAt (m ++ v) 256 = v := by
    unfold polyAt
    rw [show 256 + 256 = m.size + v.size from by omega, ← hm, Array.extract_append_right, Array.extract_size]
  rwa [e1, e2] at h

/-- C74. The condition is needed for every overlap: if the result is the second operand and begins `d` coefficients after the first operand, `0 < d < 256`, then on the coefficients
1, 0, 0, ... the sum at index `d` of the result is 1, where it should be 0. -/
theorem C74_add_overlap (d : Nat) (h0 : 0 < d) (h1 : d < 256) : let X : Mem Int16 := Mem.ofList (1 :: List.replicate (d + 255) 0)
    Runs (poly_add (polyAt X d) (polyAt X 0) (polyAt X d)) (fun r => r[d]? = some (some 0)) ∧ Runs (poly_add_in X d 0 d) (fun X' => (polyAt X' d)[d]? = some (some 1)) := by
  intro X
  have hX : ∀ j, j < d + 256 → X[j]? = some (some (if j = 0 then 1 else 0)) := fun j hj => by
    cases j with
    | zero => simp [X, Mem.ofList]
    | succ j =>
      have : j < d + 255 := by omega
      simp [X, Mem.ofList, this]
  have hs : X.size = d + 256 := by simp [X, Mem.ofList]
  clear_value X
  have step : ∀ (c c' : Prop) [Decidable c] [Decidable c'] (Q : Int16 → Prop), ¬ c' → Q (if c then 1 else 0) →
      Runs (iadd (if c then (1 : Int16) else 0).toInt (if c' then (1 : Int16) else 0).toInt) (fun e => Runs (i16c e) Q) := by
    intro c c' _ _ Q hc' hQ
    rw [if_neg hc', runs_iadd, runs_i16c]
    by_cases hc : c
    · rw [if_pos hc] at hQ ⊢
      exact ⟨by decide, by decide, hQ⟩
    · rw [if_neg hc] at hQ ⊢
      exact ⟨by decide, by decide, hQ⟩
  constructor
  · have hA : ∀ o, o ≤ d → ∀ j, j < 256 → (polyAt X o)[j]? = some (some (if o + j = 0 then 1 else 0)) := fun o ho j hj => by
      rw [← hX (o + j) (by omega)]
      simp only [polyAt, Array.getElem?_extract]
      rw [if_pos (by omega)]
    refine (runs_cfor (Inv := fun k (r : Poly) => r.size = 256 ∧ ∀ j, j < k → r[j]? = some (some (if j = 0 then 1 else 0))) (by decide)
      ⟨by simp [polyAt, hs], fun j hj => by omega⟩ fun k r _ hk hI => ?_).mono fun r h => ?_
    · have hk : k < 256 := hk
      simp only [runs_bind, runs_rd_of (hA 0 (by omega) k hk), runs_rd_of (hA d (by omega) k hk)]
      refine step _ _ _ (by omega) ?_
      rw [runs_wr]
      refine ⟨by omega, by simp [hI.1], fun j hj => ?_⟩
      rw [Array.getElem?_setIfInBounds]
      by_cases e : k = j
      · subst e
        simp [hI.1, hk]
      · rw [if_neg e, hI.2 j (by omega)]
    · have := h.2 d h1
      rwa [if_neg (by omega)] at this
  · refine (runs_cfor (Inv := fun k (Y : Mem Int16) => Y.size = d + 256 ∧ ∀ j, j < d + 256 → Y[j]? = some (some (if d ∣ j ∧ j < d + k then 1 else 0))) (by decide)
      ⟨hs, fun j hj => ?_⟩ fun k Y _ hk hI => ?_).mono fun Y h => ?_
    · rw [hX j hj]
      have : j = 0 ↔ d ∣ j ∧ j < d + 0 := ⟨fun e => by subst e; exact ⟨⟨0, rfl⟩, h0⟩, fun h => Nat.eq_zero_of_dvd_of_lt h.1 h.2⟩
      simp only [this]
    · have hk : k < 256 := hk
      rw [Nat.zero_add]
      simp only [runs_bind, runs_rd_of (hI.2 k (by omega)), runs_rd_of (hI.2 (d + k) (by omega))]
      refine step _ _ _ (by omega) ?_
      rw [runs_wr]
      refine ⟨by omega, by simp [hI.1], fun j hj => ?_⟩
      rw [Array.getElem?_setIfInBounds]
      by_cases e : d + k = j
      · subst e
        have : (d ∣ d + k ∧ d + k < d + (k + 1)) ↔ (d ∣ k ∧ k < d + k) := by
          rw [Nat.dvd_add_right (Nat.dvd_refl d)]
          exact ⟨fun h => ⟨h.1, by omega⟩, fun h => ⟨h.1, by omega⟩⟩
        rw [if_pos rfl, if_pos (by omega)]
        simp only [this]
      · have : (d ∣ j ∧ j < d + (k + 1)) ↔ (d ∣ j ∧ j < d + k) := ⟨fun h => ⟨h.1, by omega⟩, fun h => ⟨h.1, by omega⟩⟩
        rw [if_neg e, hI.2 j hj]
        simp only [this]
    · have := h.2 (d + d) (by omega)
      rw [if_pos ⟨⟨2, by omega⟩, by show d + d < d + 256; omega⟩] at this
      simp only [polyAt, Array.getElem?_extract]
      rw [if_pos (by rw [h.1]; omega), this]

/-- C74. `poly_basemul_montgomery` may not be called in place, since `basemul` writes `r[0]` before it reads `a[0]`: on the polynomial X, whose square in every factor has the
coefficient 0 at degree 1, the call with the result in the first operand returns -497 there. -/
theorem C74_basemul_inplace : let v : Poly := Array.ofFn fun i : Fin 256 => some (if i.val = 1 then 1 else 0)
    Runs (poly_basemul_montgomery v v v) (fun r => r[1]? = some (some 0)) ∧ Runs (poly_basemul_montgomery_in (v ++ v) 0 0 256) (fun X' => X'[1]? = some (some (-497 : Int16))) := by
  intro v
  have hv : v.size = 256 := Array.size_ofFn
  have hg : ∀ j, j < 256 → v[j]? = some (some (if j = 1 then 1 else 0)) := fun j hj => by simp [v, hj]
  clear_value v
  exact ⟨square_sep hv hg, square_in hv hg⟩

/-- The hypotheses hold for a call of the code, and the run returns: 3 and 4 added in place give 7 at every index, the operand behind the result is unchanged. -/
example : Runs (poly_add_in (polyMem (fun _ => 3) ++ polyMem (fun _ => 4)) 0 0 256) (fun X' =>
    (∀ i, i < 256 → X'[i]? = some (some 7)) ∧ ∀ i, i < 256 → X'[256 + i]? = some (some 4)) := by
  have hs : ∀ f, (polyMem f).size = 256 := fun f => by unfold polyMem; exact Array.size_ofFn
  obtain ⟨h1, h2, h3⟩ := C74_add_call (polyMem fun _ => 3) (polyMem fun _ => 4) (hs _) (hs _)
  have hr := C14_poly_add (polyMem fun _ => 3) (hs _) (fun _ => 3) (fun _ => 4) (fun _ => by decide)
  generalize poly_add (polyMem fun _ => 3) (polyMem fun _ => 3) (polyMem fun _ => 4) = m' at h1 h2 h3 hr
  cases hm : poly_add_in (polyMem (fun _ => 3) ++ polyMem (fun _ => 4)) 0 0 256 with
  | ub u => rw [(h1 u).mp hm] at hr; exact hr.elim
  | diverge => rw [h2.mp hm] at hr; exact hr.elim
  | ok X' t =>
    obtain ⟨t', e, hX, ho⟩ := h3 X' t hm
    rw [e] at hr
    obtain ⟨z, hz, hz'⟩ := hr
    refine ⟨fun i hi => ?_, fun i hi => ?_⟩
    · have g : (polyAt X' 0)[i]? = X'[i]? := by
        simp only [polyAt, Array.getElem?_extract]
        rw [if_pos (by rw [hX, Array.size_append, hs, hs]; omega), Nat.zero_add]
      rw [← g, show polyAt X' 0 = polyMem z from hz, polyMem_get z i hi]
      have := hz' ⟨i, hi⟩
      rw [show z ⟨i, hi⟩ = 7 from Int16.toInt_inj.mp (this.trans (by decide))]
    · rw [ho _ (by omega), Array.getElem?_append_right (by rw [hs]; omega), hs, Nat.add_sub_cancel_left, polyMem_get _ i hi]

end Verif.Props
