import Verif.Avx.Call
import Verif.Avx.Sound
import Verif.C.Bytes

/-! # From symbolic runs to calls -/

namespace Verif.Avx

variable {D : Type}

theorem CRel.get {E : Type} {R : D → E → Prop} {rest : List (Option E)} : ∀ {cs : List (Option D)} {ds : List (Option E)}, CRel R rest cs ds →
    ds.length = cs.length + rest.length ∧ ds.drop cs.length = rest ∧ ∀ (i : Nat) (a : D), cs[i]? = some (some a) → ∃ b, ds[i]? = some (some b) ∧ R a b
  | [], ds, h => by
    have h : ds = rest := h
    subst h; simp
  | c :: cs, ds, h => by
    obtain ⟨d, ds', rfl, h1, h2⟩ := h
    obtain ⟨h3, h4, h5⟩ := CRel.get h2
    refine ⟨by simp [h3]; omega, by simpa using h4, ?_⟩
    intro i a hi
    cases i with
    | zero =>
      simp at hi; subst hi
      obtain ⟨b, hb, hab⟩ := h1
      exact ⟨b, by simp [hb], hab⟩
    | succ i => simp at hi; simpa using h5 i a hi

theorem CRel.of {E : Type} {R : D → E → Prop} : ∀ {cs : List (Option D)} {ds : List (Option E)},
    cs.length ≤ ds.length → (∀ (i : Nat) (a : D), cs[i]? = some (some a) → ∃ b, ds[i]? = some (some b) ∧ R a b) → CRel R (ds.drop cs.length) cs ds
  | [], ds, _, _ => rfl
  | c :: cs, ds, hl, h => by
    cases ds with
    | nil => simp at hl
    | cons d ds =>
      refine ⟨d, ds, rfl, ?_, ?_⟩
      · cases c with
        | none => trivial
        | some a => obtain ⟨b, hb, hab⟩ := h 0 a rfl; simp at hb; exact ⟨b, hb, hab⟩
      · exact CRel.of (by simpa using hl) (fun i a hi => by simpa using h (i + 1) a (by simpa using hi))

theorem noRegs_rel {E : Type} (R : D → E → Prop) : List.Forall₂ (ORel (List.Forall₂ R)) (noRegs (D := D)) (noRegs (D := E)) := by
  unfold noRegs
  induction 32 with
  | zero => exact .nil
  | succ n ih => rw [List.replicate_succ, List.replicate_succ]; exact .cons trivial ih

/-- The first object after a run satisfies a test. -/
def headIs (r : Except UB (VS D)) (f : List (Option D) → Bool) : Bool :=
  match r with
  | .ok ⟨_, o :: _⟩ => f o.cells
  | _ => false

theorem headIs_out {r : Except UB (VS D)} {f : List (Option D) → Bool} (h : headIs r f = true) :
    ∃ g o os, r = .ok ⟨g, o :: os⟩ ∧ f o.cells = true := by
  unfold headIs at h
  split at h
  · exact ⟨_, _, _, rfl, h⟩
  · simp at h

/-- A symbolic run from `objs0` whose first object passes the test `f` describes the call on related objects. -/
theorem call_runs {S : Sem D} {R : D → W → Prop} (hs : Sound S evalW R) {w : List Nat} {p : List I} {objs0 : List (Obj D)} {f : List (Option D) → Bool}
    (hw : p.all (I.stIn w) = true) (hrun : headIs (run S p ⟨noRegs, objs0⟩) f = true)
    {rest : List (Option W)} {rests : List (List (Option W))} {objs : List (Obj W)} (hrel : OsRel R (rest :: rests) objs0 objs) :
    Runs (call w p objs) (fun o => ∃ cs, f cs = true ∧ CRel R rest cs o.cells) := by
  obtain ⟨g, o, os, hr, hf⟩ := headIs_out hrun
  obtain ⟨t', ht, hR⟩ := run_sound hs p (t := ⟨noRegs, objs⟩) ⟨noRegs_rel R, hrel⟩ hr
  unfold call
  rw [if_pos hw, ht]
  obtain ⟨g', objs'⟩ := t'
  cases objs' with
  | nil => exact absurd hR.objs (by simp [OsRel])
  | cons o' os' => exact ⟨_, hf, hR.objs.1.cells⟩

end Verif.Avx
