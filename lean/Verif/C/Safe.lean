import Verif.C.Logic

/-! # Partial correctness: no undefined behaviour, and a property of the value if the code returns -/

namespace Verif
variable {α β σ : Type}

def Safe (m : C α) (Q : α → Prop) : Prop :=
  match m with
  | .ok v _ => Q v
  | .ub _ => False
  | .diverge => True

theorem Runs.safe {m : C α} {Q : α → Prop} (h : Runs m Q) : Safe m Q := by cases m <;> trivial

theorem Safe.mono {m : C α} {P Q : α → Prop} (h : Safe m P) (hPQ : ∀ v, P v → Q v) : Safe m Q := by
  cases m with
  | ok v t => exact hPQ v h
  | ub u => exact h
  | diverge => trivial

theorem Safe.bind {m : C α} {f : α → C β} {P : α → Prop} {Q : β → Prop} (h : Safe m P) (hf : ∀ v, P v → Safe (f v) Q) : Safe (m >>= f) Q := by
  cases m with
  | ok v t =>
    have := hf v h
    show Safe (C.bind _ _) Q
    simp only [C.bind]
    cases hfv : f v with
    | ok w t' => rw [hfv] at this; exact this
    | ub u => rw [hfv] at this; exact this
    | diverge => trivial
  | ub u => exact h
  | diverge => trivial

theorem Safe.ok {m : C α} {Q : α → Prop} (h : Safe m Q) {v : α} {t : Trace} (hm : m = .ok v t) : Q v := by subst hm; exact h

theorem safe_cwhile {fuel : Nat} {cond : σ → Bool} {body : σ → C σ} {s : σ} (Inv : σ → Prop) (h0 : Inv s)
    (hs : ∀ s, Inv s → cond s = true → Safe (body s) Inv) : Safe (cwhile fuel cond body s) (fun s' => Inv s' ∧ cond s' = false) := by
  induction fuel generalizing s with
  | zero => trivial
  | succ fuel ih =>
    unfold cwhile
    split
    · rename_i hc
      exact Safe.bind (P := fun _ => True) trivial fun _ _ => (hs s h0 hc).bind fun s' h' => ih h'
    · rename_i hc
      exact Safe.bind (P := fun _ => True) trivial fun _ _ => ⟨h0, by simpa using hc⟩

theorem C.bind_ok {m : C α} {f : α → C β} {w : β} {t : Trace} (h : (m >>= f) = .ok w t) : ∃ v t1 t2, m = .ok v t1 ∧ f v = .ok w t2 := by
  cases m with
  | ok v t1 =>
    have h : C.bind (C.ok v t1) f = .ok w t := h
    simp only [C.bind] at h
    cases hf : f v with
    | ok w' t2 => rw [hf] at h; simp only [C.ok.injEq] at h; exact ⟨v, t1, t2, rfl, by rw [hf, h.1]⟩
    | ub u => rw [hf] at h; cases h
    | diverge => rw [hf] at h; cases h
  | ub u => cases h
  | diverge => cases h

end Verif
