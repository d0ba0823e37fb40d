import Verif.C.Logic

/-! # Code that may run out of fuel -/

namespace Verif
variable {α β γ σ : Type}

/-- `m` returns normally with a value satisfying `Q` if `good`, and runs out of fuel otherwise. -/
def RunsG (good : Prop) (m : C α) (Q : α → Prop) : Prop := (good → Runs m Q) ∧ (¬ good → m = .diverge)

/-- `m` returns a value related to the result of a partial specification, and runs out of fuel if that has none. -/
def RunsO (m : C α) (o : Option β) (Q : β → α → Prop) : Prop :=
  match o with
  | some b => Runs m (Q b)
  | none => m = .diverge

theorem runsO_some {m : C α} {b : β} {Q : β → α → Prop} : RunsO m (some b) Q ↔ Runs m (Q b) := Iff.rfl
theorem runsO_none {m : C α} {Q : β → α → Prop} : RunsO m none Q ↔ m = .diverge := Iff.rfl

theorem bind_diverge {f : α → C β} : ((C.diverge : C α) >>= f) = .diverge := rfl

theorem Runs.bind_diverge {m : C α} {f : α → C β} {P : α → Prop} (h : Runs m P) (hf : ∀ v, P v → f v = .diverge) : (m >>= f) = .diverge := by
  obtain ⟨v, t, rfl, hv⟩ := h.exists_ok
  show C.bind _ _ = _
  simp [C.bind, hf v hv]

theorem RunsG.mono {good : Prop} {m : C α} {P Q : α → Prop} (h : RunsG good m P) (hPQ : ∀ v, P v → Q v) : RunsG good m Q :=
  ⟨fun g => (h.1 g).mono hPQ, h.2⟩

theorem RunsG.congr {good good' : Prop} {m : C α} {P : α → Prop} (h : RunsG good m P) (hg : good ↔ good') : RunsG good' m P :=
  ⟨fun g => h.1 (hg.2 g), fun g => h.2 fun g' => g (hg.1 g')⟩

theorem Runs.toG {m : C α} {P : α → Prop} (h : Runs m P) : RunsG True m P := ⟨fun _ => h, fun h => absurd trivial h⟩

theorem RunsG.bind {g1 g2 : Prop} {m : C α} {f : α → C β} {P : α → Prop} {Q : β → Prop} (h : RunsG g1 m P)
    (hf : ∀ v, g1 → P v → RunsG g2 (f v) Q) : RunsG (g1 ∧ g2) (m >>= f) Q := by
  constructor
  · rintro ⟨a, b⟩
    rw [runs_bind]
    exact (h.1 a).mono fun v hv => (hf v a hv).1 b
  · intro hn
    by_cases a : g1
    · exact (h.1 a).bind_diverge fun v hv => (hf v a hv).2 fun b => hn ⟨a, b⟩
    · rw [h.2 a]; rfl

/-- After a part that always runs. -/
theorem Runs.bindG {g : Prop} {m : C α} {f : α → C β} {P : α → Prop} {Q : β → Prop} (h : Runs m P)
    (hf : ∀ v, P v → RunsG g (f v) Q) : RunsG g (m >>= f) Q :=
  (h.toG.bind fun v _ hv => hf v hv).congr (by simp)

/-- Before a part that always runs. -/
theorem RunsG.bindR {g : Prop} {m : C α} {f : α → C β} {P : α → Prop} {Q : β → Prop} (h : RunsG g m P)
    (hf : ∀ v, P v → Runs (f v) Q) : RunsG g (m >>= f) Q :=
  (h.bind fun v _ hv => (hf v hv).toG).congr (by simp)

theorem Runs.bindO {m : C α} {f : α → C β} {P : α → Prop} {o : Option γ} {Q : γ → β → Prop} (h : Runs m P)
    (hf : ∀ v, P v → RunsO (f v) o Q) : RunsO (m >>= f) o Q := by
  cases o with
  | some b => rw [runsO_some, runs_bind]; exact h.mono fun v hv => hf v hv
  | none => exact h.bind_diverge hf

theorem RunsO.bind {δ : Type} {m : C α} {f : α → C β} {o : Option δ} {g : δ → Option γ} {P : δ → α → Prop} {Q : γ → β → Prop} (h : RunsO m o P)
    (hf : ∀ b v, P b v → RunsO (f v) (g b) Q) : RunsO (m >>= f) (o >>= g) Q := by
  cases o with
  | some b => exact Runs.bindO h fun v hv => hf b v hv
  | none => rw [runsO_none] at h; rw [h]; rfl

theorem RunsO.mono {m : C α} {o : Option γ} {P Q : γ → α → Prop} (h : RunsO m o P) (hPQ : ∀ b v, P b v → Q b v) : RunsO m o Q := by
  cases o with
  | some b => exact Runs.mono h fun v hv => hPQ b v hv
  | none => exact h

theorem RunsO.runs {m : C α} {o : Option γ} {P : γ → α → Prop} {b : γ} (h : RunsO m o P) (ho : o = some b) : Runs m (P b) := by
  subst ho; exact h

theorem RunsG.toO {m : C α} {o : Option γ} {P : α → Prop} {Q : γ → α → Prop} (h : RunsG (o.isSome) m P) (hPQ : ∀ b v, o = some b → P v → Q b v) :
    RunsO m o Q := by
  cases o with
  | some b => exact (h.1 rfl).mono fun v hv => hPQ b v rfl hv
  | none => exact h.2 (by simp)

theorem runsG_cforFrom {good : Nat → Prop} {body : Nat → σ → C σ} (Inv : Nat → σ → Prop) :
    ∀ (n i : Nat) (s : σ), Inv i s → (∀ j s, i ≤ j → j < i + n → Inv j s → RunsG (good j) (body j s) (Inv (j + 1))) →
      RunsG (∀ j, i ≤ j → j < i + n → good j) (cforFrom body n i s) (Inv (i + n))
  | 0, i, s, h, _ => ⟨fun _ => h, fun hn => absurd (fun j h1 h2 => by omega) hn⟩
  | n + 1, i, s, h, hb => by
    unfold cforFrom
    refine Runs.bindG (P := fun _ => True) trivial fun _ _ => ?_
    refine ((hb i s (Nat.le_refl _) (by omega) h).bind fun s' _ hs' =>
      runsG_cforFrom Inv n (i + 1) s' hs' fun j s h1 h2 h3 => hb j s (by omega) (by omega) h3).congr ?_ |>.mono fun v hv => ?_
    · constructor
      · rintro ⟨h1, h2⟩ j hj1 hj2
        by_cases e : j = i
        · subst e; exact h1
        · exact h2 j (by omega) (by omega)
      · intro hh
        exact ⟨hh i (by omega) (by omega), fun j h1 h2 => hh j (by omega) (by omega)⟩
    · rwa [show i + (n + 1) = i + 1 + n from by omega]

theorem runsG_cfor {n : Nat} {s : σ} {good : Nat → Prop} {body : Nat → σ → C σ} (Inv : Nat → σ → Prop) (h0 : Inv 0 s)
    (hb : ∀ j s, j < n → Inv j s → RunsG (good j) (body j s) (Inv (j + 1))) : RunsG (∀ j, j < n → good j) (cfor 0 n s body) (Inv n) := by
  have := runsG_cforFrom (good := good) (body := body) Inv n 0 s h0 fun j s _ h2 h3 => hb j s (by omega) h3
  rw [Nat.zero_add] at this
  exact this.congr ⟨fun h j hj => h j (by omega) (by omega), fun h j _ hj => h j (by omega)⟩

theorem runsO_map {m : C α} {o : Option γ} {f : γ → β} {Q : β → α → Prop} (h : RunsO m o (fun c => Q (f c))) : RunsO m (o.map f) Q := by
  cases o with
  | some b => exact h
  | none => exact h

theorem RunsO.bindR {m : C α} {o : Option γ} {f : α → C β} {P : γ → α → Prop} {Q : γ → β → Prop} (h : RunsO m o P)
    (hf : ∀ c v, P c v → Runs (f v) (Q c)) : RunsO (m >>= f) o Q := by
  cases o with
  | some b => rw [runsO_some, runs_bind]; exact Runs.mono h fun v hv => hf b v hv
  | none => rw [runsO_none] at h; rw [h]; rfl

end Verif
