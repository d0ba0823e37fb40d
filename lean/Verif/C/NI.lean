import Verif.C.Conv

/-! # Two runs with the same leakage

`NI m1 m2 R`: unless one of the runs ends in undefined behaviour, either neither returns within the fuel, or both return, with equal traces (branch decisions and access
offsets) and with values related by `R`. -/

namespace Verif
variable {α β σ : Type}

def NI (m1 m2 : C α) (R : α → α → Prop) : Prop :=
  match m1, m2 with
  | .ok v1 t1, .ok v2 t2 => t1 = t2 ∧ R v1 v2
  | .ub _, _ => True
  | _, .ub _ => True
  | .diverge, .diverge => True
  | _, _ => False

/-- Values are unrelated (both secret). -/
abbrev anyR {α : Type} : α → α → Prop := fun _ _ => True

theorem ni_refl (m : C α) : NI m m Eq := by
  cases m <;> simp [NI]

theorem NI.mono {m1 m2 : C α} {R S : α → α → Prop} (h : NI m1 m2 R) (hRS : ∀ a b, R a b → S a b) : NI m1 m2 S := by
  cases m1 <;> cases m2 <;> simp only [NI] at h ⊢
  exact ⟨h.1, hRS _ _ h.2⟩

theorem NI.bind {m1 m2 : C α} {f1 f2 : α → C β} {R : α → α → Prop} {S : β → β → Prop} (h : NI m1 m2 R) (hf : ∀ a b, R a b → NI (f1 a) (f2 b) S) :
    NI (m1 >>= f1) (m2 >>= f2) S := by
  show NI (C.bind _ _) (C.bind _ _) S
  cases m1 with
  | ub u => trivial
  | ok v1 t1 =>
    cases m2 with
    | ok v2 t2 =>
      obtain ⟨rfl, hr⟩ := h
      have := hf v1 v2 hr
      simp only [C.bind]
      cases h1 : f1 v1 <;> cases h2 : f2 v2 <;> rw [h1, h2] at this <;> simp only [NI] at this ⊢
      exact ⟨by rw [this.1], this.2⟩
    | ub u => simp only [C.bind]; cases f1 v1 <;> trivial
    | diverge => exact h.elim
  | diverge =>
    cases m2 with
    | ok v2 t2 => exact h.elim
    | ub u => trivial
    | diverge => trivial

theorem NI.bind0 {m1 m2 : C α} {f1 f2 : α → C β} {S : β → β → Prop} (h : NI m1 m2 anyR) (hf : ∀ a b, NI (f1 a) (f2 b) S) : NI (m1 >>= f1) (m2 >>= f2) S :=
  h.bind fun a b _ => hf a b

theorem NI.bindEq {m1 m2 : C α} {f1 f2 : α → C β} {S : β → β → Prop} (h : NI m1 m2 Eq) (hf : ∀ a, NI (f1 a) (f2 a) S) : NI (m1 >>= f1) (m2 >>= f2) S :=
  h.bind fun a b e => by subst e; exact hf a

theorem ni_pure {a b : α} {R : α → α → Prop} (h : R a b) : NI (pure a) (pure b) R := ⟨rfl, h⟩
theorem ni_pure0 {a b : α} : NI (pure a) (pure b) anyR := ⟨rfl, trivial⟩

theorem ni_leak (l : Leak) : NI (C.leak l) (C.leak l) anyR := ⟨rfl, trivial⟩

theorem ni_rd {m1 m2 : Mem α} {i : Nat} : NI (rd m1 i) (rd m2 i) anyR := by
  unfold rd
  split <;> split <;> simp [NI]

theorem ni_rdEq {m1 m2 : Mem α} {i : Nat} (h : m1[i]? = m2[i]?) : NI (rd m1 i) (rd m2 i) Eq := by
  unfold rd
  rw [h]
  exact ni_refl _

theorem ni_wr {m1 m2 : Mem α} {i : Nat} {v1 v2 : α} : NI (wr m1 i v1) (wr m2 i v2) anyR := by
  unfold wr
  split <;> split <;> simp [NI]

theorem ni_at {m1 m2 : Array α} {i : Nat} : NI (at' m1 i) (at' m2 i) anyR := by
  unfold at'
  split <;> split <;> simp [NI]

theorem ni_put {m1 m2 : Array α} {i : Nat} {v1 v2 : α} : NI (put' m1 i v1) (put' m2 i v2) anyR := by
  unfold put'
  split <;> split <;> simp [NI]

theorem ni_ckInt {a b : Int} : NI (ckInt a) (ckInt b) anyR := by
  unfold ckInt
  split <;> split <;> simp [NI, pure]

theorem ni_iadd {a b c d : Int} : NI (iadd a b) (iadd c d) anyR := ni_ckInt
theorem ni_isub {a b c d : Int} : NI (isub a b) (isub c d) anyR := ni_ckInt
theorem ni_imul {a b c d : Int} : NI (imul a b) (imul c d) anyR := ni_ckInt
theorem ni_ineg {a b : Int} : NI (ineg a) (ineg b) anyR := ni_ckInt
theorem ni_ishl {a b : Int} {k : Nat} : NI (ishl a k) (ishl b k) anyR := by
  unfold ishl
  split
  · trivial
  · split
    · unfold ckInt; split <;> trivial
    · exact ni_ckInt
theorem ni_i16c {a b : Int} : NI (i16c a) (i16c b) anyR := by
  unfold i16c
  split <;> split <;> simp [NI, pure]

theorem ni_cforFrom {b1 b2 : Nat → σ → C σ} (R : σ → σ → Prop) : ∀ (n i : Nat) (s1 s2 : σ), R s1 s2 →
    (∀ j s1 s2, i ≤ j → j < i + n → R s1 s2 → NI (b1 j s1) (b2 j s2) R) → NI (cforFrom b1 n i s1) (cforFrom b2 n i s2) R
  | 0, i, s1, s2, h, _ => ⟨rfl, h⟩
  | n + 1, i, s1, s2, h, hb => by
    unfold cforFrom
    refine NI.bind0 (ni_leak _) fun _ _ => (hb i s1 s2 (Nat.le_refl _) (by omega) h).bind fun a b hab => ?_
    exact ni_cforFrom R n (i + 1) a b hab fun j s1 s2 h1 h2 => hb j s1 s2 (by omega) (by omega)

theorem ni_cfor {lo hi : Nat} {s1 s2 : σ} {b1 b2 : Nat → σ → C σ} (R : σ → σ → Prop) (h : R s1 s2)
    (hb : ∀ j s1 s2, lo ≤ j → j < hi → R s1 s2 → NI (b1 j s1) (b2 j s2) R) : NI (cfor lo hi s1 b1) (cfor lo hi s2 b2) R :=
  ni_cforFrom R _ _ _ _ h fun j s1 s2 h1 h2 => hb j s1 s2 h1 (by omega)

theorem ni_cfor0 {lo hi : Nat} {s1 s2 : σ} {b1 b2 : Nat → σ → C σ} (hb : ∀ j s1 s2, NI (b1 j s1) (b2 j s2) anyR) : NI (cfor lo hi s1 b1) (cfor lo hi s2 b2) anyR :=
  ni_cfor _ trivial fun j s1 s2 _ _ _ => hb j s1 s2

theorem ni_cwhile {fuel : Nat} {cond1 cond2 : σ → Bool} {b1 b2 : σ → C σ} {s1 s2 : σ} (R : σ → σ → Prop) (h : R s1 s2) (hc : ∀ a b, R a b → cond1 a = cond2 b)
    (hb : ∀ a b, R a b → NI (b1 a) (b2 b) R) : NI (cwhile fuel cond1 b1 s1) (cwhile fuel cond2 b2 s2) R := by
  induction fuel generalizing s1 s2 with
  | zero => trivial
  | succ fuel ih =>
    unfold cwhile
    rw [hc s1 s2 h]
    split
    · exact NI.bind0 (ni_leak _) fun _ _ => (hb s1 s2 h).bind fun a b hab => ih hab
    · exact NI.bind0 (ni_leak _) fun _ _ => ni_pure h

theorem ni_cif {c : Bool} {a1 a2 b1 b2 : C α} {R : α → α → Prop} (ha : NI a1 a2 R) (hb : NI b1 b2 R) : NI (cif c a1 b1) (cif c a2 b2) R := by
  unfold cif
  refine NI.bind0 (ni_leak _) fun _ _ => ?_
  cases c
  · exact hb
  · exact ha

/-- Equal traces of two runs that return, and one returns if the other does. -/
theorem NI.elim {m1 m2 : C α} {R : α → α → Prop} (h : NI m1 m2 R) (h1 : ∀ u, m1 ≠ .ub u) (h2 : ∀ u, m2 ≠ .ub u) :
    (∃ v1 v2 t, m1 = .ok v1 t ∧ m2 = .ok v2 t ∧ R v1 v2) ∨ (m1 = .diverge ∧ m2 = .diverge) := by
  cases m1 with
  | ub u => exact absurd rfl (h1 u)
  | ok v1 t1 =>
    cases m2 with
    | ub u => exact absurd rfl (h2 u)
    | ok v2 t2 => obtain ⟨rfl, hr⟩ := h; exact Or.inl ⟨v1, v2, t1, rfl, rfl, hr⟩
    | diverge => exact False.elim h
  | diverge =>
    cases m2 with
    | ub u => exact absurd rfl (h2 u)
    | ok v2 t2 => exact False.elim h
    | diverge => exact Or.inr ⟨rfl, rfl⟩

/-- One step of the automatic proof that all branches and offsets are public; extended below for every function. -/
syntax "ni_step" : tactic
macro_rules | `(tactic| ni_step) => `(tactic| split)
macro_rules | `(tactic| ni_step) => `(tactic| intro _)
macro_rules | `(tactic| ni_step) => `(tactic| with_reducible exact ni_pure0)
macro_rules | `(tactic| ni_step) => `(tactic| with_reducible exact ni_iadd)
macro_rules | `(tactic| ni_step) => `(tactic| with_reducible exact ni_isub)
macro_rules | `(tactic| ni_step) => `(tactic| with_reducible exact ni_imul)
macro_rules | `(tactic| ni_step) => `(tactic| with_reducible exact ni_ineg)
macro_rules | `(tactic| ni_step) => `(tactic| with_reducible exact ni_ishl)
macro_rules | `(tactic| ni_step) => `(tactic| with_reducible exact ni_i16c)
macro_rules | `(tactic| ni_step) => `(tactic| with_reducible exact ni_at)
macro_rules | `(tactic| ni_step) => `(tactic| with_reducible exact ni_put)
macro_rules | `(tactic| ni_step) => `(tactic| with_reducible exact ni_rd)
macro_rules | `(tactic| ni_step) => `(tactic| with_reducible exact ni_wr)
macro_rules | `(tactic| ni_step) => `(tactic| with_reducible refine ni_cfor0 ?_)
macro_rules | `(tactic| ni_step) => `(tactic| with_reducible refine NI.bind0 ?_ ?_)

macro "ni" : tactic => `(tactic| repeat' ni_step)

theorem ni_memcpy {d1 d2 s1 s2 : Mem UInt8} {doff soff n : Nat} : NI (memcpy d1 doff s1 soff n) (memcpy d2 doff s2 soff n) anyR := by
  unfold memcpy; ni

theorem ni_memcpyEq {d s1 s2 : Mem UInt8} {doff soff n : Nat} (h : ∀ i < n, s1[soff + i]? = s2[soff + i]?) :
    NI (memcpy d doff s1 soff n) (memcpy d doff s2 soff n) Eq := by
  unfold memcpy
  refine ni_cfor Eq rfl fun j a b _ hj e => ?_
  subst e
  exact NI.bindEq (ni_rdEq (h j hj)) fun x => ni_refl _

macro_rules | `(tactic| ni_step) => `(tactic| with_reducible exact ni_memcpy)

end Verif
