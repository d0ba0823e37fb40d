import Verif.Spec.Rom
import Mathlib.Algebra.BigOperators.Field
import Mathlib.Algebra.Order.BigOperators.Group.Finset
import Mathlib.Algebra.Order.Field.Rat
import Mathlib.Tactic.Linarith
import Mathlib.Tactic.Ring
import Mathlib.Tactic.FieldSimp
import Mathlib.Tactic.Positivity
import Mathlib.Logic.Equiv.Fin.Basic

/-! # Averages, and runs of attacks with nearly the same answers -/

set_option autoImplicit false

namespace Verif.Proof
open Finset Verif.Spec

/-! ## Averages -/

section
variable {α β : Type} [Fintype α] [Fintype β]

theorem E_equiv (e : α ≃ β) (f : β → ℚ) : E (fun x => f (e x)) = E f := by
  unfold E
  rw [Fintype.card_congr e, Equiv.sum_comp e f]

theorem E_prod (f : α × β → ℚ) : E f = E fun x => E fun y => f (x, y) := by
  unfold E
  rw [Fintype.sum_prod_type, Fintype.card_prod, Nat.cast_mul, ← Finset.sum_div, div_div, mul_comm (Fintype.card β : ℚ)]

theorem E_const [Nonempty α] (c : ℚ) : E (fun _ : α => c) = c := by
  unfold E
  have : (Fintype.card α : ℚ) ≠ 0 := Nat.cast_ne_zero.2 Fintype.card_ne_zero
  rw [Finset.sum_const, Finset.card_univ, nsmul_eq_mul]
  field_simp

theorem E_fst [Nonempty β] (f : α → ℚ) : E (fun x : α × β => f x.1) = E f := by
  rw [E_prod]
  simp only [E_const]

theorem E_mono {f g : α → ℚ} (h : ∀ x, f x ≤ g x) : E f ≤ E g := by
  unfold E
  exact div_le_div_of_nonneg_right (Finset.sum_le_sum fun x _ => h x) (Nat.cast_nonneg _)

theorem E_add (f g : α → ℚ) : E (fun x => f x + g x) = E f + E g := by
  unfold E
  rw [Finset.sum_add_distrib, add_div]

theorem E_sub (f g : α → ℚ) : E (fun x => f x - g x) = E f - E g := by
  unfold E
  rw [Finset.sum_sub_distrib, sub_div]

theorem E_mul (c : ℚ) (f : α → ℚ) : E (fun x => c * f x) = c * E f := by
  unfold E
  rw [← Finset.mul_sum, mul_div_assoc]

theorem E_nonneg {f : α → ℚ} (h : ∀ x, 0 ≤ f x) : 0 ≤ E f := by
  unfold E
  exact div_nonneg (Finset.sum_nonneg fun x _ => h x) (Nat.cast_nonneg _)

theorem E_le_one {f : α → ℚ} (h : ∀ x, f x ≤ 1) : E f ≤ 1 := by
  unfold E
  refine div_le_one_of_le₀ ((Finset.sum_le_sum fun x _ => h x).trans ?_) (Nat.cast_nonneg _)
  simp

theorem E_comm {α β : Type} [Fintype α] [Fintype β] (f : α → β → ℚ) : (E fun x => E fun y => f x y) = E fun y => E fun x => f x y := by
  rw [← E_prod (fun p : α × β => f p.1 p.2), ← E_prod (fun p : β × α => f p.2 p.1), ← E_equiv (Equiv.prodComm β α)]
  rfl

/-- It suffices to bound the inner average. -/
theorem E_le_inner {γ : Type} [Fintype γ] [Nonempty α] (e : γ ≃ α × β) {f : γ → ℚ} {c : ℚ} (h : ∀ x, E (fun y => f (e.symm (x, y))) ≤ c) : E f ≤ c := by
  have : E f = E fun x => E fun y => f (e.symm (x, y)) := by
    rw [← E_prod (fun p => f (e.symm p)), E_equiv e.symm f]
  rw [this]
  exact (E_mono h).trans_eq (E_const c)

/-- A function with one value chosen anew. -/
theorem E_update {γ : Type} [Fintype γ] [DecidableEq α] (a : α) (f : (α → γ) → ℚ) : E f = E fun r => E fun g : α → γ => f (Function.update g a r) := by
  rw [← E_prod (fun p : γ × (α → γ) => f (Function.update p.2 a p.1))]
  let sw : γ × (α → γ) ≃ γ × (α → γ) := ⟨fun p => (p.2 a, Function.update p.2 a p.1), fun p => (p.2 a, Function.update p.2 a p.1),
    fun p => by simp, fun p => by simp⟩
  by_cases hγ : Nonempty γ
  · have h1 := E_equiv sw (fun p : γ × (α → γ) => f p.2)
    have h2 : E (fun p : γ × (α → γ) => f p.2) = E f := by
      rw [E_prod]; exact E_const (α := γ) (E f)
    rw [← h2, ← h1]
    rfl
  · have : IsEmpty γ := not_nonempty_iff.1 hγ
    have : IsEmpty (α → γ) := ⟨fun g => this.elim (g a)⟩
    unfold E
    simp

end

theorem ind_nonneg (p : Prop) : 0 ≤ ind p := by unfold ind; split <;> norm_num

theorem ind_le_one (p : Prop) : ind p ≤ 1 := by unfold ind; split <;> norm_num

theorem ind_mono {p q : Prop} (h : p → q) : ind p ≤ ind q := by
  unfold ind
  by_cases hp : p
  · rw [if_pos hp, if_pos (h hp)]
  · rw [if_neg hp]; split <;> norm_num

theorem ind_or (p q : Prop) : ind (p ∨ q) ≤ ind p + ind q := by
  unfold ind
  by_cases hp : p <;> by_cases hq : q <;> simp [hp, hq]

/-- Two events that agree outside of a third one. -/
theorem ind_diff {p q r : Prop} (h : ¬ r → (p ↔ q)) : |ind p - ind q| ≤ ind r := by
  unfold ind
  by_cases hr : r
  · by_cases hp : p <;> by_cases hq : q <;> simp [hp, hq, hr]
  · have := h hr
    by_cases hq : q
    · simp [this.2 hq, hq, hr]
    · have hp : ¬ p := fun hp => hq (this.1 hp)
      simp [hp, hq, hr]

theorem E_diff {α : Type} [Fintype α] {p q r : α → Prop} (h : ∀ x, ¬ r x → (p x ↔ q x)) : |E (fun x => ind (p x)) - E fun x => ind (q x)| ≤ E fun x => ind (r x) := by
  rw [← E_sub]
  refine abs_le.2 ⟨?_, E_mono fun x => (le_abs_self _).trans (ind_diff (h x))⟩
  have : -E (fun x => ind (r x)) = E fun x => -1 * ind (r x) := by rw [E_mul]; ring
  rw [this]
  refine E_mono fun x => ?_
  have := (abs_le.1 (ind_diff (h x))).1
  linarith

/-- A uniform element is in a list with at most `q` entries with probability at most `q / n`. -/
theorem E_mem_list {α : Type} [Fintype α] [DecidableEq α] (l : List α) (q : Nat) (h : l.length ≤ q) : E (fun x => ind (x ∈ l)) ≤ q / Fintype.card α := by
  unfold E
  refine div_le_div_of_nonneg_right ?_ (Nat.cast_nonneg _)
  have : ∑ x : α, ind (x ∈ l) = ((l.toFinset.card : Nat) : ℚ) := by
    have e : ∀ x : α, ind (x ∈ l) = if x ∈ l.toFinset then 1 else 0 := fun x => by
      unfold ind
      by_cases h : x ∈ l <;> simp [h]
    simp only [e, Finset.sum_ite_mem, Finset.univ_inter, Finset.sum_const, nsmul_eq_mul, mul_one]
  rw [this]
  exact_mod_cast l.toFinset_card_le.trans h

/-! ## Runs -/

section
variable {M K R Z C : Type}

/-- The queries to J. -/
def askedJ (O : Answers M K R Z C) : Prog M K R Z C → List Z
  | .guess _ => []
  | .askG m next => askedJ O (next (O.G m).1 (O.G m).2)
  | .askJ z c next => z :: askedJ O (next (O.J z c))
  | .decaps c next => askedJ O (next (O.D c))

/-- Answers that agree on all queries of the run. -/
theorem run_congr {O O' : Answers M K R Z C} {T : Prog M K R Z C} (hG : ∀ m ∈ T.asked O, O.G m = O'.G m) (hJ : ∀ z ∈ askedJ O T, O.J z = O'.J z) (hD : O.D = O'.D) :
    T.run O = T.run O' ∧ T.asked O = T.asked O' ∧ askedJ O T = askedJ O' T := by
  induction T with
  | guess b => exact ⟨rfl, rfl, rfl⟩
  | askG m next ih =>
    have e := hG m (by simp [Prog.asked])
    have := ih (O.G m).1 (O.G m).2 (fun m' h => hG m' (List.mem_cons_of_mem _ h)) hJ
    simp only [Prog.run, Prog.asked, askedJ, ← e]
    exact ⟨this.1, by rw [this.2.1], this.2.2⟩
  | askJ z c next ih =>
    have e := hJ z (by simp [askedJ])
    have := ih (O.J z c) hG (fun z' h => hJ z' (List.mem_cons_of_mem _ h))
    simp only [Prog.run, Prog.asked, askedJ, ← e]
    exact ⟨this.1, this.2.1, by rw [this.2.2]⟩
  | decaps c next ih =>
    have := ih (O.D c) hG hJ
    simp only [Prog.run, Prog.asked, askedJ, ← hD]
    exact this

/-- Whether a message is asked does not depend on the answer to it. -/
theorem asked_congr {O O' : Answers M K R Z C} {T : Prog M K R Z C} {a : M} (hG : ∀ m, m ≠ a → O.G m = O'.G m) (hJ : O.J = O'.J) (hD : O.D = O'.D) :
    a ∈ T.asked O ↔ a ∈ T.asked O' := by
  induction T with
  | guess b => exact Iff.rfl
  | askG m next ih =>
    by_cases h : m = a
    · subst h; simp [Prog.asked]
    · simp only [Prog.asked, ← hG m h, List.mem_cons, ih]
  | askJ z c next ih => simp only [Prog.asked, ← hJ, ih]
  | decaps c next ih => simp only [Prog.asked, ← hD, ih]

theorem asked_length {O : Answers M K R Z C} {T : Prog M K R Z C} {q : Nat} (h : T.QueriesG q) : (T.asked O).length ≤ q := by
  induction T generalizing q with
  | guess b => exact Nat.zero_le _
  | askG m next ih =>
    obtain ⟨q', rfl, h⟩ := h
    exact Nat.succ_le_succ (ih _ _ (h _ _))
  | askJ z c next ih => exact ih _ (h _)
  | decaps c next ih => exact ih _ (h _)

theorem askedJ_length {O : Answers M K R Z C} {T : Prog M K R Z C} {q : Nat} (h : T.QueriesJ q) : (askedJ O T).length ≤ q := by
  induction T generalizing q with
  | guess b => exact Nat.zero_le _
  | askG m next ih => exact ih _ _ (h _ _)
  | askJ z c next ih =>
    obtain ⟨q', rfl, h⟩ := h
    exact Nat.succ_le_succ (ih _ (h _))
  | decaps c next ih => exact ih _ (h _)

/-- A function of which some values are known. -/
def ov (kn : M → Option R) (g : M → R) (m : M) : R := (kn m).getD (g m)

theorem ov_update [DecidableEq M] {kn : M → Option R} {m : M} (h : kn m = none) (g : M → R) (r : R) : ov kn (Function.update g m r) = ov (Function.update kn m (some r)) g := by
  funext m'
  unfold ov
  by_cases e : m' = m
  · subst e; simp [h]
  · simp [e]

/-- The values of a random function at `q` places, each chosen after the values before, fall into a set with at most `q` times the probability of the set. -/
theorem hits_le [Fintype M] [DecidableEq M] [Fintype R] [Nonempty R] (B : Set R) (f : M → R → K) (J : Z → C → K) (D : C → Option K) {T : Prog M K R Z C} {q : Nat} (hq : T.QueriesG q)
    (kn : M → Option R) :
    E (fun g : M → R => ind (∃ m ∈ T.asked ⟨fun m => (f m (ov kn g m), ov kn g m), J, D⟩, kn m = none ∧ ov kn g m ∈ B)) ≤ q * E fun r => ind (r ∈ B) := by
  induction T generalizing q kn with
  | guess b =>
    simp only [Prog.asked, List.not_mem_nil, false_and, exists_false, ind, if_false]
    rw [E_const]
    exact mul_nonneg (Nat.cast_nonneg _) (E_nonneg fun x => ind_nonneg _)
  | askG m next ih =>
    obtain ⟨q, rfl, hq⟩ := hq
    cases hm : kn m with
    | some r =>
      have e : ∀ g, ov kn g m = r := fun g => by unfold ov; rw [hm]; rfl
      refine le_trans (E_mono fun g => ind_mono ?_) ((ih (f m r) r (hq _ _) kn).trans ?_)
      · rintro ⟨m', h1, h2, h3⟩
        simp only [Prog.asked, e, List.mem_cons] at h1
        rcases h1 with rfl | h1
        · rw [hm] at h2; exact absurd h2 (by simp)
        · exact ⟨m', h1, h2, h3⟩
      · refine mul_le_mul_of_nonneg_right ?_ (E_nonneg fun x => ind_nonneg _)
        exact_mod_cast Nat.le_succ q
    | none =>
      rw [E_update m]
      have hr : ∀ r, E (fun g : M → R => ind (∃ m' ∈ (Prog.askG m next).asked ⟨fun x => (f x (ov kn (Function.update g m r) x), ov kn (Function.update g m r) x), J, D⟩,
          kn m' = none ∧ ov kn (Function.update g m r) m' ∈ B)) ≤ ind (r ∈ B) + q * E fun r => ind (r ∈ B) := fun r => by
        have hi := ih (f m r) r (hq _ _) (Function.update kn m (some r))
        have e : ∀ g, ov (Function.update kn m (some r)) g m = r := fun g => by simp [ov]
        simp only [ov_update hm, Prog.asked, e]
        refine le_trans (E_mono fun g => (ind_mono ?_).trans (ind_or (r ∈ B) _)) ((E_add _ _).trans_le (add_le_add (E_const _).le hi))
        rintro ⟨m', h1, h2, h3⟩
        by_cases hmm : m' = m
        · subst hmm
          rw [e] at h3
          exact Or.inl h3
        · right
          rcases List.mem_cons.1 h1 with h1 | h1
          · exact absurd h1 hmm
          · exact ⟨m', h1, by rw [Function.update_of_ne hmm]; exact h2, h3⟩
      refine (E_mono hr).trans (le_of_eq ?_)
      rw [E_add, E_const]
      push_cast
      ring
  | askJ z c next ih => exact ih _ (hq _) kn
  | decaps c next ih => exact ih _ (hq _) kn

end

end Verif.Proof
