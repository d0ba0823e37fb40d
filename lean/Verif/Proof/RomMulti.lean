import Verif.Spec.RomMulti
import Verif.Proof.AnonFull

/-! # Many key pairs and many encapsulations -/

set_option autoImplicit false
set_option linter.unusedSectionVars false

namespace Verif.Proof
open Finset Verif.Spec

variable {n N : Nat} {X Key PK M Hd K R Z C : Type}
variable [Fintype X] [DecidableEq X] [Fintype Key] [Fintype M] [DecidableEq M] [Fintype Hd] [DecidableEq Hd] [Fintype K] [Fintype R] [Fintype Z] [DecidableEq Z] [Fintype C] [DecidableEq C]

theorem askKs_run (O : FAnswers X Key M Hd K R Z C) : ∀ (n : Nat) (d : Fin n → X) (f : (Fin n → Key) → FProg X Key M Hd K R Z C), (FProg.askKs n d f).run O = (f fun i => O.GK (d i)).run O
  | 0, d, f => congrArg (fun g => (f g).run O) (funext fun i => i.elim0)
  | n + 1, d, f => by
    unfold FProg.askKs
    show (FProg.askKs n (fun i => d i.succ) fun keys => f (Fin.cons (O.GK (d 0)) keys)).run O = _
    rw [askKs_run O n]
    exact congrArg (fun g => (f g).run O) (Fin.cons_self_tail fun i => O.GK (d i))

theorem askGs_run (O : FAnswers X Key M Hd K R Z C) : ∀ (N : Nat) (d : Fin N → M × Hd) (f : (Fin N → K × R) → FProg X Key M Hd K R Z C),
    (FProg.askGs N d f).run O = (f fun i => O.G (d i).1 (d i).2).run O
  | 0, d, f => congrArg (fun g => (f g).run O) (funext fun i => i.elim0)
  | N + 1, d, f => by
    unfold FProg.askGs
    show (FProg.askGs N (fun i => d i.succ) fun g => f (Fin.cons (O.G (d 0).1 (d 0).2) g)).run O = _
    rw [askGs_run O N]
    exact congrArg (fun g => (f g).run O) (Fin.cons_self_tail fun i => O.G (d i).1 (d i).2)

theorem askKs_queries {qK qG qJ : Nat} : ∀ (n : Nat) (d : Fin n → X) (f : (Fin n → Key) → FProg X Key M Hd K R Z C), (∀ x, (f x).QueriesK qK ∧ (f x).QueriesG qG ∧ (f x).QueriesJ qJ) →
    (FProg.askKs n d f).QueriesK (qK + n) ∧ (FProg.askKs n d f).QueriesG qG ∧ (FProg.askKs n d f).QueriesJ qJ
  | 0, _, _, h => h _
  | n + 1, d, f, h => by
    have ih := fun key => askKs_queries n (fun i => d i.succ) (fun keys => f (Fin.cons key keys)) fun x => h _
    exact ⟨⟨qK + n, rfl, fun key => (ih key).1⟩, fun key => (ih key).2.1, fun key => (ih key).2.2⟩

theorem askGs_queries {qK qG qJ : Nat} : ∀ (N : Nat) (d : Fin N → M × Hd) (f : (Fin N → K × R) → FProg X Key M Hd K R Z C), (∀ x, (f x).QueriesK qK ∧ (f x).QueriesG qG ∧ (f x).QueriesJ qJ) →
    (FProg.askGs N d f).QueriesK qK ∧ (FProg.askGs N d f).QueriesG (qG + N) ∧ (FProg.askGs N d f).QueriesJ qJ
  | 0, _, _, h => h _
  | N + 1, d, f, h => by
    have ih := fun k r => askGs_queries N (fun i => d i.succ) (fun g => f (Fin.cons (k, r) g)) fun x => h _
    exact ⟨fun k r => (ih k r).1, ⟨qG + N, rfl, fun k r => (ih k r).2.1⟩, fun k r => (ih k r).2.2⟩

section
variable {P : Pke Key PK M R C} {hash : PK → Hd}

/-- The run with own key pairs. -/
theorem mown_run (i0 : Fin n) (key : Fin n → Key) (z : Fin n → Z) (no : Fin n → C → Bool) (GK : X → Key) (G : M → Hd → K × R) (J : Z → C → K) (D : C → Option K) (T : MProg n X Key M Hd K R Z C) :
    (T.own P hash i0 key z no).run ⟨GK, G, J, D⟩ =
      T.run GK G J fun i c => if no i c then none else if i = i0 then D c else some (kemDecaps P (fun m => G m (hash (P.ek (key i)))) J (key i) (z i) c) := by
  induction T with
  | guess b => rfl
  | askK x next ih => exact ih _
  | askG m h next ih => exact ih _ _
  | askJ z c next ih => exact ih _
  | decaps i c next ih =>
    unfold MProg.own MProg.run
    by_cases hc : no i c = true
    · rw [if_pos hc, if_pos hc]
      exact ih _
    · rw [if_neg hc, if_neg hc]
      by_cases hi : i = i0
      · rw [if_pos hi, if_pos hi]
        exact ih _
      · rw [if_neg hi, if_neg hi]
        unfold kemDecaps
        show (if P.enc (P.ek (key i)) (P.dec (key i) c) (G (P.dec (key i) c) (hash (P.ek (key i)))).2 = c then _ else _ : FProg X Key M Hd K R Z C).run _ = _
        by_cases he : P.enc (P.ek (key i)) (P.dec (key i) c) (G (P.dec (key i) c) (hash (P.ek (key i)))).2 = c
        · rw [if_pos he]
          dsimp only
          rw [if_pos he]
          exact ih _
        · rw [if_neg he]
          dsimp only
          rw [if_neg he]
          exact ih _

theorem mown_queries (i0 : Fin n) (key : Fin n → Key) (z : Fin n → Z) (no : Fin n → C → Bool) {T : MProg n X Key M Hd K R Z C} {qK qG qJ qD : Nat} (h : T.Queries qK qG qJ qD) :
    (T.own P hash i0 key z no).QueriesK qK ∧ (T.own P hash i0 key z no).QueriesG (qG + qD) ∧ (T.own P hash i0 key z no).QueriesJ (qJ + qD) := by
  induction T generalizing qK qG qJ qD with
  | guess b => exact ⟨trivial, trivial, trivial⟩
  | askK x next ih =>
    obtain ⟨q, rfl, h⟩ := h
    exact ⟨⟨q, rfl, fun x => (ih x (h x)).1⟩, fun x => (ih x (h x)).2.1, fun x => (ih x (h x)).2.2⟩
  | askG m h' next ih =>
    obtain ⟨q, rfl, h⟩ := h
    exact ⟨fun x y => (ih x y (h x y)).1, ⟨q + qD, by omega, fun x y => (ih x y (h x y)).2.1⟩, fun x y => (ih x y (h x y)).2.2⟩
  | askJ z c next ih =>
    obtain ⟨q, rfl, h⟩ := h
    exact ⟨fun x => (ih x (h x)).1, fun x => (ih x (h x)).2.1, ⟨q + qD, by omega, fun x => (ih x (h x)).2.2⟩⟩
  | decaps i c next ih =>
    obtain ⟨q, rfl, h⟩ := h
    have h' := fun x => ih x (h x)
    have hG := fun x => fqueriesG_mono (show qG + q ≤ qG + (q + 1) by omega) (h' x).2.1
    have hJ := fun x => fqueriesJ_mono (show qJ + q ≤ qJ + (q + 1) by omega) (h' x).2.2
    unfold MProg.own
    by_cases hc : no i c = true
    · rw [if_pos hc]
      exact ⟨(h' _).1, hG _, hJ _⟩
    · rw [if_neg hc]
      by_cases hi : i = i0
      · rw [if_pos hi]
        exact ⟨fun x => (h' x).1, fun x => hG x, fun x => hJ x⟩
      · rw [if_neg hi]
        refine ⟨fun x y => ?_, ⟨qG + q, by omega, fun x y => ?_⟩, fun x y => ?_⟩
        · dsimp only
          by_cases he : P.enc (P.ek (key i)) (P.dec (key i) c) y = c
          · rw [if_pos he]; exact (h' _).1
          · rw [if_neg he]; exact fun x => (h' _).1
        · dsimp only
          by_cases he : P.enc (P.ek (key i)) (P.dec (key i) c) y = c
          · rw [if_pos he]; exact (h' _).2.1
          · rw [if_neg he]; exact fun x => (h' _).2.1
        · dsimp only
          by_cases he : P.enc (P.ek (key i)) (P.dec (key i) c) y = c
          · rw [if_pos he]; exact hJ _
          · rw [if_neg he]; exact ⟨qJ + q, by omega, fun x => (h' _).2.2⟩

variable (P hash) (u : Fin N → Fin n) (A : (Fin n → PK) → (Fin N → C × K) → MProg n X Key M Hd K R Z C)

theorem multiOwn_queries {qK qG qJ qD : Nat} (h : ∀ pk c, (A pk c).Queries qK qG qJ qD) (t : Fin N) (sec : Fin N → Bool) (o : (Fin n → X × Z) × (Fin N → M) × (Fin N → K)) (pk : PK) (c : C) (k : K) :
    (multiOwn P hash u A t sec o pk c k).QueriesK (qK + n) ∧ (multiOwn P hash u A t sec o pk c k).QueriesG (qG + qD + N) ∧ (multiOwn P hash u A t sec o pk c k).QueriesJ (qJ + qD) :=
  askKs_queries n _ _ fun _ => askGs_queries N _ _ fun _ => mown_queries _ _ _ _ (h _ _)

/-- One run of the attack with own key pairs and encapsulations is one run of the game. -/
theorem mown_multi (t : Fin N) (sec : Fin N → Bool) (b : Bool) (o : (Fin n → X × Z) × (Fin N → M) × (Fin N → K)) (d : X) (GK : X → Key) (G : M → Hd → K × R) (z : Z) (J : Z → C → K) (m : M) (K1 : K) :
    fullRun P hash (multiOwn P hash u A t sec o) b (d, GK, G, z, J, m, K1) =
      multiRun P hash u A (Function.update sec t b) (Function.update o.1 (u t) (d, z), GK, G, J, Function.update o.2.1 t m, Function.update o.2.2 t K1) := by
  have hpk : Function.update (fun i => P.ek (GK (o.1 i).1)) (u t) (P.ek (GK d)) = fun i => P.ek (GK (Function.update o.1 (u t) (d, z) i).1) := funext fun i => by
    by_cases hi : i = u t
    · subst hi; simp only [Function.update_self]
    · simp only [Function.update_of_ne hi]
  unfold fullRun multiOwn
  dsimp only
  rw [askKs_run]
  dsimp only
  rw [askGs_run]
  dsimp only
  rw [mown_run, hpk]
  unfold multiRun
  dsimp only
  beta_reduce
  have hc : Function.update (fun j => P.enc (P.ek (GK (Function.update o.1 (u t) (d, z) (u j)).1)) (o.2.1 j) (G (o.2.1 j) (hash (P.ek (GK (Function.update o.1 (u t) (d, z) (u j)).1)))).2) t
      (P.enc (P.ek (GK d)) m (G m (hash (P.ek (GK d)))).2) =
      fun j => P.enc (P.ek (GK (Function.update o.1 (u t) (d, z) (u j)).1)) (Function.update o.2.1 t m j) (G (Function.update o.2.1 t m j) (hash (P.ek (GK (Function.update o.1 (u t) (d, z) (u j)).1)))).2 :=
    funext fun j => by
      by_cases hj : j = t
      · subst hj; simp only [Function.update_self]
      · simp only [Function.update_of_ne hj]
  rw [hc]
  congr 1
  · funext i c'
    by_cases hn : ∃ j, u j = i ∧ P.enc (P.ek (GK (Function.update o.1 (u t) (d, z) (u j)).1)) (Function.update o.2.1 t m j)
        (G (Function.update o.2.1 t m j) (hash (P.ek (GK (Function.update o.1 (u t) (d, z) (u j)).1)))).2 = c'
    · rw [if_pos hn, if_pos (decide_eq_true hn)]
    · rw [if_neg hn, if_neg (by simpa using hn)]
      by_cases hi : i = u t
      · rw [if_pos hi, hi, Function.update_self]
        refine if_neg fun h => hn ⟨t, hi.symm, ?_⟩
        rw [Function.update_self, Function.update_self, h]
      · rw [if_neg hi, Function.update_of_ne hi]
        rfl
  · congr 1
    funext j
    refine Prod.ext rfl ?_
    dsimp only
    by_cases hj : j = t
    · subst hj; simp only [Function.update_self, if_true]
    · simp only [Function.update_of_ne hj, if_neg hj]

theorem E_update3 {I L α β γ Y : Type} [Fintype I] [DecidableEq I] [Fintype L] [DecidableEq L] [Fintype α] [Fintype β] [Fintype γ] [Fintype Y] (i : I) (l : L)
    (f : (I → α) → (L → β) → (L → γ) → Y → ℚ) :
    (E fun x => E fun y => E fun z => E fun w => f x y z w) =
      E fun o : (I → α) × (L → β) × (L → γ) => E fun a => E fun b => E fun c => E fun w => f (Function.update o.1 i a) (Function.update o.2.1 l b) (Function.update o.2.2 l c) w := by
  rw [E_prod, E_update i, E_comm]
  refine congrArg E (funext fun x => ?_)
  rw [E_prod, E_comm (fun (x : L → β) (y : L → γ) => _)]
  have h1 : ∀ a, (E fun y => E fun z => E fun w => f (Function.update x i a) y z w) = E fun y' => E fun z' => E fun b => E fun c => E fun w => f (Function.update x i a) (Function.update y' l b) (Function.update z' l c) w := fun a => by
    rw [E_update l, E_comm]
    refine congrArg E (funext fun y' => ?_)
    rw [E_comm (fun (z' : L → γ) (b : β) => _)]
    refine congrArg E (funext fun b => ?_)
    rw [E_update l, E_comm]
  rw [funext h1, E_comm]
  rw [E_comm (fun (y : L → γ) (x : L → β) => _)]
  refine congrArg E (funext fun y => ?_)
  exact E_comm _

/-- The game in terms of the game with one key pair and one encapsulation. -/
theorem multi_own (t : Fin N) (sec : Fin N → Bool) (b : Bool) :
    multiProb P hash u A (Function.update sec t b) = E fun o : (Fin n → X × Z) × (Fin N → M) × (Fin N → K) => fullProb P hash (multiOwn P hash u A t sec o) b := by
  let F : (Fin n → X × Z) → (Fin N → M) → (Fin N → K) → (X → Key) × (M → Hd → K × R) × (Z → C → K) → ℚ := fun keys ms K1 y =>
    ind (multiRun P hash u A (Function.update sec t b) (keys, y.1, y.2.1, y.2.2, ms, K1) = true)
  have e1 : multiProb P hash u A (Function.update sec t b) = E fun keys => E fun ms => E fun K1 => E fun y => F keys ms K1 y := by
    let e : MultiCoins n N X Key M Hd K R Z C ≃ (Fin n → X × Z) × (Fin N → M) × (Fin N → K) × (X → Key) × (M → Hd → K × R) × (Z → C → K) :=
      ⟨fun x => (x.1, x.2.2.2.2.1, x.2.2.2.2.2, x.2.1, x.2.2.1, x.2.2.2.1), fun x => (x.1, x.2.2.2.1, x.2.2.2.2.1, x.2.2.2.2.2, x.2.1, x.2.2.1), fun _ => rfl, fun _ => rfl⟩
    unfold multiProb
    rw [← E_equiv e.symm (fun x => ind (multiRun P hash u A (Function.update sec t b) x = true)), E_prod]
    refine congrArg E (funext fun keys => ?_)
    rw [E_prod]
    refine congrArg E (funext fun ms => ?_)
    rw [E_prod]
    rfl
  rw [e1, E_update3 (u t) t]
  refine congrArg E (funext fun o => ?_)
  let e : FullCoins X Key M Hd K R Z C ≃ (X × Z) × M × K × (X → Key) × (M → Hd → K × R) × (Z → C → K) :=
    ⟨fun x => ((x.1, x.2.2.2.1), x.2.2.2.2.2.1, x.2.2.2.2.2.2, x.2.1, x.2.2.1, x.2.2.2.2.1), fun x => (x.1.1, x.2.2.2.1, x.2.2.2.2.1, x.1.2, x.2.2.2.2.2, x.2.1, x.2.2.1), fun _ => rfl, fun _ => rfl⟩
  unfold fullProb
  rw [← E_equiv e.symm (fun x => ind (fullRun P hash (multiOwn P hash u A t sec o) b x = true))]
  refine Eq.trans (congrArg E (funext fun a => ?_)) (E_prod _).symm
  refine Eq.trans (congrArg E (funext fun m => ?_)) (E_prod _).symm
  refine Eq.trans (congrArg E (funext fun k => congrArg E (funext fun y => ?_))) (E_prod _).symm
  exact congrArg (fun v => ind (v = true)) (mown_multi P hash u A t sec b o a.1 y.1 y.2.1 a.2 y.2.2 m k).symm

/-- One encapsulation after the other. -/
theorem multi_hybrid : |multiProb P hash u A (fun _ => true) - multiProb P hash u A fun _ => false| ≤
    ∑ t : Fin N, E fun o : (Fin n → X × Z) × (Fin N → M) × (Fin N → K) =>
      |fullProb P hash (multiOwn P hash u A t (fun j => decide (j < t)) o) true - fullProb P hash (multiOwn P hash u A t (fun j => decide (j < t)) o) false| := by
  let f : Nat → ℚ := fun s => multiProb P hash u A fun j => decide (j.val < s)
  have h1 : (multiProb P hash u A fun _ => true) = f N := congrArg _ (funext fun j => (decide_eq_true j.isLt).symm)
  have h0 : (multiProb P hash u A fun _ => false) = f 0 := congrArg _ (funext fun j => (decide_eq_false (Nat.not_lt_zero _)).symm)
  rw [h1, h0, ← Finset.sum_range_sub f, Finset.sum_range fun i => f (i + 1) - f i]
  refine (Finset.abs_sum_le_sum_abs _ _).trans (Finset.sum_le_sum fun t _ => ?_)
  have e1 : f (t.val + 1) = multiProb P hash u A (Function.update (fun j => decide (j < t)) t true) := congrArg (multiProb P hash u A) (funext fun j => by
    by_cases hj : j = t
    · subst hj; simp
    · rw [Function.update_of_ne hj]
      have : j.val ≠ t.val := fun h => hj (Fin.ext h)
      exact decide_eq_decide.mpr (by rw [Fin.lt_def]; omega))
  have e0 : f t.val = multiProb P hash u A (Function.update (fun j => decide (j < t)) t false) := congrArg (multiProb P hash u A) (funext fun j => by
    by_cases hj : j = t
    · subst hj; simp
    · rw [Function.update_of_ne hj]
      rfl)
  rw [e1, e0, multi_own, multi_own]
  exact E_abs _ _

end

/-! ## One key pair and one encapsulation -/

theorem multi_run_one (GK : X → Key) (G : M → Hd → K × R) (J : Z → C → K) (D : Fin 1 → C → Option K) (T : FProg X Key M Hd K R Z C) : T.multi.run GK G J D = T.run ⟨GK, G, J, D 0⟩ := by
  induction T with
  | guess b => rfl
  | askK x next ih => exact ih _
  | askG m h next ih => exact ih _ _
  | askJ z c next ih => exact ih _
  | decaps c next ih => exact ih _

theorem multi_one (P : Pke Key PK M R C) (hash : PK → Hd) (A : PK → C → K → FProg X Key M Hd K R Z C) (b : Bool) :
    multiProb P hash (fun _ : Fin 1 => (0 : Fin 1)) (fun pk c => (A (pk 0) (c 0).1 (c 0).2).multi) (fun _ => b) = fullProb P hash A b := by
  let e : FullCoins X Key M Hd K R Z C ≃ MultiCoins 1 1 X Key M Hd K R Z C :=
    ⟨fun x => (fun _ => (x.1, x.2.2.2.1), x.2.1, x.2.2.1, x.2.2.2.2.1, fun _ => x.2.2.2.2.2.1, fun _ => x.2.2.2.2.2.2),
     fun x => ((x.1 0).1, x.2.1, x.2.2.1, (x.1 0).2, x.2.2.2.1, x.2.2.2.2.1 0, x.2.2.2.2.2 0), fun _ => rfl, fun x => by
      obtain ⟨a, b, c, d, f, g⟩ := x
      refine Prod.ext (funext fun i => ?_) (Prod.ext rfl (Prod.ext rfl (Prod.ext rfl (Prod.ext (funext fun i => ?_) (funext fun i => ?_))))) <;> rw [Subsingleton.elim i 0]⟩
  unfold multiProb fullProb
  rw [← E_equiv e]
  refine congrArg E (funext fun x => congrArg (fun v => ind (v = true)) ?_)
  obtain ⟨d, GK, G, z, J, m, K1⟩ := x
  refine (multi_run_one _ _ _ _ _).trans ?_
  unfold fullRun
  dsimp only [e, Equiv.coe_fn_mk]
  congr 2
  funext c'
  refine if_congr ⟨fun ⟨_, _, h⟩ => h.symm, fun h => ⟨0, rfl, h.symm⟩⟩ rfl rfl

end Verif.Proof
