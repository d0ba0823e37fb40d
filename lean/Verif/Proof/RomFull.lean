import Verif.Spec.RomFull
import Verif.Proof.RomCca

/-! # From the game with all inputs of G to the simple game -/

set_option autoImplicit false
set_option linter.unusedSectionVars false

namespace Verif.Proof
open Finset Verif.Spec

variable {X Key PK M Hd K R Z C : Type}

/-- The inputs of key generations that are asked. -/
def askedK (O : FAnswers X Key M Hd K R Z C) : FProg X Key M Hd K R Z C → List X
  | .guess _ => []
  | .askK x next => x :: askedK O (next (O.GK x))
  | .askG m h next => askedK O (next (O.G m h).1 (O.G m h).2)
  | .askJ z c next => askedK O (next (O.J z c))
  | .decaps c next => askedK O (next (O.D c))

theorem askedK_length {O : FAnswers X Key M Hd K R Z C} {T : FProg X Key M Hd K R Z C} {q : Nat} (h : T.QueriesK q) : (askedK O T).length ≤ q := by
  induction T generalizing q with
  | guess b => exact Nat.zero_le _
  | askK x next ih =>
    obtain ⟨q', rfl, h⟩ := h
    exact Nat.succ_le_succ (ih _ (h _))
  | askG m h' next ih => exact ih _ _ (h _ _)
  | askJ z c next ih => exact ih _ (h _)
  | decaps c next ih => exact ih _ (h _)

/-- The guess does not depend on answers that are not asked for. -/
theorem frun_update [DecidableEq X] {GK : X → Key} {G : M → Hd → K × R} {J : Z → C → K} {D : C → Option K} {d : X} {key : Key} {T : FProg X Key M Hd K R Z C}
    (h : d ∉ askedK ⟨GK, G, J, D⟩ T) : T.run ⟨Function.update GK d key, G, J, D⟩ = T.run ⟨GK, G, J, D⟩ := by
  induction T with
  | guess b => rfl
  | askK x next ih =>
    have hx : d ≠ x := fun e => h (by rw [e]; exact List.mem_cons_self)
    have e : Function.update GK d key x = GK x := Function.update_of_ne (Ne.symm hx) _ _
    show (next (Function.update GK d key x)).run _ = (next (GK x)).run _
    rw [e]
    exact ih _ fun hm => h (List.mem_cons_of_mem _ hm)
  | askG m h' next ih => exact ih _ _ h
  | askJ z c next ih => exact ih _ h
  | decaps c next ih => exact ih _ h

theorem simple_run [DecidableEq Hd] (h : Hd) (GK : X → Key) (G' : M → Hd → K × R) (O : Answers M K R Z C) (T : FProg X Key M Hd K R Z C) :
    (T.simple h GK G').run O = T.run ⟨GK, fun m h' => if h' = h then O.G m else G' m h', O.J, O.D⟩ := by
  induction T with
  | guess b => rfl
  | askK x next ih => exact ih _
  | askG m h' next ih =>
    unfold FProg.simple FProg.run
    dsimp only
    by_cases e : h' = h
    · rw [if_pos e, if_pos e]
      exact ih _ _
    · rw [if_neg e, if_neg e]
      exact ih _ _
  | askJ z c next ih => exact ih _
  | decaps c next ih => exact ih _

theorem queriesG_mono {T : Prog M K R Z C} {q q' : Nat} (hq : q ≤ q') (h : T.QueriesG q) : T.QueriesG q' := by
  induction T generalizing q q' with
  | guess b => trivial
  | askG m next ih =>
    obtain ⟨r, rfl, h⟩ := h
    obtain ⟨s, rfl⟩ : ∃ s, q' = s + 1 := ⟨q' - 1, by omega⟩
    exact ⟨s, rfl, fun x y => ih x y (by omega) (h x y)⟩
  | askJ z c next ih => exact fun x => ih x hq (h x)
  | decaps c next ih => exact fun x => ih x hq (h x)

theorem simple_queriesG [DecidableEq Hd] (h : Hd) (GK : X → Key) (G' : M → Hd → K × R) {T : FProg X Key M Hd K R Z C} {q : Nat} (hT : T.QueriesG q) : (T.simple h GK G').QueriesG q := by
  induction T generalizing q with
  | guess b => trivial
  | askK x next ih => exact ih _ (hT _)
  | askG m h' next ih =>
    obtain ⟨r, rfl, hT⟩ := hT
    unfold FProg.simple
    by_cases e : h' = h
    · rw [if_pos e]
      exact ⟨r, rfl, fun x y => ih x y (hT x y)⟩
    · rw [if_neg e]
      exact queriesG_mono (Nat.le_succ r) (ih _ _ (hT _ _))
  | askJ z c next ih => exact fun x => ih x (hT x)
  | decaps c next ih => exact fun x => ih x (hT x)

theorem simple_queriesJ [DecidableEq Hd] (h : Hd) (GK : X → Key) (G' : M → Hd → K × R) {T : FProg X Key M Hd K R Z C} {q : Nat} (hT : T.QueriesJ q) : (T.simple h GK G').QueriesJ q := by
  induction T generalizing q with
  | guess b => trivial
  | askK x next ih => exact ih _ (hT _)
  | askG m h' next ih =>
    unfold FProg.simple
    by_cases e : h' = h
    · rw [if_pos e]
      exact fun x y => ih x y (hT x y)
    · rw [if_neg e]
      exact ih _ _ (hT _ _)
  | askJ z c next ih =>
    obtain ⟨r, rfl, hT⟩ := hT
    exact ⟨r, rfl, fun x => ih x (hT x)⟩
  | decaps c next ih => exact fun x => ih x (hT x)

variable [Fintype X] [DecidableEq X] [Fintype Key] [Fintype M] [DecidableEq M] [Fintype Hd] [DecidableEq Hd] [Fintype K] [Fintype R] [Fintype Z] [DecidableEq Z] [Fintype C] [DecidableEq C]

/-- A function of two arguments with the values for one second argument chosen anew. -/
theorem E_slice {T : Type} [Fintype T] [Nonempty T] (h : Hd) (f : (M → Hd → T) → ℚ) : E f = E fun g' : M → Hd → T => E fun g : M → T => f fun m h' => if h' = h then g m else g' m h' := by
  rw [← E_prod (fun p : (M → Hd → T) × (M → T) => f fun m h' => if h' = h then p.2 m else p.1 m h')]
  let sw : (M → Hd → T) × (M → T) ≃ (M → Hd → T) × (M → T) := ⟨fun p => (fun m h' => if h' = h then p.2 m else p.1 m h', fun m => p.1 m h),
    fun p => (fun m h' => if h' = h then p.2 m else p.1 m h', fun m => p.1 m h),
    fun p => Prod.ext (funext fun m => funext fun h' => by by_cases e : h' = h <;> simp [e]) (funext fun m => by simp),
    fun p => Prod.ext (funext fun m => funext fun h' => by by_cases e : h' = h <;> simp [e]) (funext fun m => by simp)⟩
  rw [← E_fst (β := M → T) f, ← E_equiv sw]
  rfl

theorem E_mem_dep {W : Type} [Fintype W] [Nonempty W] (L : W → List X) {q : Nat} (h : ∀ w, (L w).length ≤ q) : E (fun v : X × W => ind (v.1 ∈ L v.2)) ≤ q / Fintype.card X := by
  rw [← E_equiv (Equiv.prodComm W X), E_prod]
  exact (E_mono fun w => E_mem_list (L w) q (h w)).trans_eq (E_const _)

section
variable (P : Pke Key PK M R C) (hash : PK → Hd) (A : PK → C → K → FProg X Key M Hd K R Z C) (b : Bool)

/-- What the attack is started with. -/
def startF (key : Key) (G : M → Hd → K × R) (m : M) (K1 : K) : FProg X Key M Hd K R Z C :=
  let pk := P.ek key
  let c := P.enc pk m (G m (hash pk)).2
  A pk c (if b then K1 else (G m (hash pk)).1)

/-- The answers of the decapsulation. -/
def decF (key : Key) (G : M → Hd → K × R) (z : Z) (J : Z → C → K) (m : M) (c' : C) : Option K :=
  let pk := P.ek key
  let c := P.enc pk m (G m (hash pk)).2
  if c' = c then none else some (kemDecaps P (fun m => G m (hash pk)) J key z c')

/-- The run with a key pair that is independent of G. -/
def keyRun (GK : X → Key) (key : Key) (G : M → Hd → K × R) (y : Z × (Z → C → K) × M × K) : Bool :=
  (startF P hash A b key G y.2.2.1 y.2.2.2).run ⟨GK, G, y.2.1, decF P hash key G y.1 y.2.1 y.2.2.1⟩

/-- The inputs of key generations that this run asks. -/
def askedF (w : Key × (X → Key) × (M → Hd → K × R) × (Z × (Z → C → K) × M × K)) : List X :=
  askedK ⟨w.2.1, w.2.2.1, w.2.2.2.2.1, decF P hash w.1 w.2.2.1 w.2.2.2.1 w.2.2.2.2.1 w.2.2.2.2.2.1⟩ (startF P hash A b w.1 w.2.2.1 w.2.2.2.2.2.1 w.2.2.2.2.2.2)

theorem full_nested : fullProb P hash A b = E fun d => E fun GK : X → Key => E fun G => E fun y => ind (keyRun P hash A b GK (GK d) G y = true) := by
  unfold fullProb
  rw [E_prod]
  refine congrArg E (funext fun d => ?_)
  rw [E_prod]
  refine congrArg E (funext fun GK => ?_)
  rw [E_prod]
  rfl

theorem key_update [Nonempty Key] : fullProb P hash A b = E fun v : X × Key × (X → Key) × (M → Hd → K × R) × (Z × (Z → C → K) × M × K) =>
    ind (keyRun P hash A b (Function.update v.2.2.1 v.1 v.2.1) v.2.1 v.2.2.2.1 v.2.2.2.2 = true) := by
  rw [full_nested, E_prod]
  refine congrArg E (funext fun d => ?_)
  rw [E_update d, E_prod]
  refine congrArg E (funext fun key => ?_)
  rw [E_prod]
  refine congrArg E (funext fun GK => ?_)
  rw [E_prod]
  simp only [Function.update_self]

theorem key_free [Nonempty X] : (E fun key => E fun GK : X → Key => E fun G => E fun y => ind (keyRun P hash A b GK key G y = true)) =
    E fun v : X × Key × (X → Key) × (M → Hd → K × R) × (Z × (Z → C → K) × M × K) => ind (keyRun P hash A b v.2.2.1 v.2.1 v.2.2.2.1 v.2.2.2.2 = true) := by
  rw [E_prod]
  refine (E_const (α := X) _).symm.trans (congrArg E (funext fun d => ?_))
  rw [E_prod]
  refine congrArg E (funext fun key => ?_)
  rw [E_prod]
  refine congrArg E (funext fun GK => ?_)
  rw [E_prod]

theorem askedF_length {qK : Nat} (hK : ∀ pk c k, (A pk c k).QueriesK qK) (w : Key × (X → Key) × (M → Hd → K × R) × (Z × (Z → C → K) × M × K)) : (askedF P hash A b w).length ≤ qK := by
  unfold askedF
  have hq : (startF P hash A b w.1 w.2.2.1 w.2.2.2.2.2.1 w.2.2.2.2.2.2).QueriesK qK := by
    unfold startF
    exact hK _ _ _
  exact askedK_length hq

theorem keyRun_update {d : X} {w : Key × (X → Key) × (M → Hd → K × R) × (Z × (Z → C → K) × M × K)} (h : d ∉ askedF P hash A b w) :
    keyRun P hash A b (Function.update w.2.1 d w.1) w.1 w.2.2.1 w.2.2.2 = keyRun P hash A b w.2.1 w.1 w.2.2.1 w.2.2.2 := by
  unfold keyRun
  exact frun_update h

/-- First step: a key pair that is independent of G. -/
theorem key_step [Nonempty X] [Nonempty Key] [Nonempty M] [Nonempty K] [Nonempty R] [Nonempty Z] {qK : Nat} (hK : ∀ pk c k, (A pk c k).QueriesK qK) :
    |fullProb P hash A b - E fun key => E fun GK : X → Key => E fun G => E fun y => ind (keyRun P hash A b GK key G y = true)| ≤ qK / Fintype.card X := by
  rw [key_update, key_free]
  have h := E_mem_dep (askedF P hash A b) (askedF_length P hash A b hK)
  refine le_trans (E_diff fun v hv => ?_) h
  rw [keyRun_update P hash A b hv]

/-- Second step: this is the simple game, on average over the answers to the other queries. -/
theorem simple_step [Nonempty K] [Nonempty R] : (E fun key => E fun GK : X → Key => E fun G => E fun y => ind (keyRun P hash A b GK key G y = true)) =
    E fun a : (X → Key) × (M → Hd → K × R) => ccaProb P (simpleAttack hash A a.1 a.2) b := by
  have h1 : ∀ GK : X → Key, ∀ G' : M → Hd → K × R, ccaProb P (simpleAttack hash A GK G') b = E fun key => E fun g : M → K × R => E fun y : Z × (Z → C → K) × M × K =>
      ind (keyRun P hash A b GK key (fun m h' => if h' = hash (P.ek key) then g m else G' m h') y = true) := fun GK G' => by
    unfold ccaProb
    let e : Key × (M → K × R) × (Z × (Z → C → K) × M × K) ≃ CcaCoins Key M K R Z C :=
      ⟨fun x => ⟨x.1, x.2.2.1, x.2.1, x.2.2.2.1, x.2.2.2.2.1, x.2.2.2.2.2⟩, fun x => (x.key, x.G, x.z, x.J, x.m, x.K1), fun _ => rfl, fun _ => rfl⟩
    rw [← E_equiv e, E_prod]
    refine congrArg E (funext fun key => ?_)
    rw [E_prod]
    refine congrArg E (funext fun g => ?_)
    refine congrArg E (funext fun y => ?_)
    refine congrArg (fun v => ind (v = true)) ?_
    refine (simple_run (hash (P.ek key)) GK G' _ _).trans ?_
    unfold keyRun startF decF
    simp only [if_true]
    rfl
  rw [E_prod]
  rw [E_comm]
  refine congrArg E (funext fun GK => ?_)
  rw [funext (h1 GK)]
  refine Eq.trans ?_ (E_comm fun (key : Key) (G' : M → Hd → K × R) => E fun g : M → K × R => E fun y : Z × (Z → C → K) × M × K =>
    ind (keyRun P hash A b GK key (fun m h' => if h' = hash (P.ek key) then g m else G' m h') y = true))
  refine congrArg E (funext fun key => ?_)
  exact E_slice (hash (P.ek key)) _

end

/-- The bound for the game with all inputs of G. -/
theorem full_bound [Nonempty X] [Nonempty Key] [Nonempty M] [Nonempty K] [Nonempty R] [Nonempty Z] {P : Pke Key PK M R C} (hash : PK → Hd) {A : PK → C → K → FProg X Key M Hd K R Z C}
    {qK qG qJ : Nat} (hK : ∀ pk c k, (A pk c k).QueriesK qK) (hG : ∀ pk c k, (A pk c k).QueriesG qG) (hJ : ∀ pk c k, (A pk c k).QueriesJ qJ) :
    |fullProb P hash A true - fullProb P hash A false| ≤
      (E fun a : (X → Key) × (M → Hd → K × R) => |cpaProb P (reduction P (simpleAttack hash A a.1 a.2)) true - cpaProb P (reduction P (simpleAttack hash A a.1 a.2)) false|) +
      2 * (qK / Fintype.card X) + 2 * (qJ / Fintype.card Z) + qG / Fintype.card M + 3 * ((qG + 1) * failProb P) := by
  have h1 := key_step P hash A true hK
  have h0 := key_step P hash A false hK
  rw [simple_step] at h1 h0
  have hb := fun a : (X → Key) × (M → Hd → K × R) => cca_bound (P := P) (A := simpleAttack hash A a.1 a.2) (qG := qG) (qJ := qJ)
    (fun pk c k => simple_queriesG _ _ _ (hG pk c k)) (fun pk c k => simple_queriesJ _ _ _ (hJ pk c k))
  have hm := E_mono hb
  simp only [E_add, E_const] at hm
  have habs : |E (fun a : (X → Key) × (M → Hd → K × R) => ccaProb P (simpleAttack hash A a.1 a.2) true) - E fun a : (X → Key) × (M → Hd → K × R) => ccaProb P (simpleAttack hash A a.1 a.2) false| ≤
      E fun a : (X → Key) × (M → Hd → K × R) => |ccaProb P (simpleAttack hash A a.1 a.2) true - ccaProb P (simpleAttack hash A a.1 a.2) false| := by
    rw [← E_sub]
    unfold E
    rw [abs_div, abs_of_nonneg (a := ((Fintype.card ((X → Key) × (M → Hd → K × R)) : Nat) : ℚ)) (Nat.cast_nonneg _)]
    exact div_le_div_of_nonneg_right (Finset.abs_sum_le_sum_abs _ _) (Nat.cast_nonneg _)
  rw [abs_le] at h1 h0 habs ⊢
  constructor <;> linarith [h1.1, h1.2, h0.1, h0.2, habs.1, habs.2]

end Verif.Proof
