import Verif.Proof.AnonCca

/-! # Pseudorandom ciphertexts and anonymity with G on all its inputs -/

set_option autoImplicit false
set_option linter.unusedSectionVars false

namespace Verif.Proof
open Finset Verif.Spec

variable {X Key PK M Hd K R Z C V : Type}
variable [Fintype X] [DecidableEq X] [Fintype Key] [Fintype M] [DecidableEq M] [Fintype Hd] [DecidableEq Hd] [Fintype K] [Fintype R] [Fintype Z] [DecidableEq Z] [Fintype C] [DecidableEq C] [Fintype V]

section
variable (P : Pke Key PK M R C) (hash : PK → Hd) (A : PK → C → K → FProg X Key M Hd K R Z C) (c0 : C)

/-- The answers of the decapsulation. -/
def decF0 (key : Key) (G : M → Hd → K × R) (z : Z) (J : Z → C → K) (c' : C) : Option K :=
  if c' = c0 then none else some (kemDecaps P (fun m => G m (hash (P.ek key))) J key z c')

/-- The run with a key pair that is independent of G. -/
def keyRun0 (GK : X → Key) (key : Key) (G : M → Hd → K × R) (y : Z × (Z → C → K) × M × K) : Bool :=
  (A (P.ek key) c0 y.2.2.2).run ⟨GK, G, y.2.1, decF0 P hash c0 key G y.1 y.2.1⟩

def askedF0 (w : Key × (X → Key) × (M → Hd → K × R) × (Z × (Z → C → K) × M × K)) : List X :=
  askedK ⟨w.2.1, w.2.2.1, w.2.2.2.2.1, decF0 P hash c0 w.1 w.2.2.1 w.2.2.2.1 w.2.2.2.2.1⟩ (A (P.ek w.1) c0 w.2.2.2.2.2.2)

theorem full_nested0 : (E fun x => ind (fullSimRun P hash A c0 x = true)) = E fun d => E fun GK : X → Key => E fun G => E fun y => ind (keyRun0 P hash A c0 GK (GK d) G y = true) := by
  rw [E_prod]
  refine congrArg E (funext fun d => ?_)
  rw [E_prod]
  refine congrArg E (funext fun GK => ?_)
  rw [E_prod]
  rfl

theorem key_update0 [Nonempty Key] : (E fun x => ind (fullSimRun P hash A c0 x = true)) = E fun v : X × Key × (X → Key) × (M → Hd → K × R) × (Z × (Z → C → K) × M × K) =>
    ind (keyRun0 P hash A c0 (Function.update v.2.2.1 v.1 v.2.1) v.2.1 v.2.2.2.1 v.2.2.2.2 = true) := by
  rw [full_nested0, E_prod]
  refine congrArg E (funext fun d => ?_)
  rw [E_update d, E_prod]
  refine congrArg E (funext fun key => ?_)
  rw [E_prod]
  refine congrArg E (funext fun GK => ?_)
  rw [E_prod]
  simp only [Function.update_self]

theorem key_free0 [Nonempty X] : (E fun key => E fun GK : X → Key => E fun G => E fun y => ind (keyRun0 P hash A c0 GK key G y = true)) =
    E fun v : X × Key × (X → Key) × (M → Hd → K × R) × (Z × (Z → C → K) × M × K) => ind (keyRun0 P hash A c0 v.2.2.1 v.2.1 v.2.2.2.1 v.2.2.2.2 = true) := by
  rw [E_prod]
  refine (E_const (α := X) _).symm.trans (congrArg E (funext fun d => ?_))
  rw [E_prod]
  refine congrArg E (funext fun key => ?_)
  rw [E_prod]
  refine congrArg E (funext fun GK => ?_)
  rw [E_prod]

theorem key_step0 [Nonempty X] [Nonempty Key] [Nonempty M] [Nonempty K] [Nonempty R] [Nonempty Z] {qK : Nat} (hK : ∀ pk c k, (A pk c k).QueriesK qK) :
    |(E fun x => ind (fullSimRun P hash A c0 x = true)) - E fun key => E fun GK : X → Key => E fun G => E fun y => ind (keyRun0 P hash A c0 GK key G y = true)| ≤ qK / Fintype.card X := by
  rw [key_update0, key_free0]
  have h := E_mem_dep (askedF0 P hash A c0) (q := qK) fun w => by
    unfold askedF0
    exact askedK_length (hK _ _ _)
  refine le_trans (E_diff fun v hv => ?_) h
  unfold keyRun0
  rw [frun_update hv]

theorem simple_step0 [Nonempty K] [Nonempty R] : (E fun key => E fun GK : X → Key => E fun G => E fun y => ind (keyRun0 P hash A c0 GK key G y = true)) =
    E fun a : (X → Key) × (M → Hd → K × R) => E fun x => ind (simCcaRun P (simpleAttack hash A a.1 a.2) c0 x = true) := by
  have h1 : ∀ GK : X → Key, ∀ G' : M → Hd → K × R, (E fun x => ind (simCcaRun P (simpleAttack hash A GK G') c0 x = true)) = E fun key => E fun g : M → K × R => E fun y : Z × (Z → C → K) × M × K =>
      ind (keyRun0 P hash A c0 GK key (fun m h' => if h' = hash (P.ek key) then g m else G' m h') y = true) := fun GK G' => by
    let e : Key × (M → K × R) × (Z × (Z → C → K) × M × K) ≃ CcaCoins Key M K R Z C :=
      ⟨fun x => ⟨x.1, x.2.2.1, x.2.1, x.2.2.2.1, x.2.2.2.2.1, x.2.2.2.2.2⟩, fun x => (x.key, x.G, x.z, x.J, x.m, x.K1), fun _ => rfl, fun _ => rfl⟩
    rw [← E_equiv e, E_prod]
    refine congrArg E (funext fun key => ?_)
    rw [E_prod]
    refine congrArg E (funext fun g => ?_)
    refine congrArg E (funext fun y => ?_)
    refine congrArg (fun v => ind (v = true)) ?_
    refine (simple_run (hash (P.ek key)) GK G' _ _).trans ?_
    unfold keyRun0 decF0
    simp only [if_true]
    rfl
  rw [E_prod, E_comm]
  refine congrArg E (funext fun GK => ?_)
  rw [funext (h1 GK)]
  refine Eq.trans ?_ (E_comm fun (key : Key) (G' : M → Hd → K × R) => E fun g : M → K × R => E fun y : Z × (Z → C → K) × M × K =>
    ind (keyRun0 P hash A c0 GK key (fun m h' => if h' = hash (P.ek key) then g m else G' m h') y = true))
  refine congrArg E (funext fun key => ?_)
  exact E_slice (hash (P.ek key)) _

end

theorem full_sim_simple [Nonempty X] [Nonempty Key] [Nonempty M] [Nonempty K] [Nonempty R] [Nonempty Z] [Nonempty V] (P : Pke Key PK M R C) (hash : PK → Hd) (sim : V → C)
    (A : PK → C → K → FProg X Key M Hd K R Z C) {qK : Nat} (hK : ∀ pk c k, (A pk c k).QueriesK qK) :
    |fullSimProb P hash sim A - E fun a : (X → Key) × (M → Hd → K × R) => simCcaProb P sim (simpleAttack hash A a.1 a.2)| ≤ qK / Fintype.card X := by
  unfold fullSimProb simCcaProb
  rw [E_comm (fun (a : (X → Key) × (M → Hd → K × R)) v => E fun x => ind (simCcaRun P (simpleAttack hash A a.1 a.2) (sim v) x = true))]
  refine (E_abs _ _).trans ((E_mono (g := fun _ => qK / Fintype.card X) fun v => ?_).trans_eq (E_const _))
  rw [← simple_step0]
  exact key_step0 P hash A (sim v) hK

/-- Pseudorandom ciphertexts in the game with all inputs of G. -/
theorem full_sim [Nonempty X] [Nonempty Key] [Nonempty M] [Nonempty K] [Nonempty R] [Nonempty Z] [Nonempty V] {P : Pke Key PK M R C} (hash : PK → Hd) (sim : V → C)
    {A : PK → C → K → FProg X Key M Hd K R Z C} (b : Bool) {qK qG qJ : Nat} (hK : ∀ pk c k, (A pk c k).QueriesK qK) (hG : ∀ pk c k, (A pk c k).QueriesG qG)
    (hJ : ∀ pk c k, (A pk c k).QueriesJ qJ) :
    |fullProb P hash A b - fullSimProb P hash sim A| ≤
      (E fun a : (X → Key) × (M → Hd → K × R) => |cpaProb P (guessReduction P (simpleAttack hash A a.1 a.2)) true - simProb P sim (guessReduction P (simpleAttack hash A a.1 a.2))|) +
      (E fun a : (X → Key) × (M → Hd → K × R) => |cpaProb P (reduction P (simpleAttack hash A a.1 a.2)) true - cpaProb P (reduction P (simpleAttack hash A a.1 a.2)) false|) +
      2 * (qK / Fintype.card X) + 2 * (qJ / Fintype.card Z) + qG / Fintype.card M + (3 * qG + 2) * failProb P := by
  have h1 := key_step P hash A b hK
  have h0 := full_sim_simple P hash sim A hK
  rw [simple_step] at h1
  have hb := fun a : (X → Key) × (M → Hd → K × R) => cca_sim (P := P) (A := simpleAttack hash A a.1 a.2) (qG := qG) (qJ := qJ) sim b
    (fun pk c k => simple_queriesG _ _ _ (hG pk c k)) (fun pk c k => simple_queriesJ _ _ _ (hJ pk c k))
  have hm := (E_abs (fun a : (X → Key) × (M → Hd → K × R) => ccaProb P (simpleAttack hash A a.1 a.2) b) fun a => simCcaProb P sim (simpleAttack hash A a.1 a.2)).trans (E_mono hb)
  simp only [E_add, E_const] at hm
  rw [abs_le] at h1 h0 hm ⊢
  constructor <;> linarith [h1.1, h1.2, h0.1, h0.2, hm.1, hm.2]

/-! ## Two keys -/

section
variable {P : Pke Key PK M R C} {hash : PK → Hd}

/-- The run with an own key pair. -/
theorem own_run (b : Bool) (key : Key) (z : Z) (c0 : C) (GK : X → Key) (G : M → Hd → K × R) (J : Z → C → K) (D : C → Option K) (T : AProg X Key M Hd K R Z C) :
    (T.own P hash b key z c0).run ⟨GK, G, J, D⟩ =
      T.run GK G J fun i c => if i = b then D c else if c = c0 then none else some (kemDecaps P (fun m => G m (hash (P.ek key))) J key z c) := by
  induction T with
  | guess b => rfl
  | askK x next ih => exact ih _
  | askG m h next ih => exact ih _ _
  | askJ z c next ih => exact ih _
  | decaps i c next ih =>
    unfold AProg.own AProg.run
    by_cases hi : i = b
    · rw [if_pos hi, if_pos hi]
      exact ih _
    · rw [if_neg hi, if_neg hi]
      by_cases hc : c = c0
      · rw [if_pos hc, if_pos hc]
        exact ih _
      · rw [if_neg hc, if_neg hc]
        unfold kemDecaps
        show (if P.enc (P.ek key) (P.dec key c) (G (P.dec key c) (hash (P.ek key))).2 = c then _ else _ : FProg X Key M Hd K R Z C).run _ = _
        by_cases he : P.enc (P.ek key) (P.dec key c) (G (P.dec key c) (hash (P.ek key))).2 = c
        · rw [if_pos he]
          dsimp only
          rw [if_pos he]
          exact ih _
        · rw [if_neg he]
          dsimp only
          rw [if_neg he]
          exact ih _

theorem fqueriesJ_mono {T : FProg X Key M Hd K R Z C} {q q' : Nat} (hq : q ≤ q') (h : T.QueriesJ q) : T.QueriesJ q' := by
  induction T generalizing q q' with
  | guess b => trivial
  | askK x next ih => exact fun x => ih x hq (h x)
  | askG m h' next ih => exact fun x y => ih x y hq (h x y)
  | askJ z c next ih =>
    obtain ⟨r, rfl, h⟩ := h
    obtain ⟨s, rfl⟩ : ∃ s, q' = s + 1 := ⟨q' - 1, by omega⟩
    exact ⟨s, rfl, fun x => ih x (by omega) (h x)⟩
  | decaps c next ih => exact fun x => ih x hq (h x)

theorem fqueriesG_mono {T : FProg X Key M Hd K R Z C} {q q' : Nat} (hq : q ≤ q') (h : T.QueriesG q) : T.QueriesG q' := by
  induction T generalizing q q' with
  | guess b => trivial
  | askK x next ih => exact fun x => ih x hq (h x)
  | askG m h' next ih =>
    obtain ⟨r, rfl, h⟩ := h
    obtain ⟨s, rfl⟩ : ∃ s, q' = s + 1 := ⟨q' - 1, by omega⟩
    exact ⟨s, rfl, fun x y => ih x y (by omega) (h x y)⟩
  | askJ z c next ih => exact fun x => ih x hq (h x)
  | decaps c next ih => exact fun x => ih x hq (h x)

theorem own_queries (b : Bool) (key : Key) (z : Z) (c0 : C) {T : AProg X Key M Hd K R Z C} {qK qG qJ qD : Nat} (h : T.Queries qK qG qJ qD) :
    (T.own P hash b key z c0).QueriesK qK ∧ (T.own P hash b key z c0).QueriesG (qG + qD) ∧ (T.own P hash b key z c0).QueriesJ (qJ + qD) := by
  induction T generalizing qK qG qJ qD with
  | guess b => exact ⟨trivial, trivial, trivial⟩
  | askK x next ih =>
    obtain ⟨q, rfl, h⟩ := h
    exact ⟨⟨q, rfl, fun x => (ih x (h x)).1⟩, fun x => (ih x (h x)).2.1, fun x => (ih x (h x)).2.2⟩
  | askG m h' next ih =>
    obtain ⟨q, rfl, h⟩ := h
    exact ⟨fun x y => (ih x y (h x y)).1, ⟨q + qD, by omega, fun x y => (ih x y (h x y)).2.1⟩, fun x y => (ih x y (h x y)).2.2⟩
  | askJ z c next ih =>
    obtain ⟨q, rfl, h⟩ := h
    exact ⟨fun x => (ih x (h x)).1, fun x => (ih x (h x)).2.1, ⟨q + qD, by omega, fun x => (ih x (h x)).2.2⟩⟩
  | decaps i c next ih =>
    obtain ⟨q, rfl, h⟩ := h
    have h' := fun x => ih x (h x)
    have hG := fun x => fqueriesG_mono (show qG + q ≤ qG + (q + 1) by omega) (h' x).2.1
    have hJ := fun x => fqueriesJ_mono (show qJ + q ≤ qJ + (q + 1) by omega) (h' x).2.2
    unfold AProg.own
    by_cases hi : i = b
    · rw [if_pos hi]
      exact ⟨fun x => (h' x).1, fun x => hG x, fun x => hJ x⟩
    · rw [if_neg hi]
      by_cases hc : c = c0
      · rw [if_pos hc]
        exact ⟨(h' _).1, hG _, hJ _⟩
      · rw [if_neg hc]
        refine ⟨fun x y => ?_, ⟨qG + q, by omega, fun x y => ?_⟩, fun x y => ?_⟩
        · dsimp only
          by_cases he : P.enc (P.ek key) (P.dec key c) y = c
          · rw [if_pos he]; exact (h' _).1
          · rw [if_neg he]; exact fun x => (h' _).1
        · dsimp only
          by_cases he : P.enc (P.ek key) (P.dec key c) y = c
          · rw [if_pos he]; exact (h' _).2.1
          · rw [if_neg he]; exact fun x => (h' _).2.1
        · dsimp only
          by_cases he : P.enc (P.ek key) (P.dec key c) y = c
          · rw [if_pos he]; exact hJ _
          · rw [if_neg he]; exact ⟨qJ + q, by omega, fun x => (h' _).2.2⟩

variable (P hash) (A : PK → PK → C → K → AProg X Key M Hd K R Z C)

theorem ownAttack_queries {qK qG qJ qD : Nat} (h : ∀ pk0 pk1 c k, (A pk0 pk1 c k).Queries qK qG qJ qD) (b : Bool) (d : X) (z : Z) (pk : PK) (c : C) (k : K) :
    (ownAttack P hash A b d z pk c k).QueriesK (qK + 1) ∧ (ownAttack P hash A b d z pk c k).QueriesG (qG + qD) ∧ (ownAttack P hash A b d z pk c k).QueriesJ (qJ + qD) := by
  have h' : ∀ key, (if b then A (P.ek key) pk c k else A pk (P.ek key) c k).Queries qK qG qJ qD := fun key => by cases b <;> exact h _ _ _ _
  exact ⟨⟨qK, rfl, fun key => (own_queries b key z c (h' key)).1⟩, fun key => (own_queries b key z c (h' key)).2.1, fun key => (own_queries b key z c (h' key)).2.2⟩

/-- The run of the attack on the encapsulation `c`, `k`. -/
def twoRun (GK : X → Key) (G : M → Hd → K × R) (J : Z → C → K) (k0 k1 : X × Z) (c : C) (k : K) : Bool :=
  (A (P.ek (GK k0.1)) (P.ek (GK k1.1)) c k).run GK G J fun i c' => if c' = c then none else some (if i then fullDecaps P hash GK G J k1.1 k1.2 c' else fullDecaps P hash GK G J k0.1 k0.2 c')

theorem own_two (b : Bool) (GK : X → Key) (G : M → Hd → K × R) (J : Z → C → K) (own other : X × Z) (c : C) (k : K) :
    (ownAttack P hash A b other.1 other.2 (P.ek (GK own.1)) c k).run ⟨GK, G, J, fun c' => if c' = c then none else some (fullDecaps P hash GK G J own.1 own.2 c')⟩ =
      if b then twoRun P hash A GK G J other own c k else twoRun P hash A GK G J own other c k := by
  refine (own_run b (GK other.1) other.2 c GK G J _ _).trans ?_
  cases b <;> unfold twoRun <;> dsimp only [Bool.false_eq_true, if_false, if_true] <;> congr 1 <;> funext i c' <;> cases i <;> by_cases hc : c' = c <;> simp [hc, fullDecaps]

/-- Anonymity in terms of the attack with one own key pair. -/
theorem anon_full [Nonempty K] (b : Bool) : anonCcaProb P hash A b = E fun o : X × Z => fullProb P hash (ownAttack P hash A b o.1 o.2) false := by
  let F : X × Z → X × Z → (X → Key) × (M → Hd → K × R) × (Z → C → K) × M → ℚ := fun own other y =>
    let pk := P.ek (y.1 own.1)
    let c := P.enc pk y.2.2.2 (y.2.1 y.2.2.2 (hash pk)).2
    let k := (y.2.1 y.2.2.2 (hash pk)).1
    ind ((if b then twoRun P hash A y.1 y.2.1 y.2.2.1 other own c k else twoRun P hash A y.1 y.2.1 y.2.2.1 own other c k) = true)
  have e1 : ∀ o : X × Z, fullProb P hash (ownAttack P hash A b o.1 o.2) false = E fun own => E fun y => F own o y := fun o => by
    unfold fullProb
    let e : FullCoins X Key M Hd K R Z C ≃ ((X × Z) × (X → Key) × (M → Hd → K × R) × (Z → C → K) × M) × K :=
      ⟨fun x => (((x.1, x.2.2.2.1), x.2.1, x.2.2.1, x.2.2.2.2.1, x.2.2.2.2.2.1), x.2.2.2.2.2.2),
       fun x => (x.1.1.1, x.1.2.1, x.1.2.2.1, x.1.1.2, x.1.2.2.2.1, x.1.2.2.2.2, x.2), fun _ => rfl, fun _ => rfl⟩
    rw [← E_prod (fun p : (X × Z) × (X → Key) × (M → Hd → K × R) × (Z → C → K) × M => F p.1 o p.2),
      ← E_fst (β := K) (fun p : (X × Z) × (X → Key) × (M → Hd → K × R) × (Z → C → K) × M => F p.1 o p.2), ← E_equiv e]
    refine congrArg E (funext fun x => ?_)
    obtain ⟨d, GK, G, z, J, m, K1⟩ := x
    have := own_two P hash A b GK G J (d, z) o (P.enc (P.ek (GK d)) m (G m (hash (P.ek (GK d)))).2) (G m (hash (P.ek (GK d)))).1
    exact congrArg (fun v => ind (v = true)) this
  have e2 : anonCcaProb P hash A b = E fun k0 => E fun k1 => E fun y => if b then F k1 k0 y else F k0 k1 y := by
    unfold anonCcaProb
    rw [E_prod]
    refine congrArg E (funext fun k0 => ?_)
    rw [E_prod]
    refine congrArg E (funext fun k1 => congrArg E (funext fun y => ?_))
    cases b <;> rfl
  rw [e2, funext e1]
  cases b
  · exact E_comm _
  · rfl

/-- On an independent ciphertext both attacks guess alike. -/
theorem anon_full_sim (sim : V → C) : (E fun o : X × Z => fullSimProb P hash sim (ownAttack P hash A true o.1 o.2)) = E fun o : X × Z => fullSimProb P hash sim (ownAttack P hash A false o.1 o.2) := by
  let F : V → X × Z → X × Z → (X → Key) × (M → Hd → K × R) × (Z → C → K) × M × K → ℚ := fun v k0 k1 y =>
    ind (twoRun P hash A y.1 y.2.1 y.2.2.1 k0 k1 (sim v) y.2.2.2.2 = true)
  have e1 : ∀ b, ∀ o : X × Z, fullSimProb P hash sim (ownAttack P hash A b o.1 o.2) = E fun v => E fun own => E fun y => if b then F v o own y else F v own o y := fun b o => by
    unfold fullSimProb
    refine congrArg E (funext fun v => ?_)
    let e : FullCoins X Key M Hd K R Z C ≃ (X × Z) × (X → Key) × (M → Hd → K × R) × (Z → C → K) × M × K :=
      ⟨fun x => ((x.1, x.2.2.2.1), x.2.1, x.2.2.1, x.2.2.2.2.1, x.2.2.2.2.2.1, x.2.2.2.2.2.2),
       fun x => (x.1.1, x.2.1, x.2.2.1, x.1.2, x.2.2.2.1, x.2.2.2.2.1, x.2.2.2.2.2), fun _ => rfl, fun _ => rfl⟩
    rw [← E_prod (fun p : (X × Z) × (X → Key) × (M → Hd → K × R) × (Z → C → K) × M × K => if b then F v o p.1 p.2 else F v p.1 o p.2), ← E_equiv e]
    refine congrArg E (funext fun x => ?_)
    obtain ⟨d, GK, G, z, J, m, K1⟩ := x
    have := own_two P hash A b GK G J (d, z) o (sim v) K1
    refine (congrArg (fun v => ind (v = true)) this).trans ?_
    cases b <;> rfl
  rw [funext (e1 true), funext (e1 false), E_comm, E_comm (fun (o : X × Z) v => E fun own => E fun y => if false = true then F v o own y else F v own o y)]
  refine congrArg E (funext fun v => ?_)
  exact E_comm _

end

end Verif.Proof
