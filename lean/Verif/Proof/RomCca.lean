import Verif.Proof.Rom

/-! # The sequence of games from the chosen-ciphertext attack to the chosen-plaintext attack -/

set_option autoImplicit false
set_option linter.unusedSectionVars false

namespace Verif.Proof
open Finset Verif.Spec

/-- The random choices of all games: the two parts of G apart, a function from ciphertexts to secrets and coins for the challenge. -/
structure W (Key M K R Z C : Type) where
  key : Key
  z : Z
  g1 : M → K
  g2 : M → R
  J : Z → C → K
  m : M
  K1 : K
  F : C → K
  r : R

variable {Key PK M K R Z C : Type}

def W.equiv (Key M K R Z C : Type) : W Key M K R Z C ≃ Key × Z × (M → K) × (M → R) × (Z → C → K) × M × K × (C → K) × R where
  toFun x := (x.key, x.z, x.g1, x.g2, x.J, x.m, x.K1, x.F, x.r)
  invFun x := ⟨x.1, x.2.1, x.2.2.1, x.2.2.2.1, x.2.2.2.2.1, x.2.2.2.2.2.1, x.2.2.2.2.2.2.1, x.2.2.2.2.2.2.2.1, x.2.2.2.2.2.2.2.2⟩
  left_inv _ := rfl
  right_inv _ := rfl

variable [Fintype Key] [Fintype M] [DecidableEq M] [Fintype K] [Fintype R] [Fintype Z] [DecidableEq Z] [Fintype C] [DecidableEq C]

instance : Fintype (W Key M K R Z C) := Fintype.ofEquiv _ (W.equiv Key M K R Z C).symm

/-- The choices of the CCA game among them. -/
def W.coins (w : W Key M K R Z C) : CcaCoins Key M K R Z C := ⟨w.key, w.z, fun m => (w.g1 m, w.g2 m), w.J, w.m, w.K1⟩

omit [Fintype Key] [Fintype M] [DecidableEq M] [Fintype K] [Fintype R] [Fintype Z] [DecidableEq Z] [Fintype C] [DecidableEq C] in
def W.split : W Key M K R Z C ≃ CcaCoins Key M K R Z C × ((C → K) × R) where
  toFun w := (⟨w.key, w.z, fun m => (w.g1 m, w.g2 m), w.J, w.m, w.K1⟩, w.F, w.r)
  invFun x := ⟨x.1.key, x.1.z, fun m => (x.1.G m).1, fun m => (x.1.G m).2, x.1.J, x.1.m, x.1.K1, x.2.1, x.2.2⟩
  left_inv _ := rfl
  right_inv _ := rfl

theorem E_coins [Nonempty K] [Nonempty R] (f : CcaCoins Key M K R Z C → ℚ) : E (fun w : W Key M K R Z C => f w.coins) = E f := by
  rw [← E_fst (β := (C → K) × R) f, ← E_equiv W.split]
  rfl

section
variable (P : Pke Key PK M R C) (A : PK → C → K → Prog M K R Z C)

namespace W
variable (w : W Key M K R Z C)

/-- The encryption of a message with the coins from G. -/
def ct (m : M) : C := P.enc (P.ek w.key) m (w.g2 m)

/-- The challenge. -/
def cs : C := w.ct P w.m

def good (m : M) : Prop := P.dec w.key (w.ct P m) = m

def acc (c : C) : Prop := w.ct P (P.dec w.key c) = c

/-- Decapsulation with `F` in place of J. -/
def decF (c : C) : K := if w.ct P (P.dec w.key c) = c then w.g1 (P.dec w.key c) else w.F c

/-- Answers with `F` in place of J in the decapsulation. -/
def oF : Answers M K R Z C := ⟨fun m => (w.g1 m, w.g2 m), w.J, fun c => if c = w.cs P then none else some (w.decF P c)⟩

/-- The program of the attack. -/
def prog (b : Bool) (k0 : K) : Prog M K R Z C := A (P.ek w.key) (w.cs P) (if b then w.K1 else k0)

/-- Secrets from `F` alone. -/
def oC : Answers M K R Z C := ⟨fun m => (w.F (w.ct P m), w.g2 m), w.J, fun c => if c = w.cs P then none else some (w.F c)⟩

def progC (b : Bool) : Prog M K R Z C := w.prog P A b (w.F (w.cs P))

/-- Exchange J at the rejection secret with `F`. -/
def swapJ : W Key M K R Z C := { w with J := Function.update w.J w.z w.F, F := w.J w.z }

open Classical in
/-- Exchange the secrets of the messages that decrypt correctly with the values of `F` at their ciphertexts. -/
noncomputable def swapG : W Key M K R Z C :=
  { w with g1 := fun m => if w.good P m then w.F (w.ct P m) else w.g1 m, F := fun c => w.decF P c }

/-- Exchange the value of `F` at the challenge with the independent secret. -/
def swapK : W Key M K R Z C := { w with F := Function.update w.F (w.cs P) w.K1, K1 := w.F (w.cs P) }

/-- Exchange the coins of the challenge. -/
def swapR : W Key M K R Z C := { w with g2 := Function.update w.g2 w.m w.r, r := w.g2 w.m }

end W

theorem E_invol (s : W Key M K R Z C → W Key M K R Z C) (h : ∀ w, s (s w) = w) (f : W Key M K R Z C → ℚ) : E (fun w => f (s w)) = E f :=
  E_equiv ⟨s, s, h, h⟩ f

theorem swapJ_invol (w : W Key M K R Z C) : w.swapJ.swapJ = w := by
  cases w; simp [W.swapJ]

theorem swapG_invol (w : W Key M K R Z C) : (w.swapG P).swapG P = w := by
  cases w with | mk key z g1 g2 J m K1 F r => ?_
  simp only [W.swapG, W.good, W.ct, W.decF, W.mk.injEq, true_and, and_true]
  constructor
  · funext m
    by_cases h : P.dec key (P.enc (P.ek key) m (g2 m)) = m
    · simp [h]
    · simp [h]
  · funext c
    by_cases h : P.enc (P.ek key) (P.dec key c) (g2 (P.dec key c)) = c
    · simp [h]
    · simp [h]

theorem swapK_invol (w : W Key M K R Z C) : (w.swapK P).swapK P = w := by
  cases w; simp [W.swapK, W.cs, W.ct]

theorem swapR_invol (w : W Key M K R Z C) : w.swapR.swapR = w := by
  cases w; simp [W.swapR]

/-! ## The steps -/

section
variable {P A}
variable [Nonempty Key] [Nonempty M] [Nonempty K] [Nonempty R] [Nonempty Z]

omit [Fintype Key] [Fintype M] [DecidableEq M] [Fintype K] [Fintype R] [Fintype Z] [DecidableEq Z] [Fintype C] [DecidableEq C]
  [Nonempty Key] [Nonempty M] [Nonempty K] [Nonempty R] [Nonempty Z] in
def W.takeZ : W Key M K R Z C ≃ (Key × (M → K) × (M → R) × (Z → C → K) × M × K × (C → K) × R) × Z where
  toFun x := ((x.key, x.g1, x.g2, x.J, x.m, x.K1, x.F, x.r), x.z)
  invFun x := ⟨x.1.1, x.2, x.1.2.1, x.1.2.2.1, x.1.2.2.2.1, x.1.2.2.2.2.1, x.1.2.2.2.2.2.1, x.1.2.2.2.2.2.2.1, x.1.2.2.2.2.2.2.2⟩
  left_inv _ := rfl
  right_inv _ := rfl

omit [Fintype Key] [Fintype M] [DecidableEq M] [Fintype K] [Fintype R] [Fintype Z] [DecidableEq Z] [Fintype C] [DecidableEq C]
  [Nonempty Key] [Nonempty M] [Nonempty K] [Nonempty R] [Nonempty Z] in
def W.takeG : W Key M K R Z C ≃ (Key × Z × (M → K) × (Z → C → K) × M × K × (C → K) × R) × (M → R) where
  toFun x := ((x.key, x.z, x.g1, x.J, x.m, x.K1, x.F, x.r), x.g2)
  invFun x := ⟨x.1.1, x.1.2.1, x.1.2.2.1, x.2, x.1.2.2.2.1, x.1.2.2.2.2.1, x.1.2.2.2.2.2.1, x.1.2.2.2.2.2.2.1, x.1.2.2.2.2.2.2.2⟩
  left_inv _ := rfl
  right_inv _ := rfl

/-- The rejection secret is not asked from J but with a small probability. -/
theorem hop_J (b : Bool) {qJ : Nat} (hq : ∀ pk c k, (A pk c k).QueriesJ qJ) :
    |ccaProb P A b - E fun w : W Key M K R Z C => ind ((w.prog P A b (w.g1 w.m)).run (w.oF P) = true)| ≤ qJ / Fintype.card Z := by
  unfold ccaProb
  rw [← E_coins, ← E_invol W.swapJ swapJ_invol]
  refine (E_diff (r := fun w => w.z ∈ askedJ (w.oF P) (w.prog P A b (w.g1 w.m))) fun w hw => ?_).trans ?_
  · have := (run_congr (O := w.oF P) (O' := ⟨fun m => (w.g1 m, w.g2 m), w.swapJ.J,
        fun c => if c = w.cs P then none else some (kemDecaps P (fun m => (w.g1 m, w.g2 m)) w.swapJ.J w.key w.z c)⟩)
      (T := w.prog P A b (w.g1 w.m)) (fun _ _ => rfl) (fun z hz => ?_) ?_).1
    · rw [this]
      rfl
    · have : z ≠ w.z := fun h => hw (h ▸ hz)
      simp [W.oF, W.swapJ, this]
    · funext c
      show (if c = w.cs P then none else some (w.decF P c)) = if c = w.cs P then none else some (kemDecaps P (fun m => (w.g1 m, w.g2 m)) (Function.update w.J w.z w.F) w.key w.z c)
      have : w.decF P c = kemDecaps P (fun m => (w.g1 m, w.g2 m)) (Function.update w.J w.z w.F) w.key w.z c := by
        unfold kemDecaps
        rw [Function.update_self]
        rfl
      rw [this]
  · refine E_le_inner W.takeZ fun x => ?_
    obtain ⟨z0⟩ := ‹Nonempty Z›
    show E (fun z => ind (z ∈ askedJ ((W.takeZ.symm (x, z0)).oF P) ((W.takeZ.symm (x, z0)).prog P A b ((W.takeZ.symm (x, z0)).g1 (W.takeZ.symm (x, z0)).m)))) ≤ _
    exact E_mem_list _ qJ (askedJ_length (hq _ _ _))

/-- A message that was asked from G, or the encapsulated one, does not decrypt correctly. -/
def Bad (P : Pke Key PK M R C) (A : PK → C → K → Prog M K R Z C) (b : Bool) (w : W Key M K R Z C) : Prop :=
  ∃ m ∈ w.m :: (w.progC P A b).asked (w.oC P), ¬ w.good P m

theorem hop_G (b : Bool) : |(E fun w : W Key M K R Z C => ind ((w.prog P A b (w.g1 w.m)).run (w.oF P) = true)) -
    E fun w : W Key M K R Z C => ind ((w.progC P A b).run (w.oC P) = true)| ≤ E fun w => ind (Bad P A b w) := by
  rw [← E_invol (W.swapG P) (swapG_invol P)]
  refine E_diff fun w hw => ?_
  have hg : ∀ m, m = w.m ∨ m ∈ (w.progC P A b).asked (w.oC P) → w.good P m := fun m h => by
    by_contra hc
    exact hw ⟨m, by simpa using h, hc⟩
  have hprog : (w.swapG P).prog P A b ((w.swapG P).g1 (w.swapG P).m) = w.progC P A b := by
    have : (w.swapG P).g1 w.m = w.F (w.ct P w.m) := if_pos (hg _ (Or.inl rfl))
    show w.prog P A b ((w.swapG P).g1 w.m) = _
    rw [this]
    rfl
  rw [hprog]
  have := (run_congr (O := w.oC P) (O' := (w.swapG P).oF P) (T := w.progC P A b) (fun m hm => ?_) (fun _ _ => rfl) ?_).1
  · rw [this]
  · have : (w.swapG P).g1 m = w.F (w.ct P m) := if_pos (hg _ (Or.inr hm))
    show (w.F (w.ct P m), w.g2 m) = ((w.swapG P).g1 m, w.g2 m)
    rw [this]
  · funext c
    show (if c = w.cs P then none else some (w.F c)) = if c = w.cs P then none else some ((w.swapG P).decF P c)
    congr 2
    show w.F c = if w.ct P (P.dec w.key c) = c then (w.swapG P).g1 (P.dec w.key c) else w.decF P c
    by_cases h : w.ct P (P.dec w.key c) = c
    · have : (w.swapG P).g1 (P.dec w.key c) = w.F (w.ct P (P.dec w.key c)) := if_pos (by unfold W.good; rw [h])
      rw [if_pos h, this, h]
    · rw [if_neg h]
      unfold W.decF
      rw [if_neg h]

theorem hop_K : |(E fun w : W Key M K R Z C => ind ((w.progC P A false).run (w.oC P) = true)) - E fun w : W Key M K R Z C => ind ((w.progC P A true).run (w.oC P) = true)| ≤
    (E fun w : W Key M K R Z C => ind (w.m ∈ (w.progC P A true).asked (w.oC P))) + E fun w => ind (Bad P A true w) := by
  rw [← E_invol (W.swapK P) (swapK_invol P), ← E_add]
  refine (E_diff (r := fun w => ∃ m ∈ (w.progC P A true).asked (w.oC P), w.ct P m = w.cs P) fun w hw => ?_).trans (E_mono fun w => (ind_mono ?_).trans (ind_or _ _))
  · have hprog : (w.swapK P).progC P A false = w.progC P A true := by
      show A _ _ (Function.update w.F (w.cs P) w.K1 (w.cs P)) = A _ _ w.K1
      rw [Function.update_self]
      rfl
    rw [hprog]
    have := (run_congr (O := w.oC P) (O' := (w.swapK P).oC P) (T := w.progC P A true) (fun m hm => ?_) (fun _ _ => rfl) ?_).1
    · rw [this]
    · have : w.ct P m ≠ w.cs P := fun h => hw ⟨m, hm, h⟩
      show (w.F (w.ct P m), w.g2 m) = (Function.update w.F (w.cs P) w.K1 (w.ct P m), w.g2 m)
      rw [Function.update_of_ne this]
    · funext c
      show (if c = w.cs P then none else some (w.F c)) = if c = w.cs P then none else some (Function.update w.F (w.cs P) w.K1 c)
      by_cases h : c = w.cs P
      · rw [if_pos h, if_pos h]
      · rw [if_neg h, if_neg h, Function.update_of_ne h]
  · rintro ⟨m, hm, h⟩
    by_cases e : m = w.m
    · exact Or.inl (e ▸ hm)
    · right
      by_contra hc
      have hg : ∀ m, m = w.m ∨ m ∈ (w.progC P A true).asked (w.oC P) → w.good P m := fun m h => by
        by_contra hc'
        exact hc ⟨m, by simpa using h, hc'⟩
      have h1 := hg _ (Or.inl rfl)
      have h2 := hg m (Or.inr hm)
      unfold W.good at h1 h2
      rw [h] at h2
      exact e (h2.symm.trans h1)

omit [Fintype Key] [Fintype M] [DecidableEq M] [Fintype K] [Fintype R] [Fintype Z] [DecidableEq Z] [Fintype C] [DecidableEq C]
  [Nonempty Key] [Nonempty M] [Nonempty K] [Nonempty R] [Nonempty Z] in
def W.tape : W Key M K R Z C × M ≃ (((M × M) × (M → R) × (Z → C → K) × (C → K) × K) × Key × R) × (Z × (M → K)) where
  toFun x := ((((x.2, x.1.m), x.1.g2, x.1.J, x.1.F, x.1.K1), x.1.key, x.1.r), (x.1.z, x.1.g1))
  invFun x := (⟨x.1.2.1, x.2.1, x.2.2, x.1.1.2.1, x.1.1.2.2.1, x.1.1.1.2, x.1.1.2.2.2.2, x.1.1.2.2.2.1, x.1.2.2⟩, x.1.1.1.1)
  left_inv _ := rfl
  right_inv _ := rfl

theorem guess_iff {m0 m : M} {g : M → R} {J : Z → C → K} {F : C → K} {k : K} {pk : PK} {c : C} : (reduction P A).guess ((m0, m), g, J, F, k) pk c = true ↔
    m ∈ (A pk c k).asked ⟨fun m => (F (P.enc pk m (g m)), g m), J, fun c' => if c' = c then none else some (F c')⟩ := by
  unfold reduction
  rw [decide_eq_true_iff]

theorem hop_R : (E fun w : W Key M K R Z C => ind (w.m ∈ (w.progC P A true).asked (w.oC P))) = cpaProb P (reduction P A) true := by
  unfold cpaProb
  rw [← E_invol W.swapR swapR_invol, ← E_fst (β := M) (fun w : W Key M K R Z C => _)]
  refine Eq.trans ?_ (E_fst (β := Z × (M → K)) _)
  refine Eq.trans ?_ (E_equiv W.tape _)
  congr 1
  funext x
  obtain ⟨w, m0⟩ := x
  have e1 : (w.swapR).cs P = P.enc (P.ek w.key) w.m w.r := by
    show P.enc (P.ek w.key) w.m (Function.update w.g2 w.m w.r w.m) = _
    rw [Function.update_self]
  have hp : (w.swapR).progC P A true = A (P.ek w.key) (P.enc (P.ek w.key) w.m w.r) w.K1 := by
    show A (P.ek w.key) ((w.swapR).cs P) w.K1 = _
    rw [e1]
  have := asked_congr (O := (w.swapR).oC P) (O' := ⟨fun m => (w.F (P.enc (P.ek w.key) m (w.g2 m)), w.g2 m), w.J,
    fun c' => if c' = P.enc (P.ek w.key) w.m w.r then none else some (w.F c')⟩) (T := (w.swapR).progC P A true) (a := w.m) (fun m hm => ?_) rfl ?_
  · rw [hp] at this
    show ind (w.m ∈ (W.progC P A w.swapR true).asked (w.swapR.oC P)) = ind ((reduction P A).guess ((m0, w.m), w.g2, w.J, w.F, w.K1) (P.ek w.key) (P.enc (P.ek w.key) w.m w.r) = true)
    rw [guess_iff, hp, this]
  · show (w.F (P.enc (P.ek w.key) m (Function.update w.g2 w.m w.r m)), Function.update w.g2 w.m w.r m) = _
    rw [Function.update_of_ne hm]
  · funext c
    show (if c = (w.swapR).cs P then none else some (w.F c)) = _
    rw [e1]

theorem hop_other {qG : Nat} (hq : ∀ pk c k, (A pk c k).QueriesG qG) : cpaProb P (reduction P A) false ≤ qG / Fintype.card M := by
  let e : (((M × M) × (M → R) × (Z → C → K) × (C → K) × K) × Key × R) ≃ (M × (M → R) × (Z → C → K) × (C → K) × K × Key × R) × M :=
    ⟨fun x => ((x.1.1.1, x.1.2.1, x.1.2.2.1, x.1.2.2.2.1, x.1.2.2.2.2, x.2.1, x.2.2), x.1.1.2),
     fun x => (((x.1.1, x.2), x.1.2.1, x.1.2.2.1, x.1.2.2.2.1, x.1.2.2.2.2.1), x.1.2.2.2.2.2.1, x.1.2.2.2.2.2.2), fun _ => rfl, fun _ => rfl⟩
  unfold cpaProb
  refine E_le_inner e fun x => ?_
  obtain ⟨m0, g, J, F, k, key, r⟩ := x
  show E (fun m => ind ((reduction P A).guess ((m0, m), g, J, F, k) (P.ek key) (P.enc (P.ek key) m0 r) = true)) ≤ _
  simp only [guess_iff]
  exact E_mem_list _ qG (asked_length (hq _ _ _))

theorem bad_le (b : Bool) {qG : Nat} (hq : ∀ pk c k, (A pk c k).QueriesG qG) : E (fun w : W Key M K R Z C => ind (Bad P A b w)) ≤ (qG + 1) * failProb P := by
  have h1 : E (fun w : W Key M K R Z C => ind (Bad P A b w)) = E fun x => E fun y => ind (Bad P A b (W.takeG.symm (x, y))) := by
    rw [← E_prod (fun p => ind (Bad P A b (W.takeG.symm p))), E_equiv W.takeG.symm (fun w => ind (Bad P A b w))]
  have h2 : ∀ x : Key × Z × (M → K) × (Z → C → K) × M × K × (C → K) × R, E (fun y => ind (Bad P A b (W.takeG.symm (x, y)))) ≤
      (qG + 1) * E fun r => ind (∃ m, P.dec x.1 (P.enc (P.ek x.1) m r) ≠ m) := fun x => by
    obtain ⟨key, z, g1, J, m, K1, F, r0⟩ := x
    let B : Set R := {r | ∃ m, P.dec key (P.enc (P.ek key) m r) ≠ m}
    rw [E_update m]
    have hr : ∀ r, E (fun g => ind (Bad P A b (W.takeG.symm ((key, z, g1, J, m, K1, F, r0), Function.update g m r)))) ≤ ind (r ∈ B) + qG * E fun r => ind (r ∈ B) := fun r => by
      have hh := hits_le (M := M) (R := R) (K := K) B (fun m' r' => F (P.enc (P.ek key) m' r')) J (fun c => if c = P.enc (P.ek key) m r then none else some (F c))
        (hq (P.ek key) (P.enc (P.ek key) m r) (if b then K1 else F (P.enc (P.ek key) m r))) (Function.update (fun _ => none) m (some r))
      have ho : ∀ g : M → R, ov (Function.update (fun _ => none) m (some r)) g = Function.update g m r := fun g => by
        rw [← ov_update rfl]
        rfl
      simp only [ho] at hh
      refine le_trans (E_mono fun g => (ind_mono ?_).trans (ind_or (r ∈ B) _)) ((E_add _ _).trans_le (add_le_add (E_const _).le hh))
      have es : (W.takeG.symm ((key, z, g1, J, m, K1, F, r0), Function.update g m r)).cs P = P.enc (P.ek key) m r := by
        show P.enc (P.ek key) m (Function.update g m r m) = _
        rw [Function.update_self]
      rintro ⟨m', h1, h2⟩
      have hB : Function.update g m r m' ∈ B := ⟨m', h2⟩
      by_cases e : m' = m
      · subst e
        rw [Function.update_self] at hB
        exact Or.inl hB
      · right
        refine ⟨m', ?_, by rw [Function.update_of_ne e], hB⟩
        rcases List.mem_cons.1 h1 with h1 | h1
        · exact absurd h1 e
        · unfold W.progC W.prog W.oC at h1
          rw [es] at h1
          exact h1
    refine (E_mono hr).trans (le_of_eq ?_)
    rw [E_add, E_const]
    show E (fun r => ind (r ∈ B)) + qG * E (fun r => ind (r ∈ B)) = (qG + 1) * E fun r => ind (r ∈ B)
    ring
  rw [h1]
  refine (E_mono h2).trans (le_of_eq ?_)
  rw [E_mul]
  unfold failProb
  rw [E_prod, E_prod]
  simp only [E_const]

/-- The sum of the steps. -/
theorem cca_bound {qG qJ : Nat} (hG : ∀ pk c k, (A pk c k).QueriesG qG) (hJ : ∀ pk c k, (A pk c k).QueriesJ qJ) :
    |ccaProb P A true - ccaProb P A false| ≤ |cpaProb P (reduction P A) true - cpaProb P (reduction P A) false| + 2 * (qJ / Fintype.card Z) + qG / Fintype.card M + 3 * ((qG + 1) * failProb P) := by
  have a1 := hop_J (P := P) (A := A) true hJ
  have a0 := hop_J (P := P) (A := A) false hJ
  have b1 := (hop_G (P := P) (A := A) true).trans (bad_le true hG)
  have b0 := (hop_G (P := P) (A := A) false).trans (bad_le false hG)
  have k := hop_K (P := P) (A := A)
  have c := bad_le (P := P) (A := A) true hG
  have d := hop_other (P := P) hG
  rw [hop_R] at k
  have l := le_abs_self (cpaProb P (reduction P A) true - cpaProb P (reduction P A) false)
  rw [abs_le] at a1 a0 b1 b0 k ⊢
  constructor <;> linarith [a1.1, a1.2, a0.1, a0.2, b1.1, b1.2, b0.1, b0.2, k.1, k.2]

end

end

end Verif.Proof
