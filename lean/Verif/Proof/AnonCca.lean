import Verif.Spec.AnonCca
import Verif.Proof.Anon
import Verif.Proof.RomFull

/-! # Pseudorandom ciphertexts against chosen-ciphertext attacks -/

set_option autoImplicit false
set_option linter.unusedSectionVars false

namespace Verif.Proof
open Finset Verif.Spec

theorem E_abs {α : Type} [Fintype α] (f g : α → ℚ) : |E f - E g| ≤ E fun x => |f x - g x| := by
  rw [← E_sub]
  unfold E
  rw [abs_div, abs_of_nonneg (a := ((Fintype.card α : Nat) : ℚ)) (Nat.cast_nonneg _)]
  exact div_le_div_of_nonneg_right (Finset.abs_sum_le_sum_abs _ _) (Nat.cast_nonneg _)

variable {Key PK M K R Z C V : Type}
variable [Fintype Key] [Fintype M] [DecidableEq M] [Fintype K] [Fintype R] [Fintype Z] [DecidableEq Z] [Fintype C] [DecidableEq C] [Fintype V]

section
variable (P : Pke Key PK M R C) (A : PK → C → K → Prog M K R Z C) (c0 : C)

namespace W
variable (w : W Key M K R Z C)

/-- As `oF` for another challenge. -/
def oF0 : Answers M K R Z C := ⟨fun m => (w.g1 m, w.g2 m), w.J, fun c => if c = c0 then none else some (w.decF P c)⟩

/-- As `oC` for another challenge. -/
def oC0 : Answers M K R Z C := ⟨fun m => (w.F (w.ct P m), w.g2 m), w.J, fun c => if c = c0 then none else some (w.F c)⟩

/-- The program for another challenge. -/
def prog0 : Prog M K R Z C := A (P.ek w.key) c0 w.K1

end W

section
variable {P A c0}
variable [Nonempty Key] [Nonempty M] [Nonempty K] [Nonempty R] [Nonempty Z]

theorem hop_J0 {qJ : Nat} (hq : ∀ pk c k, (A pk c k).QueriesJ qJ) :
    |(E fun x : CcaCoins Key M K R Z C => ind (simCcaRun P A c0 x = true)) - E fun w : W Key M K R Z C => ind ((w.prog0 P A c0).run (w.oF0 P c0) = true)| ≤ qJ / Fintype.card Z := by
  rw [← E_coins, ← E_invol W.swapJ swapJ_invol]
  refine (E_diff (r := fun w => w.z ∈ askedJ (w.oF0 P c0) (w.prog0 P A c0)) fun w hw => ?_).trans ?_
  · have := (run_congr (O := w.oF0 P c0) (O' := ⟨fun m => (w.g1 m, w.g2 m), w.swapJ.J,
        fun c => if c = c0 then none else some (kemDecaps P (fun m => (w.g1 m, w.g2 m)) w.swapJ.J w.key w.z c)⟩)
      (T := w.prog0 P A c0) (fun _ _ => rfl) (fun z hz => ?_) ?_).1
    · rw [this]
      rfl
    · have : z ≠ w.z := fun h => hw (h ▸ hz)
      simp [W.oF0, W.swapJ, this]
    · funext c
      show (if c = c0 then none else some (w.decF P c)) = if c = c0 then none else some (kemDecaps P (fun m => (w.g1 m, w.g2 m)) (Function.update w.J w.z w.F) w.key w.z c)
      have : w.decF P c = kemDecaps P (fun m => (w.g1 m, w.g2 m)) (Function.update w.J w.z w.F) w.key w.z c := by
        unfold kemDecaps
        rw [Function.update_self]
        rfl
      rw [this]
  · refine E_le_inner W.takeZ fun x => ?_
    obtain ⟨z0⟩ := ‹Nonempty Z›
    show E (fun z => ind (z ∈ askedJ ((W.takeZ.symm (x, z0)).oF0 P c0) ((W.takeZ.symm (x, z0)).prog0 P A c0))) ≤ _
    exact E_mem_list _ qJ (askedJ_length (hq _ _ _))

theorem hop_G0 : |(E fun w : W Key M K R Z C => ind ((w.prog0 P A c0).run (w.oF0 P c0) = true)) - E fun w : W Key M K R Z C => ind ((w.prog0 P A c0).run (w.oC0 P c0) = true)| ≤
    E fun w : W Key M K R Z C => ind (∃ m ∈ (w.prog0 P A c0).asked (w.oC0 P c0), ¬ w.good P m) := by
  rw [← E_invol (W.swapG P) (swapG_invol P)]
  refine E_diff fun w hw => ?_
  have hg : ∀ m, m ∈ (w.prog0 P A c0).asked (w.oC0 P c0) → w.good P m := fun m h => by
    by_contra hc
    exact hw ⟨m, h, hc⟩
  show (w.prog0 P A c0).run ((w.swapG P).oF0 P c0) = true ↔ _
  have := (run_congr (O := w.oC0 P c0) (O' := (w.swapG P).oF0 P c0) (T := w.prog0 P A c0) (fun m hm => ?_) (fun _ _ => rfl) ?_).1
  · rw [this]
  · have : (w.swapG P).g1 m = w.F (w.ct P m) := if_pos (hg _ hm)
    show (w.F (w.ct P m), w.g2 m) = ((w.swapG P).g1 m, w.g2 m)
    rw [this]
  · funext c
    show (if c = c0 then none else some (w.F c)) = if c = c0 then none else some ((w.swapG P).decF P c)
    congr 2
    show w.F c = if w.ct P (P.dec w.key c) = c then (w.swapG P).g1 (P.dec w.key c) else w.decF P c
    by_cases h : w.ct P (P.dec w.key c) = c
    · have : (w.swapG P).g1 (P.dec w.key c) = w.F (w.ct P (P.dec w.key c)) := if_pos (by unfold W.good; rw [h])
      rw [if_pos h, this, h]
    · rw [if_neg h]
      unfold W.decF
      rw [if_neg h]

theorem bad0_le {qG : Nat} (hq : ∀ pk c k, (A pk c k).QueriesG qG) :
    E (fun w : W Key M K R Z C => ind (∃ m ∈ (w.prog0 P A c0).asked (w.oC0 P c0), ¬ w.good P m)) ≤ qG * failProb P := by
  let bad : W Key M K R Z C → Prop := fun w => ∃ m ∈ (w.prog0 P A c0).asked (w.oC0 P c0), ¬ w.good P m
  have h1 : E (fun w : W Key M K R Z C => ind (bad w)) = E fun x => E fun y => ind (bad (W.takeG.symm (x, y))) := by
    rw [← E_prod (fun p => ind (bad (W.takeG.symm p))), E_equiv W.takeG.symm (fun w => ind (bad w))]
  have h2 : ∀ x : Key × Z × (M → K) × (Z → C → K) × M × K × (C → K) × R, E (fun y => ind (bad (W.takeG.symm (x, y)))) ≤
      qG * E fun r => ind (∃ m, P.dec x.1 (P.enc (P.ek x.1) m r) ≠ m) := fun x => by
    obtain ⟨key, z, g1, J, m, K1, F, r0⟩ := x
    let B : Set R := {r | ∃ m, P.dec key (P.enc (P.ek key) m r) ≠ m}
    have hh := hits_le (M := M) (R := R) (K := K) B (fun m' r' => F (P.enc (P.ek key) m' r')) J (fun c => if c = c0 then none else some (F c))
      (hq (P.ek key) c0 K1) (fun _ => none)
    refine le_trans (E_mono fun g => ind_mono ?_) hh
    rintro ⟨m', h1, h2⟩
    exact ⟨m', h1, rfl, m', h2⟩
  show E (fun w : W Key M K R Z C => ind (bad w)) ≤ _
  rw [h1]
  refine (E_mono h2).trans (le_of_eq ?_)
  rw [E_mul]
  unfold failProb
  rw [E_prod, E_prod]
  simp only [E_const]

omit [Fintype Key] [Fintype M] [DecidableEq M] [Fintype K] [Fintype R] [Fintype Z] [DecidableEq Z] [Fintype C] [DecidableEq C]
  [Nonempty Key] [Nonempty M] [Nonempty K] [Nonempty R] [Nonempty Z] [Fintype V] in
def W.tape1 : W Key M K R Z C ≃ ((M × (M → R) × (Z → C → K) × (C → K) × K) × Key × R) × (Z × (M → K)) where
  toFun x := (((x.m, x.g2, x.J, x.F, x.K1), x.key, x.r), (x.z, x.g1))
  invFun x := ⟨x.1.2.1, x.2.1, x.2.2, x.1.1.2.1, x.1.1.2.2.1, x.1.1.1, x.1.1.2.2.2.2, x.1.1.2.2.2.1, x.1.2.2⟩
  left_inv _ := rfl
  right_inv _ := rfl

omit [Fintype Key] [Fintype M] [DecidableEq M] [Fintype K] [Fintype R] [Fintype Z] [DecidableEq Z] [Fintype C] [DecidableEq C]
  [Nonempty Key] [Nonempty M] [Nonempty K] [Nonempty R] [Nonempty Z] [Fintype V] in
def W.tape0 : W Key M K R Z C ≃ ((M × (M → R) × (Z → C → K) × (C → K) × K) × Key) × (Z × (M → K) × R) where
  toFun x := (((x.m, x.g2, x.J, x.F, x.K1), x.key), (x.z, x.g1, x.r))
  invFun x := ⟨x.1.2, x.2.1, x.2.2.1, x.1.1.2.1, x.1.1.2.2.1, x.1.1.1, x.1.1.2.2.2.2, x.1.1.2.2.2.1, x.2.2.2⟩
  left_inv _ := rfl
  right_inv _ := rfl

/-- The last game on an independent ciphertext. -/
theorem sim_last (sim : V → C) : (E fun v => E fun w : W Key M K R Z C => ind ((w.prog0 P A (sim v)).run (w.oC0 P (sim v)) = true)) = simProb P sim (guessReduction P A) := by
  unfold simProb
  rw [← E_equiv (Equiv.prodAssoc (M × (M → R) × (Z → C → K) × (C → K) × K) Key V), ← E_equiv (Equiv.prodComm V ((M × (M → R) × (Z → C → K) × (C → K) × K) × Key)), E_prod]
  refine congrArg E (funext fun v => ?_)
  refine Eq.trans ?_ (E_fst (β := Z × (M → K) × R) _)
  rw [← E_equiv W.tape0]
  rfl

theorem sim_cca (sim : V → C) [Nonempty V] {qG qJ : Nat} (hG : ∀ pk c k, (A pk c k).QueriesG qG) (hJ : ∀ pk c k, (A pk c k).QueriesJ qJ) :
    |simCcaProb P sim A - simProb P sim (guessReduction P A)| ≤ qJ / Fintype.card Z + qG * failProb P := by
  rw [← sim_last]
  unfold simCcaProb
  refine (E_abs _ _).trans ((E_mono (g := fun _ => qJ / Fintype.card Z + qG * failProb P) fun v => ?_).trans_eq (E_const _))
  have a := hop_J0 (P := P) (A := A) (c0 := sim v) hJ
  have b := (hop_G0 (P := P) (A := A) (c0 := sim v)).trans (bad0_le hG)
  rw [abs_le] at a b ⊢
  constructor <;> linarith [a.1, a.2, b.1, b.2]

/-- The last game on an encryption with fresh coins. -/
def W.fresh (P : Pke Key PK M R C) (A : PK → C → K → Prog M K R Z C) (w : W Key M K R Z C) : Bool :=
  (A (P.ek w.key) (P.enc (P.ek w.key) w.m (w.g2 w.m)) w.K1).run ⟨fun m => (w.F (P.enc (P.ek w.key) m (w.swapR.g2 m)), w.swapR.g2 m), w.J,
    fun c' => if c' = P.enc (P.ek w.key) w.m (w.g2 w.m) then none else some (w.F c')⟩

theorem fresh_last : (E fun w : W Key M K R Z C => ind (w.fresh P A = true)) = cpaProb P (guessReduction P A) true := by
  unfold cpaProb
  rw [← E_invol W.swapR swapR_invol]
  refine Eq.trans ?_ (E_fst (β := Z × (M → K)) _)
  rw [← E_equiv W.tape1]
  refine congrArg E (funext fun w => ?_)
  have e1 : (w.swapR).g2 w.m = w.r := Function.update_self _ _ _
  unfold W.fresh
  show ind ((A (P.ek w.key) (P.enc (P.ek w.key) w.m (w.swapR.g2 w.m)) w.K1).run ⟨fun m => (w.F (P.enc (P.ek w.key) m (w.swapR.swapR.g2 m)), w.swapR.swapR.g2 m), w.J,
    fun c' => if c' = P.enc (P.ek w.key) w.m (w.swapR.g2 w.m) then none else some (w.F c')⟩ = true) = _
  rw [swapR_invol, e1]
  rfl

theorem run_fresh (w : W Key M K R Z C) (h : w.m ∉ (w.progC P A true).asked (w.oC P)) : w.fresh P A = (w.progC P A true).run (w.oC P) := by
  refine (run_congr (O := w.oC P) (O' := ⟨fun m => (w.F (P.enc (P.ek w.key) m (w.swapR.g2 m)), w.swapR.g2 m), w.J,
    fun c' => if c' = P.enc (P.ek w.key) w.m (w.g2 w.m) then none else some (w.F c')⟩) (T := w.progC P A true) (fun m hm => ?_) (fun _ _ => rfl) rfl).1.symm
  have hne : m ≠ w.m := fun e => h (e ▸ hm)
  have e : w.swapR.g2 m = w.g2 m := Function.update_of_ne hne _ _
  show (w.F (P.enc (P.ek w.key) m (w.g2 m)), w.g2 m) = (w.F (P.enc (P.ek w.key) m (w.swapR.g2 m)), w.swapR.g2 m)
  rw [e]

/-- From the real secret, or an independent one, to fresh coins. -/
theorem hop_KR (b : Bool) : |(E fun w : W Key M K R Z C => ind ((w.progC P A b).run (w.oC P) = true)) - E fun w : W Key M K R Z C => ind (w.fresh P A = true)| ≤
    (E fun w : W Key M K R Z C => ind (w.m ∈ (w.progC P A true).asked (w.oC P))) + E fun w => ind (Bad P A true w) := by
  rw [← E_add]
  cases b with
  | true =>
    refine (E_diff (r := fun w => w.m ∈ (w.progC P A true).asked (w.oC P)) fun w hw => ?_).trans (E_mono fun w => ?_)
    · rw [run_fresh w hw]
    · exact le_add_of_nonneg_right (ind_nonneg _)
  | false =>
    rw [← E_invol (W.swapK P) (swapK_invol P)]
    refine (E_diff (r := fun w => w.m ∈ (w.progC P A true).asked (w.oC P) ∨ Bad P A true w) fun w hw => ?_).trans (E_mono fun w => ind_or _ _)
    rw [not_or] at hw
    have hg : ∀ m, m = w.m ∨ m ∈ (w.progC P A true).asked (w.oC P) → w.good P m := fun m h => by
      by_contra hc'
      exact hw.2 ⟨m, by simpa using h, hc'⟩
    have hne : ∀ m, m ∈ (w.progC P A true).asked (w.oC P) → w.ct P m ≠ w.cs P := fun m hm h => by
      have h1 := hg _ (Or.inl rfl)
      have h2 := hg m (Or.inr hm)
      unfold W.good at h1 h2
      rw [h] at h2
      exact hw.1 ((h2.symm.trans h1) ▸ hm)
    have hprog : (w.swapK P).progC P A false = w.progC P A true := by
      show A _ _ (Function.update w.F (w.cs P) w.K1 (w.cs P)) = A _ _ w.K1
      rw [Function.update_self]
      rfl
    rw [hprog, run_fresh w hw.1]
    have := (run_congr (O := w.oC P) (O' := (w.swapK P).oC P) (T := w.progC P A true) (fun m hm => ?_) (fun _ _ => rfl) ?_).1
    · rw [this]
    · show (w.F (w.ct P m), w.g2 m) = (Function.update w.F (w.cs P) w.K1 (w.ct P m), w.g2 m)
      rw [Function.update_of_ne (hne m hm)]
    · funext c
      show (if c = w.cs P then none else some (w.F c)) = if c = w.cs P then none else some (Function.update w.F (w.cs P) w.K1 c)
      by_cases h : c = w.cs P
      · rw [if_pos h, if_pos h]
      · rw [if_neg h, if_neg h, Function.update_of_ne h]

theorem cca_fresh (b : Bool) {qG qJ : Nat} (hG : ∀ pk c k, (A pk c k).QueriesG qG) (hJ : ∀ pk c k, (A pk c k).QueriesJ qJ) :
    |ccaProb P A b - cpaProb P (guessReduction P A) true| ≤
      |cpaProb P (reduction P A) true - cpaProb P (reduction P A) false| + qJ / Fintype.card Z + qG / Fintype.card M + 2 * ((qG + 1) * failProb P) := by
  have a1 := hop_J (P := P) (A := A) b hJ
  have b1 := (hop_G (P := P) (A := A) b).trans (bad_le b hG)
  have k := hop_KR (P := P) (A := A) b
  have c := bad_le (P := P) (A := A) true hG
  have d := hop_other (P := P) hG
  rw [hop_R, fresh_last] at k
  have l := le_abs_self (cpaProb P (reduction P A) true - cpaProb P (reduction P A) false)
  rw [abs_le] at a1 b1 k ⊢
  constructor <;> linarith [a1.1, a1.2, b1.1, b1.2, k.1, k.2]

/-- Ciphertexts of the KEM are as pseudorandom as those of the encryption. -/
theorem cca_sim (sim : V → C) [Nonempty V] (b : Bool) {qG qJ : Nat} (hG : ∀ pk c k, (A pk c k).QueriesG qG) (hJ : ∀ pk c k, (A pk c k).QueriesJ qJ) :
    |ccaProb P A b - simCcaProb P sim A| ≤ |cpaProb P (guessReduction P A) true - simProb P sim (guessReduction P A)| +
      |cpaProb P (reduction P A) true - cpaProb P (reduction P A) false| + 2 * (qJ / Fintype.card Z) + qG / Fintype.card M + (3 * qG + 2) * failProb P := by
  have h1 := cca_fresh (P := P) b hG hJ
  have h2 := sim_cca (P := P) sim hG hJ
  have h3 := le_refl |cpaProb P (guessReduction P A) true - simProb P sim (guessReduction P A)|
  rw [abs_le] at h1 h2 h3 ⊢
  constructor <;> linarith [h1.1, h1.2, h2.1, h2.2, h3.1, h3.2]

end

end

end Verif.Proof
