import Verif.Proof.Zq

/-! # Polynomials in memory: residues and bounds of the coefficients -/

namespace Verif.Proof
open Verif.Model Verif.Spec

/-- Cell `i` of `r` holds a value of residue `v` and absolute value at most `B`. -/
def Coef (r : Mem Int16) (i : Nat) (v : Zq) (B : Int) : Prop :=
  ∃ x, r[i]? = some (some x) ∧ zq x = v ∧ -B ≤ x.toInt ∧ x.toInt ≤ B

theorem Coef.mono {r : Mem Int16} {i : Nat} {v : Zq} {B B' : Int} (h : Coef r i v B) (hB : B ≤ B') : Coef r i v B' := by
  obtain ⟨x, h1, h2, h3, h4⟩ := h
  exact ⟨x, h1, h2, by omega, by omega⟩

theorem Coef.set_self {r : Mem Int16} {i : Nat} {v : Zq} {B : Int} (x : Int16) (hi : i < r.size) (hv : zq x = v)
    (h1 : -B ≤ x.toInt) (h2 : x.toInt ≤ B) : Coef (r.setIfInBounds i (some x)) i v B :=
  ⟨x, by rw [Mem.get?_set hi, if_pos rfl], hv, h1, h2⟩

theorem Coef.set_ne {r : Mem Int16} {i j : Nat} {v : Zq} {B : Int} {c : Option Int16} (h : Coef r j v B)
    (hij : i ≠ j) : Coef (r.setIfInBounds i c) j v B := by
  obtain ⟨x, h1, h2⟩ := h
  refine ⟨x, ?_, h2⟩
  rw [Array.getElem?_setIfInBounds_ne hij]; exact h1

theorem Coef.runs_rd {r : Mem Int16} {i : Nat} {v : Zq} {B : Int} (h : Coef r i v B) {Q : Int16 → Prop}
    (hQ : ∀ x, zq x = v → -B ≤ x.toInt → x.toInt ≤ B → Q x) : Runs (rd r i) Q := by
  obtain ⟨x, h1, h2, h3, h4⟩ := h
  rw [runs_rd_of h1]; exact hQ x h2 h3 h4

theorem Coef.lt_size {r : Mem Int16} {i : Nat} {v : Zq} {B : Int} (h : Coef r i v B) : i < r.size := by
  obtain ⟨x, h1, _⟩ := h
  exact (Array.getElem?_eq_some_iff.mp h1).1

/-- `r` is a polynomial with residues `f` and coefficients of absolute value at most `B`. -/
structure PolyIs (r : Mem Int16) (f : Nat → Zq) (B : Int) : Prop where
  size : r.size = 256
  coef : ∀ i, i < 256 → Coef r i (f i) B

theorem PolyIs.mono {r : Mem Int16} {f : Nat → Zq} {B B' : Int} (h : PolyIs r f B) (hB : B ≤ B') : PolyIs r f B' :=
  ⟨h.size, fun i hi => (h.coef i hi).mono hB⟩

theorem PolyIs.congr {r : Mem Int16} {f g : Nat → Zq} {B : Int} (h : PolyIs r f B) (hfg : ∀ i, i < 256 → f i = g i) :
    PolyIs r g B := ⟨h.size, fun i hi => hfg i hi ▸ h.coef i hi⟩

/-- A loop over all coefficients in which iteration `i` stores a value of residue `f i` and bound `B` into cell `i`. The body may
use that the cells from `i` on are still those of the initial memory. -/
theorem runs_polyloop {r : Mem Int16} {f : Nat → Zq} {B : Int} {body : Nat → Mem Int16 → C (Mem Int16)}
    (hr : r.size = 256)
    (h : ∀ i m, i < 256 → m.size = 256 → (∀ j, i ≤ j → m[j]? = r[j]?) →
      Runs (body i m) (fun m' => ∃ x, m' = m.setIfInBounds i (some x) ∧ zq x = f i ∧ -B ≤ x.toInt ∧ x.toInt ≤ B)) :
    Runs (cfor 0 256 r body) (fun m => PolyIs m f B) := by
  refine (runs_cfor (fun i m => m.size = 256 ∧ (∀ j, i ≤ j → m[j]? = r[j]?) ∧ ∀ j, j < i → Coef m j (f j) B)
    (Nat.zero_le _) ⟨hr, fun _ _ => rfl, fun j hj => by omega⟩ ?_).mono fun m ⟨h1, _, h2⟩ => ⟨h1, h2⟩
  rintro i m _ hi ⟨hs, hf, hc⟩
  refine (h i m hi hs hf).mono ?_
  rintro m' ⟨x, rfl, h1, h2, h3⟩
  refine ⟨by simp [hs], fun j hj => ?_, fun j hj => ?_⟩
  · rw [Array.getElem?_setIfInBounds_ne (by omega)]; exact hf j (by omega)
  · by_cases hji : j = i
    · subst hji; exact Coef.set_self x (by omega) h1 h2 h3
    · exact (hc j (by omega)).set_ne (by omega)

theorem Coef.frame {r m : Mem Int16} {i : Nat} {v : Zq} {B : Int} (h : Coef r i v B) (hm : m[i]? = r[i]?) :
    Coef m i v B := by
  obtain ⟨x, h1, h2⟩ := h
  exact ⟨x, hm.trans h1, h2⟩

end Verif.Proof
