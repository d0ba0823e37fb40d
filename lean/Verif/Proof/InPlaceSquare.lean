import Verif.Proof.InPlace
import Verif.Proof.Zq

/-! # The square of X in place and with a result of its own -/

namespace Verif.Model
open Verif Verif.Proof

theorem runs_fq0 {x : Int16} {Q : Int16 → Prop} (h : Q 0) : Runs (fqmul 0 x) Q := by
  unfold fqmul
  rw [runs_bind, runs_imul, show (0 : Int16).toInt = 0 from rfl, Int.zero_mul]
  exact ⟨by decide, h⟩

theorem runs_fq {x y z : Int16} {Q : Int16 → Prop} (e : fqmul x y = .ok z []) (h : Q z) : Runs (fqmul x y) Q := by
  rw [e]; exact h

theorem runs_sum {x y : Int16} {Q : Int16 → Prop} (h1 : -32768 ≤ x.toInt + y.toInt) (h2 : x.toInt + y.toInt ≤ 32767) (h : Q (i16 (x.toInt + y.toInt))) :
    Runs (iadd x.toInt y.toInt) (fun e => Runs (i16c e) Q) := by
  rw [runs_iadd, runs_i16c]
  exact ⟨⟨by omega, by omega⟩, ⟨h1, h2⟩, h⟩

theorem set_same {Y : Mem Int16} {i : Nat} {v : Option Int16} (h : Y[i]? = some v) : Y.setIfInBounds i v = Y := by
  apply Array.ext_getElem?
  intro j
  rw [Array.getElem?_setIfInBounds]
  by_cases e : i = j
  · subst e
    rw [if_pos rfl, if_pos (Array.getElem?_eq_some_iff.mp h).1, h]
  · rw [if_neg e]

/-- A step at coefficients that are 0 changes nothing. -/
theorem zero_in {Y : Mem Int16} {a b : Nat} {u v z : Int16} (e0 : Y[a]? = some (some 0)) (e1 : Y[a + 1]? = some (some 0)) (f0 : Y[b]? = some (some u)) (f1 : Y[b + 1]? = some (some v))
    {Q : Mem Int16 → Prop} (h : Q Y) : Runs (basemul_in Y a a b z) Q := by
  have w0 := set_same e0
  have w1 := set_same e1
  have l0 := (Array.getElem?_eq_some_iff.mp e0).1
  have l1 := (Array.getElem?_eq_some_iff.mp e1).1
  unfold basemul_in
  simp only [Nat.add_zero, runs_bind, runs_rd_of e1, runs_rd_of f1]
  refine runs_fq0 ?_
  rw [runs_wr, w0]
  refine ⟨l0, ?_⟩
  rw [runs_rd_of e0]
  refine runs_fq0 ?_
  rw [runs_wr, w0]
  refine ⟨l0, ?_⟩
  rw [runs_rd_of e0, runs_rd_of f0]
  refine runs_fq0 ?_
  rw [runs_rd_of e0]
  refine runs_sum (by decide) (by decide) ?_
  rw [runs_wr, show i16 ((0 : Int16).toInt + (0 : Int16).toInt) = 0 from rfl, w0]
  refine ⟨l0, ?_⟩
  rw [runs_rd_of e0, runs_rd_of f1]
  refine runs_fq0 ?_
  rw [runs_wr, w1]
  refine ⟨l1, ?_⟩
  rw [runs_rd_of e1, runs_rd_of f0]
  refine runs_fq0 ?_
  rw [runs_rd_of e1]
  refine runs_sum (by decide) (by decide) ?_
  rw [runs_wr, show i16 ((0 : Int16).toInt + (0 : Int16).toInt) = 0 from rfl, w1]
  exact ⟨l1, h⟩

private theorem get_set {Y : Mem Int16} {i j : Nat} {v : Int16} (h : i < Y.size) : (Y.setIfInBounds i (some v))[j]? = if i = j then some (some v) else Y[j]? := by
  rw [Array.getElem?_setIfInBounds]
  by_cases e : i = j
  · subst e
    rw [if_pos rfl, if_pos rfl, if_pos h]
  · rw [if_neg e, if_neg e]

/-- The same with a result of its own. -/
theorem zero_sep {r a b : Mem Int16} {o : Nat} {u v z : Int16} (e0 : a[o]? = some (some 0)) (e1 : a[o + 1]? = some (some 0)) (f0 : b[o]? = some (some u)) (f1 : b[o + 1]? = some (some v))
    (hl : o + 1 < r.size) {Q : Mem Int16 → Prop}
    (h : ∀ r' : Mem Int16, r'.size = r.size → (∀ j, r'[j]? = if j = o ∨ j = o + 1 then some (some 0) else r[j]?) → Q r') : Runs (basemul r a b o z) Q := by
  have l0 : o < r.size := by omega
  unfold basemul
  simp only [Nat.add_zero, runs_bind, runs_rd_of e1, runs_rd_of f1, runs_rd_of e0, runs_rd_of f0, runs_wr, Array.size_setIfInBounds]
  refine runs_fq0 ⟨l0, ?_⟩
  rw [runs_rd_of (v := 0) (by rw [get_set l0, if_pos rfl])]
  refine runs_fq0 ⟨l0, runs_fq0 ?_⟩
  rw [runs_rd_of (v := 0) (by rw [get_set (by simpa using l0), if_pos rfl])]
  refine runs_sum (by decide) (by decide) ⟨l0, runs_fq0 ⟨hl, runs_fq0 ?_⟩⟩
  rw [runs_rd_of (v := 0) (by rw [get_set (by simpa using hl), if_pos rfl])]
  refine runs_sum (by decide) (by decide) ⟨hl, ?_⟩
  refine h _ (by simp) fun j => ?_
  rw [show i16 ((0 : Int16).toInt + (0 : Int16).toInt) = 0 from rfl]
  rw [get_set (by simpa using hl), get_set (by simpa using hl), get_set (by simpa using l0), get_set (by simpa using l0), get_set (by simpa using l0)]
  by_cases c1 : j = o
  · subst c1; simp
  · by_cases c2 : j = o + 1
    · subst c2; simp
    · simp [c1, c2, Ne.symm c1, Ne.symm c2]

private theorem zeta0 : zetas[64 + 0]? = some (some (-1103 : Int16)) := by
  unfold zetas
  decide +kernel

variable {v : Poly} (hv : v.size = 256) (hg : ∀ j, j < 256 → v[j]? = some (some (if j = 1 then 1 else 0)))
include hv hg

theorem square_sep : Runs (poly_basemul_montgomery v v v) (fun r => r[1]? = some (some 0)) := by
  refine (runs_cfor (Inv := fun k (r : Poly) => r.size = 256 ∧ (0 < k → r[1]? = some (some 0))) (by decide) ⟨hv, fun h => absurd h (Nat.lt_irrefl _)⟩
    fun k r _ hk hI => ?_).mono fun r h => h.2 (by decide)
  have hk : k < 64 := hk
  have z : ∀ j, j < 256 → j ≠ 1 → v[j]? = some (some 0) := fun j hj h => by rw [hg j hj, if_neg h]
  have tail : ∀ r : Poly, r.size = 256 → r[1]? = some (some 0) → Runs (do
      let z ← ineg (← rd zetas (64 + k)).toInt
      basemul r v v (4 * k + 2) (← i16c z)) (fun r => r.size = 256 ∧ (0 < k + 1 → r[1]? = some (some 0))) := fun r hr h1 => by
    simp only [runs_bind]
    refine runs_zeta (by omega) fun ze _ l1 l2 => ?_
    rw [runs_ineg, runs_i16c]
    refine ⟨⟨by omega, by omega⟩, ⟨by omega, by omega⟩, ?_⟩
    refine zero_sep (z _ (by omega) (by omega)) (z _ (by omega) (by omega)) (hg _ (by omega)) (hg _ (by omega)) (by omega) fun r' hs hr' => ⟨by omega, fun _ => ?_⟩
    rw [hr' 1, if_neg (by omega), h1]
  rw [runs_bind]
  by_cases c : k = 0
  · subst c
    rw [runs_rd_of zeta0, runs_bind]
    have l0 : 0 < r.size := by omega
    have l1 : 1 < r.size := by omega
    have g0 := z 0 (by omega) (by omega)
    have g1 : v[1]? = some (some 1) := hg 1 (by omega)
    refine Runs.mono (P := fun r' : Poly => r'.size = 256 ∧ r'[1]? = some (some 0)) ?_ fun r' h => tail r' h.1 h.2
    unfold basemul
    simp only [Nat.mul_zero, Nat.zero_add, runs_bind, runs_rd_of g0, runs_rd_of g1, runs_wr, Array.size_setIfInBounds]
    refine runs_fq (z := 169) rfl ⟨l0, ?_⟩
    rw [runs_rd_of (v := 169) (by rw [get_set l0, if_pos rfl])]
    refine runs_fq (z := -456) rfl ⟨l0, runs_fq0 ?_⟩
    rw [runs_rd_of (v := -456) (by rw [get_set (by simpa using l0), if_pos rfl])]
    refine runs_sum (by decide) (by decide) ⟨l0, runs_fq0 ⟨l1, runs_fq (z := 0) rfl ?_⟩⟩
    rw [runs_rd_of (v := 0) (by rw [get_set (by simpa using l1), if_pos rfl])]
    refine runs_sum (by decide) (by decide) ⟨l1, ?_⟩
    exact ⟨by simpa using hI.1, by rw [get_set (by simpa using l1), if_pos rfl]; rfl⟩
  · refine runs_zeta (by omega) fun ze _ _ _ => ?_
    rw [runs_bind]
    refine zero_sep (z _ (by omega) (by omega)) (z _ (by omega) (by omega)) (hg _ (by omega)) (hg _ (by omega)) (by omega) fun r' hs hr' => ?_
    have := tail r' (by omega) (by rw [hr' 1, if_neg (by omega), hI.2 (by omega)])
    simp only [runs_bind] at this
    simp only [runs_bind]
    exact this

theorem square_in : Runs (poly_basemul_montgomery_in (v ++ v) 0 0 256) (fun X => X[1]? = some (some (-497 : Int16))) := by
  have z : ∀ j, j < 512 → (v ++ v)[j]? = some (some (if j = 1 ∨ j = 257 then 1 else 0)) := fun j hj => by
    by_cases c : j < 256
    · rw [Array.getElem?_append_left (by omega), hg j c]
      simp [show (j = 1 ∨ j = 257) ↔ j = 1 by omega]
    · rw [Array.getElem?_append_right (by omega), hv, hg _ (by omega)]
      simp [show (j = 1 ∨ j = 257) ↔ j - 256 = 1 by omega]
  have hs : (v ++ v).size = 512 := by rw [Array.size_append]; omega
  generalize v ++ v = X at z hs ⊢
  refine (runs_cfor (Inv := fun k (Y : Mem Int16) => Y.size = 512 ∧ (∀ j, 2 ≤ j → Y[j]? = X[j]?) ∧ if k = 0 then Y = X else Y[1]? = some (some (-497 : Int16))) (by decide)
    ⟨hs, fun _ _ => rfl, by simp⟩ fun k Y _ hk hI => ?_).mono fun Y h => h.2.2
  have hk : k < 64 := hk
  have tail : ∀ Y : Mem Int16, Y.size = 512 → (∀ j, 2 ≤ j → Y[j]? = X[j]?) → Y[1]? = some (some (-497 : Int16)) → Runs (do
      let z ← ineg (← rd zetas (64 + k)).toInt
      basemul_in Y (0 + (4 * k + 2)) (0 + (4 * k + 2)) (256 + (4 * k + 2)) (← i16c z))
      (fun Y => Y.size = 512 ∧ (∀ j, 2 ≤ j → Y[j]? = X[j]?) ∧ if k + 1 = 0 then Y = X else Y[1]? = some (some (-497 : Int16))) := fun Y hY h2 h1 => by
    simp only [runs_bind]
    refine runs_zeta (by omega) fun ze _ l1 l2 => ?_
    rw [runs_ineg, runs_i16c]
    refine ⟨⟨by omega, by omega⟩, ⟨by omega, by omega⟩, ?_⟩
    refine zero_in (u := _) (v := _) ?_ ?_ ((h2 _ (by omega)).trans (z _ (by omega))) ((h2 _ (by omega)).trans (z _ (by omega))) ⟨hY, h2, by rwa [if_neg (by omega)]⟩
    · rw [h2 _ (by omega), z _ (by omega), if_neg (by omega)]
    · rw [h2 _ (by omega), z _ (by omega), if_neg (by omega)]
  rw [runs_bind]
  by_cases c : k = 0
  · subst c
    obtain ⟨-, -, e⟩ := hI
    rw [if_pos rfl] at e
    subst e
    rw [runs_rd_of zeta0, runs_bind]
    have l0 : 0 < Y.size := by omega
    have l1 : 1 < Y.size := by omega
    have g0 : Y[0]? = some (some 0) := z 0 (by omega)
    have g1 : Y[1]? = some (some 1) := z 1 (by omega)
    have b0 : Y[256]? = some (some 0) := z 256 (by omega)
    have b1 : Y[257]? = some (some 1) := z 257 (by omega)
    refine Runs.mono (P := fun Y' : Mem Int16 => Y'.size = 512 ∧ (∀ j, 2 ≤ j → Y'[j]? = Y[j]?) ∧ Y'[1]? = some (some (-497 : Int16))) ?_ fun Y' h => tail Y' h.1 h.2.1 h.2.2
    unfold basemul_in
    simp only [Nat.mul_zero, Nat.zero_add, Nat.add_zero, runs_bind, runs_rd_of g1, Nat.reduceAdd, runs_rd_of b1, runs_wr, Array.size_setIfInBounds]
    refine runs_fq (z := 169) rfl ⟨l0, ?_⟩
    rw [runs_rd_of (v := 169) (by rw [get_set l0, if_pos rfl])]
    refine runs_fq (z := -456) rfl ⟨l0, ?_⟩
    rw [runs_rd_of (v := -456) (by rw [get_set (by simpa using l0), if_pos rfl]), runs_rd_of (v := 0) (by rw [get_set (by simpa using l0), get_set l0]; simpa using b0)]
    refine runs_fq (z := 0) rfl ?_
    rw [runs_rd_of (v := -456) (by rw [get_set (by simpa using l0), if_pos rfl])]
    refine runs_sum (by decide) (by decide) ⟨l0, ?_⟩
    rw [show i16 ((-456 : Int16).toInt + (0 : Int16).toInt) = -456 from rfl]
    rw [runs_rd_of (v := -456) (by rw [get_set (by simpa using l0), if_pos rfl]),
      runs_rd_of (v := 1) (by rw [get_set (by simpa using l0), get_set (by simpa using l0), get_set l0]; simpa using b1)]
    refine runs_fq (z := -497) rfl ⟨l1, ?_⟩
    rw [runs_rd_of (v := -497) (by rw [get_set (by simpa using l1), if_pos rfl]),
      runs_rd_of (v := 0) (by rw [get_set (by simpa using l1), get_set (by simpa using l0), get_set (by simpa using l0), get_set l0]; simpa using b0)]
    refine runs_fq (z := 0) rfl ?_
    rw [runs_rd_of (v := -497) (by rw [get_set (by simpa using l1), if_pos rfl])]
    refine runs_sum (by decide) (by decide) ⟨l1, ?_⟩
    refine ⟨by simpa using hs, fun j hj => ?_, by rw [get_set (by simpa using l1), if_pos rfl]; rfl⟩
    rw [get_set (by simpa using l1), get_set (by simpa using l1), get_set (by simpa using l0), get_set (by simpa using l0), get_set l0]
    simp [show ¬ (1 = j) by omega, show ¬ (0 = j) by omega]
  · obtain ⟨hY, h2, h1⟩ := hI
    rw [if_neg c] at h1
    refine runs_zeta (by omega) fun ze _ _ _ => ?_
    rw [runs_bind]
    rw [Nat.zero_add]
    refine zero_in (u := _) (v := _) ?_ ?_ ((h2 _ (by omega)).trans (z _ (by omega))) ((h2 _ (by omega)).trans (z _ (by omega))) ?_
    · rw [h2 _ (by omega), z _ (by omega), if_neg (by omega)]
    · rw [h2 _ (by omega), z _ (by omega), if_neg (by omega)]
    have := tail Y hY h2 h1
    simp only [runs_bind] at this
    simp only [runs_bind]
    exact this

end Verif.Model
