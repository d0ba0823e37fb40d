import Verif.Model.InitNtt
import Verif.C.Logic
import Verif.Proof.Reduce

/-! # The generator of the table of zetas -/

set_option autoImplicit false

namespace Verif.Proof
open Verif.Model

/-- The powers of 17 in Montgomery form. -/
def powList : List Int16 := [-1044, -1103, 1223, 817, 573, -246, -853, -1185, -171, 422, 516, -1215, -681, -1590, -398, -108, 1493, -1251, -1293, 1322, -829, -777, 107, -1510, 962, -291, -1618, -874, -1542, 418, 448, 958, -359, 555, -552, 603, 264, 1159, -271, -1278, 1577, 177, -320, 1218, 732, -872, -1508, 996, 287, 1550, -282, -1465, -1602, -602, -247, -870, -1474, 1574, 126, -1187, -205, -156, 677, 1522, -758, 430, 652, 1097, -1325, 778, -90, -1530, 622, 587, -8, -136, 1017, 644, 961, -308, 1422, 871, 1491, -1285, 1458, 1483, -1421, -854, -1202, -460, -1162, 220, 411, 329, -1065, -1460, -1517, 843, 1015, 610, 383, -147, 830, 794, 182, -235, -666, -1335, 608, 349, -725, 991, 202, 105, -1544, 384, -130, 1119, -951, 478, 1468, -1676, 1469, -1659, -1571, -75, -1275, 1628]

/-- The first loop. -/
def tmpProg : C (Mem Int16) := do
  let tmp ← wr (Mem.uninit Int16 128) 0 (i16 MONT)
  cfor 1 128 tmp fun i tmp => do
    let x ← rd tmp (i - 1)
    wr tmp i (← fqmul x (i16 ((MONT * KYBER_ROOT_OF_UNITY).tmod KYBER_Q)))

/-- The body of the second loop. -/
def zetaStep (tmp : Mem Int16) (i : Nat) (zetas : Mem Int16) : C (Mem Int16) := do
  let t ← rd (Mem.ofList treeList) i
  let zetas ← wr zetas i (← rd tmp t.toNat)
  let z ← rd zetas i
  let zetas ← cif (decide (z.toInt > (KYBER_Q / 2 : Nat))) (do
    let z ← rd zetas i
    wr zetas i (← i16c (← isub z.toInt KYBER_Q))) (pure zetas)
  let z ← rd zetas i
  cif (decide (z.toInt < (-(KYBER_Q : Int)).tdiv 2)) (do
    let z ← rd zetas i
    wr zetas i (← i16c (← iadd z.toInt KYBER_Q))) (pure zetas)

theorem init_ntt_eq (z : Mem Int16) : init_ntt z = tmpProg >>= fun tmp => cfor 0 128 z (zetaStep tmp) := by
  unfold init_ntt tmpProg
  rw [bind_assoc]
  rfl

theorem init_tmp : Runs tmpProg (fun t => t = Mem.ofList powList) := by decide +kernel

theorem zetas_length : zetasList.length = 128 := by decide +kernel

attribute [irreducible] tmpProg

/-- One step of the second loop on its own cell. -/
def cell (i : Nat) : Bool :=
  match treeList[i]?, zetasList[i]? with
  | some t, some z =>
    match powList[t.toNat]? with
    | some x =>
      let y := if x.toInt > 1664 then i16 (x.toInt - 3329) else x
      let w := if y.toInt < -1664 then i16 (y.toInt + 3329) else y
      decide (w = z ∧ -3329 < x.toInt ∧ x.toInt < 3329)
    | none => false
  | _, _ => false

theorem cell_all : ∀ i < 128, cell i = true := by decide +kernel

theorem cell_spec (i : Nat) (hi : i < 128) : ∃ t x z, treeList[i]? = some t ∧ powList[t.toNat]? = some x ∧ zetasList[i]? = some z ∧ -3329 < x.toInt ∧ x.toInt < 3329 ∧
    (let y := if x.toInt > 1664 then i16 (x.toInt - 3329) else x
     (if y.toInt < -1664 then i16 (y.toInt + 3329) else y) = z) := by
  have h := cell_all i hi
  unfold cell at h
  split at h
  · rename_i t z ht hz
    split at h
    · rename_i x hx
      have h := of_decide_eq_true h
      exact ⟨t, x, z, ht, hx, hz, h.2.1, h.2.2, h.1⟩
    · exact absurd h (by decide)
  · exact absurd h (by decide)

theorem ofList_get {α : Type} (l : List α) (i : Nat) {x : α} (h : l[i]? = some x) : (Mem.ofList l)[i]? = some (some x) := by
  unfold Mem.ofList
  rw [List.getElem?_toArray, List.getElem?_map, h]
  rfl


attribute [local irreducible] i16 treeList zetasList powList

theorem step_runs (tmp r : Mem Int16) (i : Nat) (hs : i < r.size) {t : UInt8} {x w : Int16} (h1 : treeList[i]? = some t) (h2 : tmp[t.toNat]? = some (some x))
    (h4 : -3329 < x.toInt) (h5 : x.toInt < 3329)
    (h6 : (let y := if x.toInt > 1664 then i16 (x.toInt - 3329) else x
           if y.toInt < -1664 then i16 (y.toInt + 3329) else y) = w) :
    Runs (zetaStep tmp i r) (fun r' => r' = r.setIfInBounds i (some w)) := by
  unfold zetaStep
  have e : ∀ (m : Mem Int16) (v : Int16), i < m.size → (m.setIfInBounds i (some v))[i]? = some (some v) := fun m v h => by
    rw [Array.getElem?_setIfInBounds_self_of_lt h]
  have q1 : ((KYBER_Q / 2 : Nat) : Int) = 1664 := rfl
  have q2 : (-(KYBER_Q : Int)).tdiv 2 = -1664 := rfl
  have q3 : ((KYBER_Q : Nat) : Int) = 3329 := rfl
  rw [runs_bind, runs_rd_of (ofList_get _ _ h1), runs_bind, runs_rd_of h2, runs_bind, runs_wr]
  refine ⟨hs, ?_⟩
  rw [runs_bind, runs_rd_of (e r x hs), runs_bind, q1, q2, q3, runs_cif]
  have sz : ∀ v : Int16, i < (r.setIfInBounds i (some v)).size := fun v => by rw [Array.size_setIfInBounds]; exact hs
  have tail : ∀ y : Int16, -3329 < y.toInt → y.toInt < 3329 → (if y.toInt < -1664 then i16 (y.toInt + 3329) else y) = w →
      Runs (rd (r.setIfInBounds i (some y)) i >>= fun z => cif (decide (z.toInt < -1664)) (do
        let z ← rd (r.setIfInBounds i (some y)) i
        wr (r.setIfInBounds i (some y)) i (← i16c (← iadd z.toInt 3329))) (pure (r.setIfInBounds i (some y)))) (fun r' => r' = r.setIfInBounds i (some w)) := fun y y1 y2 hw => by
    rw [runs_bind, runs_rd_of (e r y hs), runs_cif]
    refine ⟨fun h => ?_, fun h => ?_⟩
    · have h := of_decide_eq_true h
      rw [if_pos h] at hw
      rw [runs_bind, runs_rd_of (e r y hs), runs_bind, runs_iadd]
      refine ⟨⟨by omega, by omega⟩, ?_⟩
      rw [runs_bind, runs_i16c]
      refine ⟨⟨by omega, by omega⟩, ?_⟩
      rw [runs_wr]
      refine ⟨sz y, ?_⟩
      rw [Array.setIfInBounds_setIfInBounds, hw]
    · have h := of_decide_eq_false h
      rw [if_neg h] at hw
      rw [runs_pure, hw]
  refine ⟨fun h => ?_, fun h => ?_⟩
  · have h := of_decide_eq_true h
    rw [runs_bind, runs_rd_of (e r x hs), runs_bind, runs_isub]
    refine ⟨⟨by omega, by omega⟩, ?_⟩
    rw [runs_bind, runs_i16c]
    refine ⟨⟨by omega, by omega⟩, ?_⟩
    rw [runs_wr]
    refine ⟨sz x, ?_⟩
    rw [Array.setIfInBounds_setIfInBounds]
    have hv : (i16 (x.toInt - 3329)).toInt = x.toInt - 3329 := toInt_i16_of (by omega) (by omega)
    rw [if_pos h] at h6
    exact tail _ (by rw [hv]; omega) (by rw [hv]; omega) h6
  · have h := of_decide_eq_false h
    rw [if_neg h] at h6
    rw [runs_pure]
    exact tail x h4 h5 h6

theorem table_runs (n : Nat) (tmp z : Mem Int16) (hz : z.size = n) (Z : List Int16) (hsz : Z.length = n)
    (cs : ∀ i < n, ∃ (t : UInt8) (x w : Int16), treeList[i]? = some t ∧ tmp[t.toNat]? = some (some x) ∧ Z[i]? = some w ∧ -3329 < x.toInt ∧ x.toInt < 3329 ∧
      (let y := if x.toInt > 1664 then i16 (x.toInt - 3329) else x
       (if y.toInt < -1664 then i16 (y.toInt + 3329) else y) = w)) :
    Runs (cfor 0 n z (zetaStep tmp)) (fun r => r = Mem.ofList Z) := by
  have loop := runs_cfor (lo := 0) (hi := n) (s := z) (body := zetaStep tmp) (fun i r => r.size = n ∧ ∀ j < i, r[j]? = some Z[j]?) (Nat.zero_le _)
    ⟨hz, fun j hj => absurd hj (Nat.not_lt_zero j)⟩ ?_
  · refine loop.mono ?_
    rintro r ⟨hs, hr⟩
    refine Array.ext_getElem? fun j => ?_
    by_cases hj : j < n
    · rw [hr j hj]
      obtain ⟨t, x, w, h1, h2, h3, _⟩ := cs j hj
      rw [ofList_get _ _ h3, h3]
    · rw [Array.getElem?_eq_none (by omega), Array.getElem?_eq_none (by
        unfold Mem.ofList
        rw [List.size_toArray, List.length_map]
        omega)]
  · intro i r _ hi ⟨hs, hr⟩
    obtain ⟨t, x, w, h1, h2, h3, h4, h5, h6⟩ := cs i hi
    refine (step_runs _ r i (by omega) h1 h2 h4 h5 h6).mono ?_
    rintro _ rfl
    refine ⟨by rw [Array.size_setIfInBounds, hs], fun j hj => ?_⟩
    rw [Array.getElem?_setIfInBounds]
    by_cases e : i = j
    · subst e
      rw [if_pos rfl, if_pos (by omega), h3]
    · rw [if_neg e]
      exact hr j (by omega)

theorem init_ntt_runs (z : Mem Int16) (hz : z.size = 128) : Runs (init_ntt z) (fun r => r = Mem.ofList zetasList) := by
  rw [init_ntt_eq, runs_bind]
  refine Runs.mono init_tmp ?_
  rintro _ rfl
  refine table_runs 128 _ z hz _ zetas_length fun i hi => ?_
  obtain ⟨t, x, w, h1, h2, h3⟩ := cell_spec i hi
  exact ⟨t, x, w, h1, ofList_get _ _ h2, h3⟩

end Verif.Proof
