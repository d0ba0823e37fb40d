import Verif.Spec.Fips202
import Verif.Model.Keccak
import Verif.C.Bytes
import Mathlib.Tactic.FinCases

/-! # The Keccak permutation -/

namespace Verif.Proof
open Verif.Model Verif.Spec

/-- Bit `z` of a lane. -/
def bit (a : UInt64) (z : Fin 64) : Bool := a.toBitVec.getLsbD z.val

theorem bit_xor (a b : UInt64) (z : Fin 64) : bit (a ^^^ b) z = xor (bit a z) (bit b z) := by simp [bit]
theorem bit_and (a b : UInt64) (z : Fin 64) : bit (a &&& b) z = (bit a z && bit b z) := by simp [bit]
theorem bit_not (a : UInt64) (z : Fin 64) : bit (~~~a) z = !bit a z := by simp [bit]

theorem bit_rol (a k : UInt64) (n : Nat) (hk : k = UInt64.ofNat n) (h0 : 0 < n) (h1 : n < 64) (z : Fin 64) :
    bit (rol a k) z = bit a (z - Fin.ofNat 64 n) := by
  subst hk
  have e1 : (UInt64.ofNat n % 64).toNat = n := by simp; omega
  have e2 : ((64 - UInt64.ofNat n) % 64).toNat = 64 - n := by
    have : (64 - UInt64.ofNat n).toNat = 64 - n := by
      rw [UInt64.toNat_sub_of_le _ _ (by rw [UInt64.le_iff_toNat_le]; simp; omega)]
      simp; omega
    rw [UInt64.toNat_mod, this]; simp; omega
  unfold rol bit
  rw [UInt64.toBitVec_xor, BitVec.getLsbD_xor, UInt64.toBitVec_shiftLeft, UInt64.toBitVec_shiftRight]
  simp only [BitVec.shiftLeft_eq', BitVec.ushiftRight_eq', BitVec.getLsbD_shiftLeft, BitVec.getLsbD_ushiftRight]
  have e1' : ((UInt64.ofNat n).toBitVec % 64).toNat = n := e1
  have e2' : ((64 - UInt64.ofNat n).toBitVec % 64).toNat = 64 - n := e2
  rw [e1', e2', Fin.sub_def]
  simp only [Fin.val_ofNat, Nat.mod_eq_of_lt h1]
  have hz := z.isLt
  by_cases h : z.val < n
  · have : (64 - n + z.val) % 64 = 64 - n + z.val := Nat.mod_eq_of_lt (by omega)
    simp [h, this]
  · have : (64 - n + z.val) % 64 = z.val - n := by omega
    have h64 : 64 ≤ 64 - n + z.val := by omega
    rw [BitVec.getLsbD_of_ge _ _ h64]
    simp [h, this]

/-- Lane (x, y) of the 25 variables. -/
def lane (L : Lanes) (x y : Fin 5) : UInt64 :=
  match y, x with
  | 0, 0 => L.ba | 0, 1 => L.be | 0, 2 => L.bi | 0, 3 => L.bo | 0, 4 => L.bu
  | 1, 0 => L.ga | 1, 1 => L.ge | 1, 2 => L.gi | 1, 3 => L.go | 1, 4 => L.gu
  | 2, 0 => L.ka | 2, 1 => L.ke | 2, 2 => L.ki | 2, 3 => L.ko | 2, 4 => L.ku
  | 3, 0 => L.ma | 3, 1 => L.me | 3, 2 => L.mi | 3, 3 => L.mo | 3, 4 => L.mu
  | 4, 0 => L.sa | 4, 1 => L.se | 4, 2 => L.si | 4, 3 => L.so | 4, 4 => L.su

/-- The state array held by the 25 variables. -/
def stateOf (L : Lanes) : KState := fun x y z => bit (lane L x y) z

/-- The rotation offsets. -/
def rhoOff (x y : Fin 5) : Fin 64 :=
  match y, x with
  | 0, 0 => 0 | 0, 1 => 1 | 0, 2 => 62 | 0, 3 => 28 | 0, 4 => 27
  | 1, 0 => 36 | 1, 1 => 44 | 1, 2 => 6 | 1, 3 => 55 | 1, 4 => 20
  | 2, 0 => 3 | 2, 1 => 10 | 2, 2 => 43 | 2, 3 => 25 | 2, 4 => 39
  | 3, 0 => 41 | 3, 1 => 45 | 3, 2 => 15 | 3, 3 => 21 | 3, 4 => 8
  | 4, 0 => 18 | 4, 1 => 2 | 4, 2 => 61 | 4, 3 => 56 | 4, 4 => 14

/-- One step of algorithm 2. -/
def rhoStep (A : KState) (s : KState × Fin 5 × Fin 5) (t : Nat) : KState × Fin 5 × Fin 5 :=
    let x := s.2.1
    let y := s.2.2
    (fun x' y' => if x' = x ∧ y' = y then (fun z => A x y (z - Fin.ofNat 64 ((t + 1) * (t + 2) / 2))) else s.1 x' y', y, 2 * x + 3 * y)

/-- Algorithm 2 on offsets only. -/
def offStep (s : (Fin 5 → Fin 5 → Fin 64) × Fin 5 × Fin 5) (t : Nat) : (Fin 5 → Fin 5 → Fin 64) × Fin 5 × Fin 5 :=
    let x := s.2.1
    let y := s.2.2
    (fun x' y' => if x' = x ∧ y' = y then Fin.ofNat 64 ((t + 1) * (t + 2) / 2) else s.1 x' y', y, 2 * x + 3 * y)

theorem rho_off (A : KState) : ∀ n, ((List.range n).foldl (rhoStep A) (A, 1, 0)).2 = ((List.range n).foldl offStep (fun _ _ => 0, 1, 0)).2 ∧
    ∀ x y z, ((List.range n).foldl (rhoStep A) (A, 1, 0)).1 x y z = A x y (z - ((List.range n).foldl offStep (fun _ _ => 0, 1, 0)).1 x y)
  | 0 => by simp
  | n + 1 => by
    obtain ⟨h1, h2⟩ := rho_off A n
    rw [List.range_succ, List.foldl_append, List.foldl_append, List.foldl_cons, List.foldl_cons, List.foldl_nil, List.foldl_nil]
    generalize (List.range n).foldl (rhoStep A) (A, 1, 0) = r at *
    generalize (List.range n).foldl offStep (fun _ _ => 0, 1, 0) = o at *
    obtain ⟨r, rx, ry⟩ := r
    obtain ⟨o, ox, oy⟩ := o
    simp only [Prod.mk.injEq] at h1
    obtain ⟨rfl, rfl⟩ := h1
    refine ⟨rfl, fun x y z => ?_⟩
    unfold rhoStep offStep
    dsimp only
    by_cases h : x = rx ∧ y = ry
    · rw [if_pos h, if_pos h, h.1, h.2]
    · rw [if_neg h, if_neg h]; exact h2 x y z

theorem off_table : ∀ x y : Fin 5, ((List.range 24).foldl offStep (fun _ _ => 0, 1, 0)).1 x y = rhoOff x y := by decide +kernel

theorem rho_def (A : KState) : rho A = ((List.range 24).foldl (rhoStep A) (A, 1, 0)).1 := by
  unfold rho rhoStep
  with_reducible rfl

theorem rho_eq (A : KState) (x y : Fin 5) (z : Fin 64) : rho A x y z = A x y (z - rhoOff x y) := by
  rw [rho_def, (rho_off A 24).2, off_table]

/-! Lane-level expressions for one round. -/

def laneC (L : Lanes) (x : Fin 5) : UInt64 := lane L x 0 ^^^ lane L x 1 ^^^ lane L x 2 ^^^ lane L x 3 ^^^ lane L x 4
def laneD (L : Lanes) (x : Fin 5) : UInt64 := laneC L (x - 1) ^^^ rol (laneC L (x + 1)) 1
def laneT (L : Lanes) (x y : Fin 5) : UInt64 := lane L x y ^^^ laneD L x
def rolN (a : UInt64) (n : Nat) : UInt64 := match n with | 0 => a | n + 1 => rol a (UInt64.ofNat (n + 1))
def laneB (L : Lanes) (x y : Fin 5) : UInt64 := rolN (laneT L x y) (rhoOff x y).val

/-- Lane (x, y) after pi. -/
def laneP (L : Lanes) (x y : Fin 5) : UInt64 := laneB L (x + 3 * y) x
def laneX (L : Lanes) (x y : Fin 5) : UInt64 := laneP L x y ^^^ (~~~(laneP L (x + 1) y) &&& laneP L (x + 2) y)
def laneR (L : Lanes) (c : UInt64) (x y : Fin 5) : UInt64 := if x = 0 ∧ y = 0 then laneX L x y ^^^ c else laneX L x y

theorem bit_rolN (a : UInt64) (n : Nat) (h : n < 64) (z : Fin 64) : bit (rolN a n) z = bit a (z - Fin.ofNat 64 n) := by
  cases n with
  | zero => simp [rolN]
  | succ n => exact bit_rol a _ (n + 1) rfl (by omega) h z

theorem bit_laneB (L : Lanes) (x y : Fin 5) (z : Fin 64) : bit (laneB L x y) z = rho (theta (stateOf L)) x y z := by
  unfold laneB
  rw [bit_rolN _ _ (rhoOff x y).isLt, rho_eq]
  have : Fin.ofNat 64 (rhoOff x y).val = rhoOff x y := by apply Fin.ext; simp
  rw [this]
  generalize z - rhoOff x y = z
  unfold laneT laneD laneC theta stateOf
  simp only [bit_xor]
  rw [bit_rol _ 1 1 rfl (by omega) (by omega)]
  simp only [bit_xor]
  rfl

theorem bit_laneR (L : Lanes) (c : UInt64) (ir : Nat) (hc : ∀ z, bit c z = RC ir z) (x y : Fin 5) (z : Fin 64) :
    bit (laneR L c x y) z = Rnd (stateOf L) ir x y z := by
  have hX : bit (laneX L x y) z = chi (pi (rho (theta (stateOf L)))) x y z := by
    unfold laneX laneP
    rw [bit_xor, bit_and, bit_not, bit_laneB, bit_laneB, bit_laneB]
    unfold chi pi
    rw [Bool.xor_true]
  unfold laneR Rnd iota
  split
  · rw [bit_xor, hX, hc]
  · exact hX

theorem lane_roundAE (L : Lanes) (c : UInt64) (x y : Fin 5) : lane (roundAE L c) x y = laneR L c x y := by
  fin_cases y <;> fin_cases x <;> rfl

theorem lane_roundEA (L : Lanes) (c : UInt64) (x y : Fin 5) : lane (roundEA L c) x y = laneR L c x y := by
  fin_cases y <;> fin_cases x <;> rfl

theorem roundAE_eq (L : Lanes) (c : UInt64) (ir : Nat) (hc : ∀ z, bit c z = RC ir z) :
    stateOf (roundAE L c) = Rnd (stateOf L) ir := by
  funext x y z
  unfold stateOf
  rw [lane_roundAE]
  exact bit_laneR L c ir hc x y z

theorem roundEA_eq (L : Lanes) (c : UInt64) (ir : Nat) (hc : ∀ z, bit c z = RC ir z) :
    stateOf (roundEA L c) = Rnd (stateOf L) ir := by
  funext x y z
  unfold stateOf
  rw [lane_roundEA]
  exact bit_laneR L c ir hc x y z

/-- The table of round constants agrees with the shift register. -/
theorem rc_table : ∀ ir : Fin 24, ∃ c, KeccakF_RoundConstants[ir.val]? = some (some c) ∧ ∀ z, bit c z = RC ir.val z := by
  have : ∀ ir : Fin 24, ∀ z, bit ((KeccakF_RoundConstants[ir.val]?.getD none).getD 0) z = RC ir.val z := by decide +kernel
  intro ir
  refine ⟨(KeccakF_RoundConstants[ir.val]?.getD none).getD 0, ?_, this ir⟩
  fin_cases ir <;> rfl

end Verif.Proof
