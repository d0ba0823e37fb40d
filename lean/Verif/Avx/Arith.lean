import Verif.Avx.NttSym
import Verif.Avx.Bridge
import Verif.Proof.Poly
import Mathlib.Tactic.IntervalCases

/-! # Arithmetic of the vector idioms, and the network of the forward NTT -/

namespace Verif.Avx
open Verif.Spec Verif.Proof Verif.Model

/-- Residue of a lane. -/
def zw (a : W) : Zq := ((a.toInt : Int) : Zq)

theorem w_bounds (a : W) : -32768 ≤ a.toInt ∧ a.toInt ≤ 32767 := by
  have h1 := BitVec.le_toInt a
  have h2 := BitVec.toInt_lt (x := a)
  simp at h1 h2
  omega

theorem bmod16 {x : Int} (h1 : -32768 ≤ x) (h2 : x ≤ 32767) : x.bmod 65536 = x := by
  rw [Int.bmod_def]; split <;> omega

theorem bmod16_ex (x : Int) : ∃ k, x.bmod 65536 = x - 65536 * k := by
  rw [Int.bmod_def]; split
  · exact ⟨x / 65536, by push_cast; omega⟩
  · exact ⟨x / 65536 + 1, by push_cast; omega⟩

theorem toInt_addW {a b : W} (h1 : -32768 ≤ a.toInt + b.toInt) (h2 : a.toInt + b.toInt ≤ 32767) : (a + b).toInt = a.toInt + b.toInt := by
  rw [BitVec.toInt_add]; exact bmod16 h1 h2

theorem toInt_subW {a b : W} (h1 : -32768 ≤ a.toInt - b.toInt) (h2 : a.toInt - b.toInt ≤ 32767) : (a - b).toInt = a.toInt - b.toInt := by
  rw [BitVec.toInt_sub]; exact bmod16 h1 h2

theorem toInt_mulhi (a b : W) : (mulhiW a b).toInt = a.toInt * b.toInt / 65536 := by
  unfold mulhiW
  have ha := w_bounds a
  have hb := w_bounds b
  rw [BitVec.toInt_ofInt]
  apply bmod16
  · have : -(32768 * 32768) ≤ a.toInt * b.toInt := by nlinarith
    omega
  · have : a.toInt * b.toInt ≤ 32768 * 32768 := by nlinarith
    omega

/-- The Montgomery product, for all operands. -/
theorem fqW_spec (a b : W) : ∃ c, -32768 ≤ c ∧ c ≤ 32767 ∧ (fqW a b).toInt * 65536 = a.toInt * b.toInt - 3329 * c := by
  refine ⟨(a * 62209 * b).toInt, (w_bounds _).1, (w_bounds _).2, ?_⟩
  have hc := w_bounds (a * 62209 * b)
  have h0 : ∃ k, (a * 62209 * b).toInt = a.toInt * b.toInt * (-3327) - 65536 * k := by
    rw [BitVec.toInt_mul, BitVec.toInt_mul]
    obtain ⟨k1, h1⟩ := bmod16_ex (a.toInt * (62209 : W).toInt)
    obtain ⟨k2, h2⟩ := bmod16_ex ((a.toInt * (62209 : W).toInt).bmod (2 ^ 16) * b.toInt)
    refine Exists.imp (fun k hk => h2.trans hk) ?_
    refine ⟨k1 * b.toInt + k2, ?_⟩
    rw [show (2 ^ 16 : Nat) = 65536 from rfl, h1, show (62209 : W).toInt = -3327 from by decide]
    ring
  obtain ⟨k, hk⟩ := h0
  have ha := w_bounds a
  have hb := w_bounds b
  have hp1 : -(32768 * 32768) ≤ a.toInt * b.toInt := by nlinarith
  have hp2 : a.toInt * b.toInt ≤ 32768 * 32768 := by nlinarith
  unfold fqW
  have e1 := toInt_mulhi a b
  have e2 := toInt_mulhi (a * 62209 * b) 3329
  rw [show (3329 : W).toInt = 3329 from by decide] at e2
  generalize (a * 62209 * b).toInt = c at *
  generalize a.toInt * b.toInt = p at *
  rw [toInt_subW (by omega) (by omega)]
  omega

theorem fqW_zw (a b : W) : zw (fqW a b) = 169 * (zw a * zw b) := by
  obtain ⟨c, _, _, h⟩ := fqW_spec a b
  have h' := congrArg (fun x : Int => (x : Zq)) h
  push_cast at h'
  unfold zw
  linear_combination 169 * h' - ((fqW a b).toInt : Zq) * zq_inv_R - 169 * (c : Zq) * zq_q

/-- Bound of a Montgomery product by the bounds of the factors. -/
theorem fqW_bound {a b : W} {A B : Int} (ha : -A ≤ a.toInt ∧ a.toInt ≤ A) (hb : -B ≤ b.toInt ∧ b.toInt ≤ B) :
    -((A * B + 3329 * 32768) / 65536) ≤ (fqW a b).toInt ∧ (fqW a b).toInt ≤ (A * B + 3329 * 32768) / 65536 := by
  obtain ⟨c, h1, h2, h⟩ := fqW_spec a b
  have hp1 : -(A * B) ≤ a.toInt * b.toInt := by nlinarith
  have hp2 : a.toInt * b.toInt ≤ A * B := by nlinarith
  generalize a.toInt * b.toInt = p at *
  generalize A * B = P at *
  omega

/-- Multiplication by a constant of absolute value at most 1664. -/
theorem fqW_small (a b : W) (hb : -1664 ≤ b.toInt ∧ b.toInt ≤ 1664) : -2497 ≤ (fqW a b).toInt ∧ (fqW a b).toInt ≤ 2497 := by
  have ha := w_bounds a
  have := fqW_bound (a := a) (b := b) (A := 32768) (B := 1664) ⟨by omega, by omega⟩ hb
  omega

/-- The Barrett reduction of the vector code: residue kept, result in 0..q. -/
theorem redW_spec (a : W) : zw (redW a) = zw a ∧ 0 ≤ (redW a).toInt ∧ (redW a).toInt ≤ 3329 := by
  have ha := w_bounds a
  have e1 := toInt_mulhi a 20159
  rw [show (20159 : W).toInt = 20159 from by decide] at e1
  have e2 : ((mulhiW a 20159).sshiftRight 10).toInt = a.toInt * 20159 / 65536 / 1024 := by
    rw [BitVec.toInt_sshiftRight, e1, Int.shiftRight_eq_div_pow]; rfl
  unfold redW
  have e4 : (a - (mulhiW a 20159).sshiftRight 10 * 3329).toInt = a.toInt - a.toInt * 20159 / 65536 / 1024 * 3329 := by
    have hr := w_bounds (a - (mulhiW a 20159).sshiftRight 10 * 3329)
    rw [BitVec.toInt_sub, BitVec.toInt_mul, e2, show (3329 : W).toInt = 3329 from by decide] at *
    obtain ⟨k1, h1⟩ := bmod16_ex (a.toInt * 20159 / 65536 / 1024 * 3329)
    obtain ⟨k2, h2⟩ := bmod16_ex (a.toInt - (a.toInt * 20159 / 65536 / 1024 * 3329).bmod (2 ^ 16))
    rw [show (2 ^ 16 : Nat) = 65536 from rfl] at *
    omega
  refine ⟨?_, by omega, by omega⟩
  unfold zw
  rw [e4]
  push_cast
  rw [zq_q]; ring

/-! ## Twiddle factors -/

theorem zeta_toInt {k : Nat} (hk : k < 128) : (BitVec.ofNat 16 (zetaN k)).toInt = (zetasList.getD k 0).toInt := by
  obtain ⟨_, h2, h3⟩ := zetas_table k hk
  unfold zetaN
  generalize (zetasList.getD k 0).toInt = z at *
  rw [BitVec.toInt_ofNat', Int.toNat_of_nonneg (by omega), show (2 ^ 16 : Nat) = 65536 from rfl, Int.bmod_def]
  split <;> omega

theorem zeta_zw {k : Nat} (hk : k < 128) : zw (BitVec.ofNat 16 (zetaN k)) = 65536 * Z k ∧
    (-1664 ≤ (BitVec.ofNat 16 (zetaN k)).toInt ∧ (BitVec.ofNat 16 (zetaN k)).toInt ≤ 1664) := by
  obtain ⟨z, h1, h2, h3⟩ := zetas_get k hk
  have hz : z = zetasList.getD k 0 := by
    have hl : zetasList.length = 128 := by decide +kernel
    have := Mem.has_ofList zetasList 0 k (by rw [hl]; exact hk)
    rw [Nat.zero_add] at this
    unfold zetas at h1
    rw [this] at h1
    simp at h1
    rw [← h1, List.getD_eq_getElem?_getD]
  rw [zeta_toInt hk]
  refine ⟨?_, hz ▸ h3⟩
  unfold zw
  rw [zeta_toInt hk, ← h2, hz]; rfl

end Verif.Avx
