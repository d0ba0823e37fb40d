import Verif.C.Logic
import Verif.Model.Ntt
import Mathlib.Tactic.Linarith

/-! # Helper lemmas about reduce.c and fqmul -/

namespace Verif.Proof
open Verif.Model

theorem toInt_i16 (x : Int) : (i16 x).toInt = x.bmod 65536 := by
  simp [i16, Int16.toInt_ofInt]

theorem bmod_spec (x : Int) : ∃ k, x.bmod 65536 = x - 65536 * k ∧ -32768 ≤ x.bmod 65536 ∧ x.bmod 65536 < 32768 := by
  refine ⟨(x - x.bmod 65536) / 65536, ?_, ?_, ?_⟩
  all_goals rw [Int.bmod_def]; split <;> omega

theorem toInt_i16_of {x : Int} (h1 : -32768 ≤ x) (h2 : x ≤ 32767) : (i16 x).toInt = x := by
  rw [toInt_i16]; obtain ⟨k, h, h', h''⟩ := bmod_spec x; omega

theorem int16_bounds (x : Int16) : -32768 ≤ x.toInt ∧ x.toInt ≤ 32767 := by
  have h1 := x.minValue_le_toInt
  have h2 := x.toInt_le
  have h3 : Int16.minValue.toInt = -32768 := by decide
  have h4 : Int16.maxValue.toInt = 32767 := by decide
  omega

/-- Montgomery reduction: for every `a` for which `a - t*q` cannot overflow. -/
theorem montgomery_core (a : Int) (h1 : -2038398976 ≤ a) (h2 : a ≤ 2038398975) :
    Runs (montgomery_reduce a) (fun r => ∃ t, -32768 ≤ t ∧ t ≤ 32767 ∧ r.toInt * 65536 = a - 3329 * t) := by
  unfold montgomery_reduce
  simp only [runs_bind, runs_imul, runs_isub, runs_pure, QINV, KYBER_Q, toInt_i16, ishr]
  obtain ⟨k, hk, hk1, hk2⟩ := bmod_spec a
  obtain ⟨k', hk', hk1', hk2'⟩ := bmod_spec (a.bmod 65536 * -3327)
  generalize a.bmod 65536 = b at *
  generalize (b * -3327).bmod 65536 = c at *
  refine ⟨by omega, by omega, by omega, c, hk1', by omega, ?_⟩
  obtain ⟨k'', hk'', hk1'', hk2''⟩ := bmod_spec ((a - c * 3329) / 2 ^ 16)
  simp only [Nat.cast_ofNat, Int.reducePow] at *
  omega

theorem barrett_core (a : Int16) :
    Runs (barrett_reduce a) (fun r => -1664 ≤ r.toInt ∧ r.toInt ≤ 1664 ∧ (3329 : Int) ∣ r.toInt - a.toInt) := by
  unfold barrett_reduce
  obtain ⟨h1, h2⟩ := int16_bounds a
  have hv : (i16 (((1 <<< 26) + KYBER_Q / 2) / KYBER_Q : Nat)).toInt = 20159 := by decide
  simp only [hv]
  simp only [runs_bind, runs_imul, runs_isub, runs_iadd, runs_pure, toInt_i16, ishr, KYBER_Q]
  generalize a.toInt = a at *
  refine ⟨by omega, by simp; omega, ?_⟩
  obtain ⟨k, hk, hk1, hk2⟩ := bmod_spec ((20159 * a + ((1 <<< 25 : Nat) : Int)) / 2 ^ 26)
  simp only [Nat.cast_ofNat, Int.reducePow, Nat.reduceShiftLeft] at *
  generalize hb : Int.bmod ((20159 * a + 33554432) / 67108864) 65536 = b at *
  have hb' : b = (20159 * a + 33554432) / 67108864 := by omega
  refine ⟨by omega, ?_⟩
  obtain ⟨k', hk', hk1', hk2'⟩ := bmod_spec (b * 3329)
  generalize (b * 3329).bmod 65536 = c at *
  refine ⟨by omega, ?_⟩
  obtain ⟨k'', hk'', hk1'', hk2''⟩ := bmod_spec (a - c)
  have hb1 : -10 ≤ b ∧ b ≤ 10 := by omega
  have h3 : 67108864 * b ≤ 20159 * a + 33554432 ∧ 20159 * a + 33554432 < 67108864 * b + 67108864 := by omega
  have h4 : -1664 ≤ a - 3329 * b ∧ a - 3329 * b ≤ 1664 := by
    clear hk' hk'' hk hb hb' hk1' hk2' hk1'' hk2''
    omega
  have h5 : (a - c).bmod 65536 = a - 3329 * b + 65536 * (k' - k'') := by omega
  clear hb hb' hk h3
  generalize a - 3329 * b = x at *
  have h6 : k' - k'' = 0 := by omega
  have h7 : (a - c).bmod 65536 = a - 3329 * b := by omega
  omega

theorem fqmul_core (a b : Int16) :
    Runs (fqmul a b) (fun r => ∃ t, -32768 ≤ t ∧ t ≤ 32767 ∧ r.toInt * 65536 = a.toInt * b.toInt - 3329 * t) := by
  obtain ⟨h1, h2⟩ := int16_bounds a
  obtain ⟨h3, h4⟩ := int16_bounds b
  have h5 : a.toInt * b.toInt ≤ 1073741824 := by nlinarith
  have h6 : -1073741824 ≤ a.toInt * b.toInt := by nlinarith
  unfold fqmul
  simp only [runs_bind, runs_imul]
  exact ⟨by omega, montgomery_core _ (by omega) (by omega)⟩

end Verif.Proof
