import Verif.Proof.Reduce
import Verif.Spec.Ring
import Mathlib.Tactic.Ring
import Mathlib.Tactic.LinearCombination

/-! # Residues of 16-bit coefficients, and the table of roots of unity -/

namespace Verif.Proof
open Verif.Model Verif.Spec

/-- The residue modulo q of a 16-bit coefficient. -/
def zq (x : Int16) : Zq := ((x.toInt : Int) : Zq)

theorem zq_cast_eq_zero {x : Int} : ((x : Int) : Zq) = 0 ↔ (3329 : Int) ∣ x := by
  rw [ZMod.intCast_zmod_eq_zero_iff_dvd]; rfl

theorem zq_inv_R : (169 : Zq) * 65536 = 1 := by decide

theorem zq_q : (3329 : Zq) = 0 := by decide

theorem montgomery_zq {r : Int16} {a t : Int} (h : r.toInt * 65536 = a - 3329 * t) : zq r = 169 * (a : Zq) := by
  have h' := congrArg (fun x : Int => (x : Zq)) h
  push_cast at h'
  unfold zq
  linear_combination 169 * h' - (r.toInt : Zq) * zq_inv_R - 169 * (t : Zq) * zq_q

/-- Montgomery reduction in terms of residues. -/
theorem montgomery_runs (a : Int) (h1 : -2038398976 ≤ a) (h2 : a ≤ 2038398975) :
    Runs (montgomery_reduce a) (fun r => zq r = 169 * (a : Zq) ∧
      ∃ t, -32768 ≤ t ∧ t ≤ 32767 ∧ r.toInt * 65536 = a - 3329 * t) :=
  (montgomery_core a h1 h2).mono fun _ ⟨t, ht1, ht2, h⟩ => ⟨montgomery_zq h, t, ht1, ht2, h⟩

theorem fqmul_runs (a b : Int16) :
    Runs (fqmul a b) (fun r => zq r = 169 * (zq a * zq b) ∧
      ∃ t, -32768 ≤ t ∧ t ≤ 32767 ∧ r.toInt * 65536 = a.toInt * b.toInt - 3329 * t) :=
  (fqmul_core a b).mono fun r ⟨t, ht1, ht2, h⟩ => ⟨by
    rw [montgomery_zq h]; unfold zq; push_cast; ring, t, ht1, ht2, h⟩

/-- Multiplication by a factor of absolute value at most 1664 (e.g. a twiddle factor). -/
theorem fqmul_runs_small (a b : Int16) (ha1 : -1664 ≤ a.toInt) (ha2 : a.toInt ≤ 1664) :
    Runs (fqmul a b) (fun r => zq r = 169 * (zq a * zq b) ∧ -2497 ≤ r.toInt ∧ r.toInt ≤ 2497) := by
  refine (fqmul_runs a b).mono fun r ⟨h, t, ht1, ht2, h'⟩ => ⟨h, ?_⟩
  obtain ⟨h3, h4⟩ := int16_bounds b
  have h5 : a.toInt * b.toInt ≤ 1664 * 32768 := by nlinarith
  have h6 : -(1664 * 32768) ≤ a.toInt * b.toInt := by nlinarith
  omega

/-- The product of two values one of which is below q in absolute value. -/
theorem fqmul_runs_q (a b : Int16) (ha1 : -3328 ≤ a.toInt) (ha2 : a.toInt ≤ 3328) :
    Runs (fqmul a b) (fun r => zq r = 169 * (zq a * zq b) ∧ -3328 ≤ r.toInt ∧ r.toInt ≤ 3328) := by
  refine (fqmul_runs a b).mono fun r ⟨h, t, ht1, ht2, h'⟩ => ⟨h, ?_⟩
  obtain ⟨h3, h4⟩ := int16_bounds b
  have h5 : a.toInt * b.toInt ≤ 3328 * 32768 := by nlinarith
  have h6 : -(3328 * 32768) ≤ a.toInt * b.toInt := by nlinarith
  omega

theorem barrett_runs (a : Int16) :
    Runs (barrett_reduce a) (fun r => zq r = zq a ∧ -1664 ≤ r.toInt ∧ r.toInt ≤ 1664) := by
  refine (barrett_core a).mono fun r ⟨h1, h2, h3⟩ => ⟨?_, h1, h2⟩
  have := zq_cast_eq_zero.mpr h3
  push_cast at this
  exact sub_eq_zero.mp this

theorem zq_i16 {x : Int} (h1 : -32768 ≤ x) (h2 : x ≤ 32767) : zq (i16 x) = (x : Zq) := by
  unfold zq; rw [toInt_i16_of h1 h2]

/-- The k-th twiddle factor. -/
def Z (k : Nat) : Zq := ζ ^ bitRev7 k

theorem zetas_table : ∀ k, k < 128 →
    ((zetasList.getD k 0).toInt - 65536 * ((17 ^ bitRev7 k % 3329 : Nat) : Int)) % 3329 = 0 ∧
    -1664 ≤ (zetasList.getD k 0).toInt ∧ (zetasList.getD k 0).toInt ≤ 1664 := by
  decide +kernel

theorem zeta_pow (e : Nat) : ζ ^ e = ((17 ^ e % 3329 : Nat) : Zq) := by
  rw [ZMod.natCast_mod]; push_cast; rfl

theorem zetas_get (k : Nat) (hk : k < 128) : ∃ z, zetas[k]? = some (some z) ∧ zq z = 65536 * Z k ∧
    -1664 ≤ z.toInt ∧ z.toInt ≤ 1664 := by
  obtain ⟨h1, h2, h3⟩ := zetas_table k hk
  refine ⟨zetasList.getD k 0, ?_, ?_, h2, h3⟩
  · have hl : zetasList.length = 128 := by decide +kernel
    have := Mem.has_ofList zetasList 0 k (by rw [hl]; exact hk)
    rw [Nat.zero_add] at this
    unfold zetas
    exact this
  · have h := zq_cast_eq_zero.mpr (Int.dvd_of_emod_eq_zero h1)
    unfold Z zq
    rw [zeta_pow]
    rw [Int.cast_sub, sub_eq_zero, Int.cast_mul, Int.cast_natCast] at h
    exact h

theorem runs_zeta {k : Nat} (hk : k < 128) {Q : Int16 → Prop}
    (h : ∀ z, zq z = 65536 * Z k → -1664 ≤ z.toInt → z.toInt ≤ 1664 → Q z) : Runs (rd zetas k) Q :=
  (zetas_get k hk).elim fun z hz => (runs_rd_of hz.1).mpr (h z hz.2.1 hz.2.2.1 hz.2.2.2)

/-- The constant `c n` such that block `b` of level `l` (node `n = 2^l + b` of the tree) works modulo `X^(256/2^l) - c n`. -/
def cnode (n : Nat) : Zq := if n ≤ 1 then -1 else if n % 2 = 0 then Z (n / 2) else - Z (n / 2)

theorem cnode_even (n : Nat) (h : 1 ≤ n) : cnode (2 * n) = Z n := by
  unfold cnode; rw [if_neg (by omega), if_pos (by omega)]; congr 1; omega

theorem cnode_odd (n : Nat) (h : 1 ≤ n) : cnode (2 * n + 1) = - Z n := by
  unfold cnode; rw [if_neg (by omega), if_neg (by omega)]; congr 2; omega

/-- Each twiddle factor is a square root of the constant of its node. Exponents: `Z n = ζ^e`, `-1 = ζ^128`. -/
theorem Z_sq_table : ∀ n, n < 128 → 1 ≤ n →
    2 * bitRev7 n % 256 = (if n ≤ 1 then 128 else if n % 2 = 0 then bitRev7 (n / 2) else (bitRev7 (n / 2) + 128) % 256) := by
  decide +kernel

theorem zeta_256 : ζ ^ 256 = 1 := by rw [zeta_pow]; decide +kernel
theorem zeta_128 : ζ ^ 128 = -1 := by rw [zeta_pow]; decide +kernel

theorem zeta_mod (e : Nat) : ζ ^ e = ζ ^ (e % 256) := by
  conv_lhs => rw [← Nat.div_add_mod e 256, pow_add, pow_mul, zeta_256, one_pow, one_mul]

theorem Z_sq (n : Nat) (h1 : 1 ≤ n) (h2 : n < 128) : Z n ^ 2 = cnode n := by
  have h := Z_sq_table n h2 h1
  unfold Z cnode
  rw [← pow_mul, Nat.mul_comm, zeta_mod, h]
  split
  · exact zeta_128
  · split
    · rfl
    · rw [← zeta_mod, pow_add, zeta_128, mul_neg_one]; rfl

theorem cnode_root_table : ∀ i, i < 128 →
    (2 * bitRev7 i + 1) % 256 = (if i % 2 = 0 then bitRev7 (64 + i / 2) else (bitRev7 (64 + i / 2) + 128) % 256) := by
  decide +kernel

theorem cnode_root (i : Nat) (h : i < 128) : cnode (128 + i) = root i := by
  have ht := cnode_root_table i h
  unfold cnode root Z
  rw [zeta_mod (2 * bitRev7 i + 1), ht, if_neg (by omega), show (128 + i) / 2 = 64 + i / 2 from by omega,
    show (128 + i) % 2 = i % 2 from by omega]
  split
  · rfl
  · rw [← zeta_mod, pow_add, zeta_128, mul_neg_one]

theorem Z_mirror_table : ∀ l, l < 7 → ∀ b, b < 2 ^ l → (bitRev7 (2 ^ l + b) + bitRev7 (2 ^ (l + 1) - 1 - b)) % 256 = 128 := by
  decide +kernel

theorem Z_mirror (l b : Nat) (hl : l < 7) (hb : b < 2 ^ l) : Z (2 ^ l + b) * Z (2 ^ (l + 1) - 1 - b) = -1 := by
  unfold Z
  rw [← pow_add, zeta_mod, Z_mirror_table l hl b hb, zeta_128]

end Verif.Proof
