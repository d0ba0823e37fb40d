import Verif.Proof.Bits
import Verif.C.Conv
import Mathlib.Tactic.Linarith
import Mathlib.Tactic.FieldSimp
import Mathlib.Tactic.Positivity

/-! # Compression and decompression: the multiply-and-shift formulas are the rounding of the standard -/

namespace Verif.Proof
open Verif.Spec

theorem round_compress (n u : Nat) : round ((n : ℚ) / 3329 * (u : ℚ)) = (((2 * n * u + 3329) / 6658 : Nat) : Int) := by
  rw [round_eq, Int.floor_eq_iff]
  have h1 := Nat.div_mul_le_self (2 * n * u + 3329) 6658
  have h2 := Nat.lt_div_mul_add (a := 2 * n * u + 3329) (b := 6658) (by omega)
  have h1' : (((2 * n * u + 3329) / 6658 : Nat) : ℚ) * 6658 ≤ 2 * n * u + 3329 := by exact_mod_cast h1
  have h2' : (2 * n * u + 3329 : ℚ) < (((2 * n * u + 3329) / 6658 : Nat) : ℚ) * 6658 + 6658 := by exact_mod_cast h2
  rw [Int.cast_natCast]
  generalize (((2 * n * u + 3329) / 6658 : Nat) : ℚ) = z at *
  have e : (n : ℚ) / 3329 * u = 2 * n * u / 6658 := by field_simp; ring
  rw [e]
  constructor <;> linarith

theorem compress_nat (d : Nat) (x : Zq) : Compress d x = (2 * 2 ^ d * x.val + 3329) / 6658 % 2 ^ d := by
  unfold Compress
  have := round_compress (2 ^ d) x.val
  have e : ((2 : Int) ^ d) = ((2 ^ d : Nat) : Int) := by push_cast; rfl
  have e' : ((2 ^ d : Nat) : ℚ) = 2 ^ d := by push_cast; rfl
  rw [e'] at this
  rw [this, e, ← Int.natCast_mod, Int.toNat_natCast]

theorem round_decompress (n y : Nat) (hn : 0 < n) : round ((3329 : ℚ) / (2 * n : Nat) * (y : ℚ)) = (((3329 * y + n) / (2 * n) : Nat) : Int) := by
  rw [round_eq, Int.floor_eq_iff]
  have h1 := Nat.div_mul_le_self (3329 * y + n) (2 * n)
  have h2 := Nat.lt_div_mul_add (a := 3329 * y + n) (b := 2 * n) (by omega)
  have h1' : (((3329 * y + n) / (2 * n) : Nat) : ℚ) * (2 * n) ≤ 3329 * y + n := by exact_mod_cast h1
  have h2' : (3329 * y + n : ℚ) < (((3329 * y + n) / (2 * n) : Nat) : ℚ) * (2 * n) + 2 * n := by exact_mod_cast h2
  rw [Int.cast_natCast]
  generalize (((3329 * y + n) / (2 * n) : Nat) : ℚ) = z at *
  have hq : (0 : ℚ) < n := by exact_mod_cast hn
  push_cast
  have e : (3329 : ℚ) / (2 * n) * y + 1 / 2 = (3329 * y + n) / (2 * n) := by field_simp
  rw [e]
  constructor
  · rw [le_div_iff₀ (by linarith)]; linarith
  · rw [div_lt_iff₀ (by linarith)]; linarith

theorem decompress_nat (d y : Nat) : Decompress (d + 1) y = (((3329 * y + 2 ^ d) / 2 ^ (d + 1) : Nat) : Zq) := by
  unfold Decompress
  have := round_decompress (2 ^ d) y (by positivity)
  have e : ((2 * 2 ^ d : Nat) : ℚ) = 2 ^ (d + 1) := by push_cast; ring
  rw [e] at this
  rw [this, show 2 * 2 ^ d = 2 ^ (d + 1) from by ring]
  push_cast
  rfl

theorem shift_eq {S M v k : Nat} (h1 : S * k ≤ v * M) (h2 : v * M < S * (k + 1)) : v * M / S = k :=
  Nat.div_eq_of_lt_le (by rw [Nat.mul_comm k]; exact h1) (by rw [Nat.mul_comm (k + 1)]; exact h2)

theorem comp1_nat (u k : Nat) (hu : u < 3329) (hk : (2 * 2 * u + 3329) / 6658 = k) : (2 * u + 1665) * 80635 / 2 ^ 28 = k := by
  refine shift_eq ?_ ?_ <;> omega

theorem comp4_nat (u k : Nat) (hu : u < 3329) (hk : (2 * 16 * u + 3329) / 6658 = k) : (16 * u + 1665) * 80635 / 2 ^ 28 = k := by
  have a : 3329 * k + 1 ≤ 16 * u + 1665 := by omega
  have b : 16 * u + 1665 ≤ 3329 * k + 3329 := by omega
  have c : k ≤ 16 := by omega
  refine shift_eq ?_ ?_ <;> omega

theorem comp5_nat (u k : Nat) (hu : u < 3329) (hk : (2 * 32 * u + 3329) / 6658 = k) : (32 * u + 1664) * 40318 / 2 ^ 27 = k := by
  have a : 3329 * k ≤ 32 * u + 1664 := by omega
  have b : 32 * u + 1664 ≤ 3329 * k + 3328 := by omega
  have c : k ≤ 32 := by omega
  refine shift_eq ?_ ?_ <;> omega

theorem comp10_nat (u k : Nat) (hu : u < 3329) (hk : (2 * 1024 * u + 3329) / 6658 = k) : (1024 * u + 1665) * 1290167 / 2 ^ 32 = k := by
  have a : 3329 * k + 1 ≤ 1024 * u + 1665 := by omega
  have b : 1024 * u + 1665 ≤ 3329 * k + 3329 := by omega
  have c : k ≤ 1024 := by omega
  have a' : 953 < k → 3329 * k + 2 ≤ 1024 * u + 1665 := by omega
  refine shift_eq ?_ ?_ <;> omega

theorem comp11_nat (u k : Nat) (hu : u < 3329) (hk : (2 * 2048 * u + 3329) / 6658 = k) : (2048 * u + 1664) * 645084 / 2 ^ 31 = k := by
  have a : 3329 * k ≤ 2048 * u + 1664 := by omega
  have b : 2048 * u + 1664 ≤ 3329 * k + 3328 := by omega
  have c : k ≤ 2048 := by omega
  have b1 : 651 < k → 2048 * u + 1664 ≤ 3329 * k + 3327 := by omega
  have b2 : 1304 < k → 2048 * u + 1664 ≤ 3329 * k + 3326 := by omega
  have b3 : 1957 < k → 2048 * u + 1664 ≤ 3329 * k + 3325 := by omega
  refine shift_eq ?_ ?_ <;> omega

end Verif.Proof
