import Verif.Spec.Encode
import Verif.C.Bytes
import Mathlib.Tactic.IntervalCases
import Mathlib.Tactic.Ring

/-! # Lemmas on bit strings and bytes -/

namespace Verif.Proof
open Verif.Spec Finset

theorem bitsVal_succ (n : Nat) (b : Nat → Bool) : bitsVal (n + 1) b = bitsVal n b + (b n).toNat * 2 ^ n := by
  unfold bitsVal; rw [sum_range_succ]

theorem bitsVal_zero (b : Nat → Bool) : bitsVal 0 b = 0 := by simp [bitsVal]

theorem bitsVal_lt (n : Nat) (b : Nat → Bool) : bitsVal n b < 2 ^ n := by
  induction n with
  | zero => simp [bitsVal]
  | succ n ih =>
    rw [bitsVal_succ, pow_succ]
    cases b n <;> simp <;> omega

theorem bitsVal_congr {n : Nat} {b c : Nat → Bool} (h : ∀ j, j < n → b j = c j) : bitsVal n b = bitsVal n c :=
  sum_congr rfl fun j hj => by rw [h j (mem_range.mp hj)]

theorem testBit_bitsVal (n : Nat) (b : Nat → Bool) (j : Nat) : (bitsVal n b).testBit j = (decide (j < n) && b j) := by
  induction n with
  | zero => simp [bitsVal]
  | succ n ih =>
    rw [bitsVal_succ]
    have hlt := bitsVal_lt n b
    cases hb : b n
    · simp only [Bool.toNat_false, Nat.zero_mul, Nat.add_zero, ih]
      by_cases h : j < n
      · simp [h, Nat.lt_succ_of_lt h]
      · by_cases h' : j = n
        · subst h'; simp [hb]
        · simp [h, show ¬ j < n + 1 from by omega]
    · simp only [Bool.toNat_true, Nat.one_mul]
      rw [Nat.add_comm]
      by_cases h : j < n
      · rw [Nat.testBit_two_pow_add_gt h, ih]; simp [h, Nat.lt_succ_of_lt h]
      · by_cases h' : j = n
        · subst h'
          rw [Nat.testBit_two_pow_add_eq, ih]; simp [hb]
        · rw [Nat.testBit_lt_two_pow (lt_of_lt_of_le (b := 2 ^ (n + 1)) (by rw [pow_succ]; omega)
            (Nat.pow_le_pow_right (by omega) (by omega)))]
          simp [show ¬ j < n + 1 from by omega]

theorem beq_testBit (x k : Nat) : (x / 2 ^ k % 2 == 1) = x.testBit k := by
  rw [Nat.testBit_eq_decide_div_mod_eq]; rfl

/-- A number is determined by its low bits if it has no others. -/
theorem eq_bitsVal {x n : Nat} {b : Nat → Bool} (hx : x < 2 ^ n) (h : ∀ j, j < n → x.testBit j = b j) : x = bitsVal n b := by
  apply Nat.eq_of_testBit_eq
  intro j
  rw [testBit_bitsVal]
  by_cases hj : j < n
  · simp [hj, h j hj]
  · rw [Nat.testBit_lt_two_pow (lt_of_lt_of_le hx (Nat.pow_le_pow_right (by omega) (by omega)))]; simp [hj]

theorem mod_eq_bitsVal {x n : Nat} {b : Nat → Bool} (h : ∀ j, j < n → x.testBit j = b j) : x % 2 ^ n = bitsVal n b :=
  eq_bitsVal (Nat.mod_lt _ (Nat.two_pow_pos n)) fun j hj => by rw [Nat.testBit_mod_two_pow]; simp [hj, h j hj]

theorem bytesToBits (B : List UInt8) (k : Nat) : BytesToBits B k = (B.getD (k / 8) 0).toNat.testBit (k % 8) := beq_testBit _ _

/-- Byte `n` of the `d`-bit encoding of the numbers `F 0, F 1, ...`. -/
def encByte (d : Nat) (F : Nat → Nat) (n : Nat) : UInt8 :=
  UInt8.ofNat (bitsVal 8 fun j => (F ((8 * n + j) / d)).testBit ((8 * n + j) % d))

/-- Coefficients indexed by natural numbers. -/
def extN (F : Fin 256 → Nat) (i : Nat) : Nat := if h : i < 256 then F ⟨i, h⟩ else 0

theorem extN_lt (F : Fin 256 → Nat) {i : Nat} (h : i < 256) : extN F i = F ⟨i, h⟩ := dif_pos h

theorem byteEncode (d : Nat) (F : Fin 256 → Nat) : ByteEncode d F = (List.range (32 * d)).map (encByte d (extN F)) := by
  unfold ByteEncode BitsToBytes encByte
  simp only [beq_testBit]
  rfl

theorem byteEncode_length (d : Nat) (F : Fin 256 → Nat) : (ByteEncode d F).length = 32 * d := by simp [byteEncode]

theorem byteEncode_get (d : Nat) (F : Fin 256 → Nat) (i : Nat) (h : i < (ByteEncode d F).length) :
    (ByteEncode d F)[i] = encByte d (extN F) i := by simp [byteEncode]

theorem ofNat_congr8 {x y : Nat} (h : x % 256 = y % 256) : UInt8.ofNat x = UInt8.ofNat y := by
  apply UInt8.toNat_inj.mp
  simp [h]

/-- The bytes of block `i`, when `8 w` bits hold `v` numbers of `d` bits. -/
theorem byte_block {d w v : Nat} (hd : 8 * w = d * v) (hd0 : 0 < d) (F : Nat → Nat) (i c x : Nat)
    (h : ∀ j, j < 8 → x.testBit j = (F (v * i + (8 * c + j) / d)).testBit ((8 * c + j) % d)) :
    UInt8.ofNat x = encByte d F (w * i + c) := by
  unfold encByte
  have : bitsVal 8 (fun j => (F ((8 * (w * i + c) + j) / d)).testBit ((8 * (w * i + c) + j) % d)) = x % 2 ^ 8 := by
    rw [mod_eq_bitsVal h]
    refine bitsVal_congr fun j _ => ?_
    have e : 8 * (w * i + c) + j = d * (v * i) + (8 * c + j) := by
      have : 8 * (w * i) = d * (v * i) := by rw [← Nat.mul_assoc, ← Nat.mul_assoc, hd]
      rw [Nat.mul_add, this]; omega
    rw [e, Nat.mul_add_div hd0, Nat.mul_add_mod]
  rw [this]
  exact ofNat_congr8 (by simp)

/-- Number `v i + c` of a byte string, when `w` bytes hold `v` numbers of `d` bits. -/
theorem dec_block {d w v : Nat} (hd : 8 * w = d * v) (g : Nat → UInt8) (i c x : Nat) 
    (h : ∀ j, j < d → x.testBit j = (g (w * i + (c * d + j) / 8)).toNat.testBit ((c * d + j) % 8)) :
    x % 2 ^ d = bitsVal d fun j => (g (((v * i + c) * d + j) / 8)).toNat.testBit (((v * i + c) * d + j) % 8) := by
  rw [mod_eq_bitsVal h]
  refine bitsVal_congr fun j _ => ?_
  have e : (v * i + c) * d + j = 8 * (w * i) + (c * d + j) := by
    have : 8 * (w * i) = v * i * d := by rw [← Nat.mul_assoc, hd]; ring
    rw [this]; ring
  rw [e, Nat.mul_add_div (by omega), Nat.mul_add_mod]

/-- Number `i` of a byte string given as a function. -/
def decNum (d : Nat) (g : Nat → UInt8) (i : Nat) : Nat := bitsVal d fun j => (g ((i * d + j) / 8)).toNat.testBit ((i * d + j) % 8)

theorem byteDecode (d : Nat) (B : List UInt8) (i : Fin 256) : ByteDecode d B i = decNum d (fun k => B.getD k 0) i.val := by
  unfold ByteDecode decNum
  exact bitsVal_congr fun j _ => bytesToBits B _

theorem decNum_lt (d : Nat) (g : Nat → UInt8) (i : Nat) : decNum d g i < 2 ^ d := bitsVal_lt _ _

theorem testBit_u8_ge (x : UInt8) (j : Nat) (h : 8 ≤ j) : x.toNat.testBit j = false :=
  Nat.testBit_lt_two_pow (lt_of_lt_of_le x.toNat_lt (Nat.pow_le_pow_right (by omega) h))

theorem testBit_ge {x d : Nat} (hx : x < 2 ^ d) (j : Nat) (h : d ≤ j) : x.testBit j = false :=
  Nat.testBit_lt_two_pow (lt_of_lt_of_le hx (Nat.pow_le_pow_right (by omega) h))

end Verif.Proof
