import Verif.C.Bytes
import Verif.Model.Verify
import Verif.Proof.Reduce
import Mathlib.Tactic.IntervalCases

/-! # Helper lemmas about verify.c -/

namespace Verif.Proof
open Verif.Model

theorem uint8_or_eq_zero (a b : UInt8) : a ||| b = 0 ↔ a = 0 ∧ b = 0 := by
  rw [← UInt8.toNat_inj, ← UInt8.toNat_inj (a := a), ← UInt8.toNat_inj (a := b)]
  simp [UInt8.toNat_or, Nat.or_eq_zero_iff]

theorem uint8_xor_eq_zero (a b : UInt8) : a ^^^ b = 0 ↔ a = b := by
  constructor
  · intro h
    have := congrArg (· ^^^ b) h
    simpa [UInt8.xor_assoc] using this
  · rintro rfl; simp

theorem verify_last (r : UInt8) : (((-(r.toUInt64)) >>> 63).toNat : Int) = if r = 0 then 0 else 1 := by
  have h1 : r.toNat < 256 := r.toNat_lt
  have h2 : r = 0 ↔ r.toNat = 0 := by rw [← UInt8.toNat_inj]; rfl
  simp only [h2]
  simp only [UInt64.toNat_shiftRight, UInt64.toNat_neg, UInt8.toNat_toUInt64, Nat.shiftRight_eq_div_pow, UInt64.size]
  generalize r.toNat = n at *
  split <;> simp at * <;> omega

theorem verify_runs {a b : Mem UInt8} {ao bo n : Nat} {f g : Nat → UInt8} (ha : a.Has ao n f) (hb : b.Has bo n g) :
    Runs (verify a ao b bo n) (fun r => (r = 0 ∨ r = 1) ∧ (r = 0 ↔ ∀ i, i < n → f i = g i)) := by
  unfold verify
  simp only [runs_bind]
  refine Runs.mono (runs_cfor (fun i r => (r = 0 ↔ ∀ j, j < i → f j = g j)) (Nat.zero_le _) (by simp) ?_) ?_
  · intro i r _ hi hr
    simp only [runs_bind, runs_rd_of (ha i hi), runs_rd_of (hb i hi), runs_pure]
    rw [uint8_or_eq_zero, uint8_xor_eq_zero, hr]
    constructor
    · rintro ⟨h1, h2⟩ j hj
      rcases Nat.lt_or_eq_of_le (Nat.lt_succ_iff.mp hj) with h | rfl
      · exact h1 j h
      · exact h2
    · exact fun h => ⟨fun j hj => h j (by omega), h i (by omega)⟩
  · intro r hr
    rw [runs_pure, verify_last, ← hr]
    by_cases h : r = 0 <;> simp [h]

theorem cmov_byte0 (r x : UInt8) : r ^^^ ((-(0 : UInt8)) &&& (r ^^^ x)) = r := by
  have : -(0 : UInt8) = 0 := by decide
  rw [this]; simp

theorem cmov_byte1 (r x : UInt8) : r ^^^ ((-(1 : UInt8)) &&& (r ^^^ x)) = x := by
  have : -(1 : UInt8) = -1 := by decide
  rw [this, UInt8.neg_one_and, ← UInt8.xor_assoc, UInt8.xor_self, UInt8.zero_xor]

theorem cmov_runs {r x : Mem UInt8} {ro xo n : Nat} {f g : Nat → UInt8} (hr : r.Has ro n f) (hx : x.Has xo n g)
    (b : Bool) :
    Runs (cmov r ro x xo n (if b then 1 else 0)) (fun r' => r.Upd r' ro n (fun i => if b then g i else f i)) := by
  unfold cmov
  refine runs_fill1 fun i m hi hu => ?_
  have h1 : m[ro + i]? = some (some (f i)) := by rw [hu.frame _ (by omega)]; exact hr i hi
  simp only [runs_bind, runs_rd_of h1, runs_rd_of (hx i hi)]
  refine (runs_wr_upd ?_).mono fun m' hm' => hm'.congr fun j hj => ?_
  · exact (Array.getElem?_eq_some_iff.mp h1).1
  · cases b
    · simp
    · simpa using cmov_byte1 (f i) (g i)

theorem cmov16_bits (x v : Int16) :
    i16 (ixor x.toInt (iand 65535 (ixor x.toInt v.toInt))) = v := by
  have hx : BitVec.ofInt 32 x.toInt = x.toBitVec.signExtend 32 := rfl
  have hv : BitVec.ofInt 32 v.toInt = v.toBitVec.signExtend 32 := rfl
  unfold ixor iand
  rw [BitVec.ofInt_toInt, BitVec.ofInt_toInt, hx, hv]
  apply Int16.toBitVec_inj.mp
  show BitVec.ofInt 16 (BitVec.toInt _) = _
  show BitVec.signExtend 16 _ = _
  rw [BitVec.signExtend_eq_setWidth_of_le _ (by omega)]
  apply BitVec.eq_of_getLsbD_eq
  intro i hi
  have h65 : (BitVec.ofInt 32 65535) = BitVec.ofNat 32 (2 ^ 16 - 1) := by decide
  have h32 : i < 32 := by omega
  rw [h65]
  simp only [BitVec.getLsbD_setWidth, BitVec.getLsbD_xor, BitVec.getLsbD_and, BitVec.getLsbD_signExtend,
    BitVec.getLsbD_ofNat, Nat.testBit_two_pow_sub_one, hi, h32, decide_true, Bool.true_and, if_true]
  cases x.toBitVec.getLsbD i <;> simp

theorem cmov16_zero (x v : Int16) :
    i16 (ixor x.toInt (iand 0 (ixor x.toInt v.toInt))) = x := by
  unfold ixor iand
  simp [i16]

theorem cmov_int16_runs {r : Mem Int16} {o : Nat} {x : Int16} (hr : r[o]? = some (some x)) (v : Int16) (b : Bool) :
    Runs (cmov_int16 r o v (if b then 1 else 0)) (fun r' => r.Upd r' o 1 (fun _ => if b then v else x)) := by
  unfold cmov_int16
  have ho := (Array.getElem?_eq_some_iff.mp hr).1
  simp only [runs_bind, runs_rd_of hr]
  refine (runs_wr_upd ho).mono fun m' hm' => hm'.congr fun j hj => ?_
  cases b
  · simpa [u16] using cmov16_zero x v
  · simpa [u16] using cmov16_bits x v

end Verif.Proof
