import Verif.Proof.Serial5
import Verif.Proof.Verify

/-! # poly_tomsg and poly_frommsg -/

namespace Verif.Proof
open Verif.Model Verif.Spec

theorem compress1 (x : Zq) : Compress 1 x = if 833 ≤ x.val ∧ x.val ≤ 2496 then 1 else 0 := by
  rw [compress_nat]
  have hv := zq_val_lt (a := x)
  generalize x.val = v at *
  split <;> omega

theorem msg_w0 (w : Nat) (h : w ≤ 3329) : w * 80635 % 2 ^ 32 / 2 ^ 28 % 2 = 0 := by
  have h1 : w * 80635 < 2 ^ 28 := by omega
  rw [Nat.mod_eq_of_lt (a := w * 80635) (by omega), Nat.div_eq_of_lt h1]

theorem msg_w1 (w : Nat) (h : 3331 ≤ w) (h' : w ≤ 4993) : w * 80635 % 2 ^ 32 / 2 ^ 28 % 2 = 1 := by
  rw [Nat.mod_eq_of_lt (a := w * 80635) (by omega), Nat.div_eq_of_lt_le (k := 1) (by omega) (by omega)]

theorem msg_w15 (k : Nat) (h : 1 ≤ k) (h' : k ≤ 1663) : (4294967296 - k) * 80635 % 2 ^ 32 / 2 ^ 28 % 2 = 1 := by
  have : (4294967296 - k) * 80635 = 4294967296 * 80634 + (4294967296 - k * 80635) := by omega
  rw [this, show (2 : Nat) ^ 32 = 4294967296 from rfl, Nat.mul_add_mod, Nat.mod_eq_of_lt (a := 4294967296 - k * 80635) (by omega),
    Nat.div_eq_of_lt_le (k := 15) (by omega) (by omega)]

theorem comp1_word (a : Int16) (h1 : -1664 ≤ a.toInt) (h2 : a.toInt ≤ 1664) :
    (((((u32 a.toInt) <<< 1) + 1665) * 80635) >>> 28 &&& 1).toNat = Compress 1 (zq a) := by
  have hz := zq_val (a := a)
  rw [compress1]
  unfold u32
  simp only [UInt32.toNat_and, UInt32.toNat_shiftRight, UInt32.toNat_shiftLeft, UInt32.toNat_mul, UInt32.toNat_add, UInt32.toNat_ofNat',
    UInt32.reduceToNat, Nat.shiftRight_eq_div_pow, Nat.shiftLeft_eq]
  rw [Nat.and_one_is_mod, show (1 % 32) = 1 from rfl, show (28 % 32) = 28 from rfl]
  generalize (zq a).val = v at *
  generalize a.toInt = x at *
  generalize hw : ((x % 4294967296).toNat % 2 ^ 32 * 2 ^ 1 % 2 ^ 32 + 1665) % 2 ^ 32 = w
  by_cases c1 : -833 < x
  · have hw' : (w : Int) = 2 * x + 1665 := by omega
    by_cases c2 : x < 833
    · rw [msg_w0 w (by omega), if_neg (by omega)]
    · rw [msg_w1 w (by omega) (by omega), if_pos (by omega)]
  · obtain ⟨k, hk⟩ : ∃ k : Nat, (k : Int) = - (2 * x + 1665) := ⟨(- (2 * x + 1665)).toNat, by omega⟩
    have hw' : w = 4294967296 - k := by omega
    rw [hw', msg_w15 k (by omega) (by omega), if_pos (by omega)]

/-- Bit `j` of message byte `i`. -/
def msgBit (f : Rq) (i j : Nat) : Bool := (Compress 1 (ext f (8 * i + j))).testBit 0

theorem or_bit (n : Nat) (b : Nat → Bool) (hn : n < 8) (t : UInt32) (ht : t.toNat = (b n).toNat) :
    ((UInt8.ofNat (bitsVal n b)).toUInt32 ||| (t <<< (UInt32.ofNat n))).toUInt8 = UInt8.ofNat (bitsVal (n + 1) b) := by
  apply UInt8.toNat_inj.mp
  have hl := bitsVal_lt n b
  have hp : 2 ^ n ≤ 2 ^ 7 := Nat.pow_le_pow_right (by omega) (by omega)
  have hb : (b n).toNat ≤ 1 := by cases b n <;> simp
  simp only [UInt32.toNat_toUInt8, UInt32.toNat_or, UInt8.toNat_toUInt32, UInt8.toNat_ofNat', UInt32.toNat_shiftLeft, ht, UInt32.toNat_ofNat',
    Nat.shiftLeft_eq]
  rw [show n % 2 ^ 32 % 32 = n from by omega, bitsVal_succ, show bitsVal n b % 2 ^ 8 = bitsVal n b from Nat.mod_eq_of_lt (by omega)]
  have h1 : (b n).toNat * 2 ^ n ≤ 2 ^ n := by nlinarith
  rw [Nat.mod_eq_of_lt (a := (b n).toNat * 2 ^ n) (by omega), Nat.or_comm, Nat.mul_comm (b n).toNat, ← Nat.two_pow_add_eq_or_of_lt hl,
    Nat.add_comm]

theorem poly_tomsg_runs {msg : Mem UInt8} {mo : Nat} {a : Mem Int16} {f : Rq} (ha : PolyR a f 1664) (hm : mo + 32 ≤ msg.size) :
    Runs (poly_tomsg msg mo a) (fun m' => msg.Wrote m' mo (ByteEncode 1 fun i => Compress 1 (f i))) := by
  have : Runs (poly_tomsg msg mo a) (fun m' => msg.Upd m' mo 32 (encByte 1 (cvals 1 f))) := by
    refine runs_fill1 fun i m' hi hu => ?_
    have hi : i < 32 := hi
    have hs := hu.size
    simp only [runs_bind]
    refine (runs_wr_upd (by omega)).mono fun m0 h0 => ?_
    refine Runs.mono (runs_cfor (fun j m'' => m'.Upd m'' (mo + i) 1 (fun _ => UInt8.ofNat (bitsVal j (msgBit f i)))) (Nat.zero_le _) ?_ ?_) ?_
    · rw [bitsVal_zero]; exact h0
    · intro j m'' _ hj hm''
      have hj : j < 8 := hj
      obtain ⟨x, hx0, hx, hx1, hx2⟩ := PolyIs.coef ha (8 * i + j) (by omega)
      simp only [runs_bind]
      rw [runs_rd_of hx0]
      have hg := hm''.has 0 (by omega)
      rw [Nat.add_zero] at hg
      rw [runs_rd_of hg]
      have hw := comp1_word x hx1 hx2
      have hb : Compress 1 (zq x) = (msgBit f i j).toNat := by
        unfold msgBit
        have := compress_lt 1 (zq x)
        rw [hx] at this ⊢
        rw [Nat.toNat_testBit]
        omega
      rw [hb] at hw
      rw [or_bit j _ hj _ hw]
      refine (runs_wr_upd (by rw [hm''.size]; omega)).mono fun m3 h3 => ?_
      refine ⟨h3.size.trans hm''.size, h3.has, fun k hk => ?_⟩
      rw [h3.frame k hk, hm''.frame k hk]
    · intro m'' hm''
      refine hm''.congr fun _ _ => ?_
      unfold encByte
      congr 1
      refine bitsVal_congr fun j hj => ?_
      rw [Nat.div_one, Nat.mod_one]
      rfl
  exact this.mono fun r' hu => wrote_encode (by omega) hu (by omega) fun i hi => by unfold cvals; rw [ext_lt f hi]

theorem poly_frommsg_runs {r : Mem Int16} {msg : Mem UInt8} {mo : Nat} {B : List UInt8} (hr : r.size = 256) (hm : msg.Holds mo B)
    (hB : B.length = 32) : Runs (poly_frommsg r msg mo) (fun r' => PolyR r' (fun i => Decompress 1 (ByteDecode 1 B i)) 1665) := by
  have : Runs (poly_frommsg r msg mo) (fun r' => r.Upd r' 0 (8 * 32)
      (fun i => if (B.getD (i / 8) 0).toNat.testBit (i % 8) then 1665 else 0)) := by
    refine runs_fill fun i m' hi hu => ?_
    have hi : i < 32 := hi
    have hs := hu.size
    refine runs_fill1 fun j m'' hj hu' => ?_
    have hs' := hu'.size
    simp only [runs_bind]
    refine (runs_wr_upd (by omega)).mono fun m0 h0 => ?_
    have g := hm.getElem? 0 (i := i) (by omega)
    rw [runs_rd_of g]
    have hg := h0.has 0 (by omega)
    rw [Nat.add_zero] at hg
    have hb : u16 (((B.getD i 0).toNat >>> j &&& 1 : Nat) : Int) = if (B.getD i 0).toNat.testBit j then 1 else 0 := by
      rw [Nat.testBit_eq_decide_div_mod_eq, Nat.and_one_is_mod, Nat.shiftRight_eq_div_pow]
      rcases Nat.mod_two_eq_zero_or_one ((B.getD i 0).toNat / 2 ^ j) with h | h <;> rw [h] <;> decide
    rw [hb]
    refine (cmov_int16_runs hg _ _).mono fun m3 h3 => ?_
    refine ⟨h3.size.trans h0.size, ?_, fun k hk => ?_⟩
    · rw [Nat.zero_add]
      refine h3.has.congr fun _ _ => ?_
      rw [show (8 * i + j) / 8 = i from by omega, show (8 * i + j) % 8 = j from by omega]
      rfl
    · rw [h3.frame k (by omega), h0.frame k (by omega)]
  refine this.mono fun r' hu => PolyR.of_upd hr hu (by rfl) fun i hi => ?_
  have e : ByteDecode 1 B ⟨i, hi⟩ = ((B.getD (i / 8) 0).toNat.testBit (i % 8)).toNat := by
    rw [byteDecode, decNum, bitsVal_succ, bitsVal_zero]
    simp
  rw [e, decompress_nat 0]
  cases (B.getD (i / 8) 0).toNat.testBit (i % 8)
  · refine ⟨?_, by decide, by decide⟩; decide
  · refine ⟨?_, by decide, by decide⟩; decide

end Verif.Proof
