import Verif.Proof.Compress
import Verif.Proof.Poly

/-! # Serialisation and compression of polynomials -/

namespace Verif.Proof
open Verif.Model Verif.Spec

theorem iand_m1 : iand (-1) 3329 = 3329 := by decide
theorem iand_0 : iand 0 3329 = 0 := by decide

theorem zq_val {a : Int16} : ((zq a).val : Int) = a.toInt % 3329 := ZMod.val_intCast _

theorem zq_val_lt {a : Zq} : a.val < 3329 := ZMod.val_lt a

theorem caddq_runs {a : Int16} (h1 : -3328 ≤ a.toInt) (h2 : a.toInt ≤ 3328) :
    Runs (caddq a) (fun u => u.toInt = ((zq a).val : Int)) := by
  unfold caddq
  rw [zq_val]
  have e : iand (ishr a.toInt 15) KYBER_Q = if a.toInt < 0 then 3329 else 0 := by
    unfold ishr KYBER_Q
    split
    · rw [show a.toInt / 2 ^ 15 = -1 from by omega]; exact iand_m1
    · rw [show a.toInt / 2 ^ 15 = 0 from by omega]; exact iand_0
  rw [e, runs_bind, runs_iadd]
  split
  · refine ⟨by omega, ?_⟩
    rw [runs_i16c]
    refine ⟨by omega, ?_⟩
    rw [toInt_i16_of (by omega) (by omega)]; omega
  · refine ⟨by omega, ?_⟩
    rw [runs_i16c]
    refine ⟨by omega, ?_⟩
    rw [toInt_i16_of (by omega) (by omega)]; omega

theorem u16_toInt16 (a : Int16) : (u16 a.toInt).toInt16.toInt = a.toInt := by
  have := int16_bounds a
  unfold u16
  have e : (UInt16.ofNat (a.toInt % 65536).toNat).toInt16 = Int16.ofInt a.toInt := by
    apply Int16.toBitVec_inj.mp
    apply BitVec.eq_of_toInt_eq
    simp
    rw [BitVec.toInt_eq_toNat_bmod, BitVec.toNat_ofNat, Int.bmod_def]
    split <;> omega
  rw [e, Int16.toInt_ofInt]
  simp [Int.bmod_def]
  omega

theorem caddq16_runs {a : Int16} (h1 : -3328 ≤ a.toInt) (h2 : a.toInt ≤ 3328) :
    Runs (caddq16 (u16 a.toInt)) (fun t => t.toNat = (zq a).val) := by
  unfold caddq16
  have hz := zq_val (a := a)
  have e : iand (ishr (u16 a.toInt).toInt16.toInt 15) KYBER_Q = if a.toInt < 0 then 3329 else 0 := by
    rw [u16_toInt16]
    unfold ishr KYBER_Q
    split
    · rw [show a.toInt / 2 ^ 15 = -1 from by omega]; exact iand_m1
    · rw [show a.toInt / 2 ^ 15 = 0 from by omega]; exact iand_0
  have hn : ((u16 a.toInt).toNat : Int) = a.toInt % 65536 := by
    unfold u16; simp; omega
  rw [e, runs_bind, runs_iadd, hn]
  refine ⟨by split <;> omega, ?_⟩
  rw [runs_pure]
  unfold u16
  simp
  split <;> omega

/-- The canonical representatives of a ring element. -/
def vals (f : Rq) (i : Nat) : Nat := (ext f i).val

theorem vals_lt (f : Rq) (i : Nat) : vals f i < 2 ^ 12 := lt_of_lt_of_le zq_val_lt (by norm_num)

theorem extN_vals (f : Rq) {i : Nat} (hi : i < 256) : extN (fun i => (f i).val) i = vals f i := by
  unfold vals; rw [extN_lt _ hi, ext_lt f hi]

theorem encByte_congr {d : Nat} {F G : Nat → Nat} {n : Nat} (h : ∀ j, j < 8 → F ((8 * n + j) / d) = G ((8 * n + j) / d)) :
    encByte d F n = encByte d G n := by
  unfold encByte
  rw [bitsVal_congr fun j hj => by rw [h j hj]]

/-- Filling `32 d` bytes with an encoding. -/
theorem wrote_encode {d : Nat} (hd : 0 < d) {r r' : Mem UInt8} {ro n : Nat} {F : Nat → Nat} {G : Fin 256 → Nat} (h : r.Upd r' ro n (encByte d F))
    (hn : n = 32 * d) (hFG : ∀ i (hi : i < 256), F i = G ⟨i, hi⟩) : r.Wrote r' ro (ByteEncode d G) := by
  refine h.wrote_of (by rw [byteEncode_length, hn]) fun i hi => ?_
  rw [byteEncode_get]
  refine encByte_congr fun j hj => ?_
  rw [byteEncode_length] at hi
  have : (8 * i + j) / d < 256 := by rw [Nat.div_lt_iff_lt_mul hd]; omega
  rw [hFG _ this, extN_lt _ this]

/-- The coefficient a 12-bit encoding stores: `V i`. -/
theorem poly_tobytes_gen {r : Mem UInt8} {ro : Nat} {a : Mem Int16} {V : Nat → Nat} (hV : ∀ i, V i < 2 ^ 12)
    (ha : ∀ i, i < 256 → ∃ x : Int16, a[i]? = some (some x) ∧ Runs (caddq16 (u16 x.toInt)) (fun t => t.toNat = V i)) (hr : ro + 384 ≤ r.size) :
    Runs (poly_tobytes r ro a) (fun r' => r.Upd r' ro (3 * 128) (encByte 12 V)) := by
  refine runs_fill fun i m' hi hu => ?_
  have hi : i < 128 := hi
  obtain ⟨x, hx0, hx⟩ := ha (2 * i) (by omega)
  obtain ⟨y, hy0, hy⟩ := ha (2 * i + 1) (by omega)
  simp only [runs_bind]
  rw [runs_rd_of hx0]
  refine hx.mono fun t0 ht0 => ?_
  rw [runs_rd_of hy0]
  refine hy.mono fun t1 ht1 => ?_
  have hb0 := hV (2 * i)
  have hb1 := hV (2 * i + 1)
  rw [ht0, ht1]
  have hs := hu.size
  refine runs_wr_next (Mem.Upd.refl m' (ro + 3 * i) (fun j => encByte 12 V (3 * i + j))) (by omega) (by omega) ?_ fun m1 h1 => ?_
  · refine byte_block (d := 12) (w := 3) (v := 2) (by rfl) (by omega) _ _ _ _ fun j hj => ?_
    interval_cases j <;> simp
  refine runs_wr_next h1 (by omega) (by omega) ?_ fun m2 h2 => ?_
  · refine byte_block (d := 12) (w := 3) (v := 2) (by rfl) (by omega) _ _ _ _ fun j hj => ?_
    interval_cases j <;> simp [testBit_ge hb0]
  refine runs_wr_next h2 (by omega) (by omega) ?_ fun m3 h3 => h3
  · refine byte_block (d := 12) (w := 3) (v := 2) (by rfl) (by omega) _ _ _ _ fun j hj => ?_
    interval_cases j <;> simp

theorem poly_tobytes_runs {r : Mem UInt8} {ro : Nat} {a : Mem Int16} {f : Rq} (ha : PolyR a f 3328) (hr : ro + 384 ≤ r.size) :
    Runs (poly_tobytes r ro a) (fun r' => r.Wrote r' ro (ByteEncode12 f)) := by
  have : Runs (poly_tobytes r ro a) (fun r' => r.Upd r' ro (3 * 128) (encByte 12 (vals f))) :=
    poly_tobytes_gen (vals_lt f) (fun i hi => by
      obtain ⟨x, hx0, hx, hx1, hx2⟩ := PolyIs.coef ha i hi
      exact ⟨x, hx0, (caddq16_runs hx1 hx2).mono fun t ht => by rw [ht, hx]; rfl⟩) hr
  exact this.mono fun r' hu => wrote_encode (by omega) hu (by omega) fun i hi => by unfold vals; rw [ext_lt f hi]

/-- Without the sign bit the conditional addition does nothing. -/
theorem caddq16_nonneg {a : Int16} (h1 : 0 ≤ a.toInt) :
    Runs (caddq16 (u16 a.toInt)) (fun t => (t.toNat : Int) = a.toInt) := by
  unfold caddq16
  have hb := int16_bounds a
  have e : iand (ishr (u16 a.toInt).toInt16.toInt 15) KYBER_Q = 0 := by
    rw [u16_toInt16]
    unfold ishr KYBER_Q
    rw [show a.toInt / 2 ^ 15 = 0 from by omega]; exact iand_0
  have hn : ((u16 a.toInt).toNat : Int) = a.toInt % 65536 := by
    unfold u16; simp; omega
  rw [e, runs_bind, runs_iadd, hn]
  refine ⟨by omega, ?_⟩
  rw [runs_pure]
  unfold u16
  simp
  omega

/-- A polynomial object filled with known values. -/
theorem PolyR.of_upd {r r' : Mem Int16} {n : Nat} {g : Nat → Int16} {f : Rq} {B : Int} (hr : r.size = 256) (h : r.Upd r' 0 n g) (hn : n = 256)
    (hg : ∀ i (hi : i < 256), zq (g i) = f ⟨i, hi⟩ ∧ -B ≤ (g i).toInt ∧ (g i).toInt ≤ B) : PolyR r' f B := by
  subst hn
  exact PolyR.of_coef (by rw [h.size, hr]) fun i hi => ⟨_, h.has.get0 hi, hg i hi⟩

theorem toInt_i16_nat {n : Nat} (h : n < 32768) : (i16 (n : Int)).toInt = n := toInt_i16_of (by omega) (by omega)

theorem zq_i16_nat {n : Nat} (h : n < 32768) : zq (i16 (n : Int)) = (n : Zq) := by
  rw [zq_i16 (by omega) (by omega)]; simp

theorem poly_frombytes_upd {r : Mem Int16} {a : Mem UInt8} {ao : Nat} {B : List UInt8} (hr : r.size = 256) (ha : a.Holds ao B)
    (hB : B.length = 384) :
    Runs (poly_frombytes r a ao) (fun r' => r.Upd r' 0 (2 * 128) (fun i => i16 ((decNum 12 (fun k => B.getD k 0) i : Nat) : Int))) := by
  refine runs_fill fun i m' hi hu => ?_
  have hi : i < 128 := hi
  simp only [runs_bind]
  have g0 := ha.getElem? 0 (i := 3 * i + 0) (by omega)
  have g1 := ha.getElem? 0 (i := 3 * i + 1) (by omega)
  have g2 := ha.getElem? 0 (i := 3 * i + 2) (by omega)
  rw [← Nat.add_assoc] at g0 g1 g2
  rw [runs_rd_of g0, runs_rd_of g1]
  have hs := hu.size
  refine runs_wr_next (Mem.Upd.refl m' (0 + 2 * i) (fun j => i16 ((decNum 12 (fun k => B.getD k 0) (2 * i + j) : Nat) : Int))) (by omega) (by omega) ?_ fun m1 h1 => ?_
  · rw [Nat.and_two_pow_sub_one_eq_mod _ 12]
    rw [dec_block (d := 12) (w := 3) (v := 2) (by rfl) (fun k => B.getD k 0) i 0]
    · rfl
    · intro j hj
      interval_cases j <;> simp [testBit_u8_ge]
  rw [runs_rd_of g1, runs_rd_of g2]
  refine runs_wr_next h1 (by omega) (by omega) ?_ fun m1 h1 => h1
  · rw [Nat.and_two_pow_sub_one_eq_mod _ 12]
    rw [dec_block (d := 12) (w := 3) (v := 2) (by rfl) (fun k => B.getD k 0) i 1]
    · rfl
    · intro j hj
      interval_cases j <;> simp [testBit_u8_ge]

theorem poly_frombytes_runs {r : Mem Int16} {a : Mem UInt8} {ao : Nat} {B : List UInt8} (hr : r.size = 256) (ha : a.Holds ao B)
    (hB : B.length = 384) : Runs (poly_frombytes r a ao) (fun r' => PolyR r' (ByteDecode12 B) 4095) := by
  refine (poly_frombytes_upd hr ha hB).mono fun r' hu => PolyR.of_upd hr hu (by rfl) fun i hi => ?_
  have hlt := decNum_lt 12 (fun k => B.getD k 0) i
  rw [zq_i16_nat (by omega), toInt_i16_nat (by omega)]
  refine ⟨?_, by omega, by omega⟩
  unfold ByteDecode12
  rw [byteDecode]

end Verif.Proof
