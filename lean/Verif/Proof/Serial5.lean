import Verif.Proof.Serial4

/-! # poly_decompress, poly_tomsg, poly_frommsg -/

namespace Verif.Proof
open Verif.Model Verif.Spec

/-- The decompressed value as the code computes it. -/
def dval (d n : Nat) : Nat := (n * 3329 + 2 ^ (d - 1)) / 2 ^ d

theorem dval_zq (d n : Nat) : ((dval (d + 1) n : Nat) : Zq) = Decompress (d + 1) n := by
  rw [decompress_nat, dval, Nat.mul_comm n]; rfl

theorem dval_le (d n : Nat) (hd : d ≤ 10) (hn : n < 2 ^ (d + 1)) : dval (d + 1) n ≤ 3328 := by
  unfold dval
  have : n * 3329 + 2 ^ (d + 1 - 1) < 3329 * 2 ^ (d + 1) := by
    have h1 : 2 ^ d ≤ 2 ^ 10 := Nat.pow_le_pow_right (by omega) hd
    rw [pow_succ] at *
    simp only [Nat.add_sub_cancel]
    omega
  have := (Nat.div_lt_iff_lt_mul (Nat.two_pow_pos (d + 1))).mpr this
  omega

/-- A polynomial object filled with decompressed values. -/
theorem PolyR.of_dval {r r' : Mem Int16} {n d : Nat} {B : List UInt8} (hd : d ≤ 10) (hr : r.size = 256)
    (h : r.Upd r' 0 n (fun i => i16 ((dval (d + 1) (decNum (d + 1) (fun k => B.getD k 0) i) : Nat) : Int))) (hn : n = 256) :
    PolyR r' (fun i => Decompress (d + 1) (ByteDecode (d + 1) B i)) 3328 := by
  refine PolyR.of_upd hr h hn fun i hi => ?_
  have hlt := decNum_lt (d + 1) (fun k => B.getD k 0) i
  have hle := dval_le d _ hd hlt
  rw [zq_i16_nat (by omega), toInt_i16_nat (by omega)]
  refine ⟨?_, by omega, by omega⟩
  rw [dval_zq, byteDecode]

theorem poly_decompress_128_runs {r : Mem Int16} {a : Mem UInt8} {ao : Nat} {B : List UInt8} (hr : r.size = 256) (ha : a.Holds ao B)
    (hB : B.length = 128) : Runs (poly_decompress_128 r a ao) (fun r' => PolyR r' (fun i => Decompress 4 (ByteDecode 4 B i)) 3328) := by
  have : Runs (poly_decompress_128 r a ao) (fun r' => r.Upd r' 0 (2 * 128)
      (fun i => i16 ((dval 4 (decNum 4 (fun k => B.getD k 0) i) : Nat) : Int))) := by
    refine runs_fill fun i m' hi hu => ?_
    have hi : i < 128 := hi
    simp only [runs_bind]
    have g0 := ha.getElem? 0 (i := i) (by omega)
    rw [runs_rd_of g0]
    have hs := hu.size
    refine runs_wr_next (Mem.Upd.refl m' (0 + 2 * i) (fun j => i16 ((dval 4 (decNum 4 (fun k => B.getD k 0) (2 * i + j)) : Nat) : Int))) (by omega) (by omega) ?_ fun m1 h1 => ?_
    · rw [Nat.and_two_pow_sub_one_eq_mod _ 4]
      rw [dec_block (d := 4) (w := 1) (v := 2) (by rfl) (fun k => B.getD k 0) i 0]
      · rw [Nat.shiftRight_eq_div_pow]; rfl
      · intro j hj
        interval_cases j <;> simp
    rw [runs_rd_of g0]
    refine runs_wr_next h1 (by omega) (by omega) ?_ fun m1 h1 => h1
    · have hb : (B.getD i 0).toNat >>> 4 = (B.getD i 0).toNat >>> 4 % 2 ^ 4 := by
        have := (B.getD i 0).toNat_lt
        rw [Nat.shiftRight_eq_div_pow]; omega
      rw [hb]
      rw [dec_block (d := 4) (w := 1) (v := 2) (by rfl) (fun k => B.getD k 0) i 1]
      · rw [Nat.shiftRight_eq_div_pow]; rfl
      · intro j hj
        interval_cases j <;> simp
  exact this.mono fun r' hu => PolyR.of_dval (d := 3) (by omega) hr hu (by rfl)

/-- The multiply-add-shift of decompression on 32-bit words. -/
theorem dword (d n : Nat) (hd : d ≤ 10) (hn : n < 2 ^ (d + 1)) (S O : UInt32) (hS : S.toNat = d + 1) (hO : O.toNat = 2 ^ d) :
    ((UInt32.ofNat n * 3329 + O) >>> S).toNat = dval (d + 1) n := by
  have h1 : 2 ^ d ≤ 2 ^ 10 := Nat.pow_le_pow_right (by omega) hd
  have h2 : 2 ^ (d + 1) = 2 * 2 ^ d := by rw [pow_succ]; omega
  simp only [UInt32.toNat_shiftRight, UInt32.toNat_mul, UInt32.toNat_add, UInt32.toNat_ofNat', UInt32.reduceToNat, Nat.shiftRight_eq_div_pow, hS, hO]
  rw [show (d + 1) % 32 = d + 1 from by omega]
  rw [show n % 2 ^ 32 = n from by omega, show n * 3329 % 2 ^ 32 = n * 3329 from by omega,
    show (n * 3329 + 2 ^ d) % 2 ^ 32 = n * 3329 + 2 ^ d from by omega]
  rfl

theorem toNat_ofNat8_and {x k : Nat} (hk : k ≤ 8) : (UInt8.ofNat x).toNat &&& (2 ^ k - 1) = x % 2 ^ k := by
  rw [Nat.and_two_pow_sub_one_eq_mod]
  simp
  exact Nat.mod_mod_of_dvd x (show 2 ^ k ∣ 2 ^ 8 from Nat.pow_dvd_pow 2 hk)

theorem toNat_ofNat16_and {x k : Nat} (hk : k ≤ 16) : (UInt16.ofNat x).toNat &&& (2 ^ k - 1) = x % 2 ^ k := by
  rw [Nat.and_two_pow_sub_one_eq_mod]
  simp
  exact Nat.mod_mod_of_dvd x (show 2 ^ k ∣ 2 ^ 16 from Nat.pow_dvd_pow 2 hk)

theorem poly_decompress_160_runs {r : Mem Int16} {a : Mem UInt8} {ao : Nat} {B : List UInt8} (hr : r.size = 256) (ha : a.Holds ao B)
    (hB : B.length = 160) : Runs (poly_decompress_160 r a ao) (fun r' => PolyR r' (fun i => Decompress 5 (ByteDecode 5 B i)) 3328) := by
  unfold poly_decompress_160
  rw [runs_bind]
  refine Runs.mono (runs_fill2 (P := fun t : Mem UInt8 => t.size = 8) (o := 0) (w := 8) (n := 32)
    (f := fun i => i16 ((dval 5 (decNum 5 (fun k => B.getD k 0) i) : Nat) : Int)) (by simp) ?_) ?_
  · intro i m' t hi hu ht
    have g : ∀ j, j < 5 → a[ao + 5 * i + j]? = some (some (B.getD (5 * i + j) 0)) := fun j hj => by
      have := ha.getElem? 0 (i := 5 * i + j) (by omega)
      rwa [← Nat.add_assoc] at this
    simp only [runs_bind]
    have key : ∀ (e : Nat → Nat), (∀ c, c < 8 → ∀ j, j < 5 → (e c).testBit j =
        (B.getD (5 * i + (c * 5 + j) / 8) 0).toNat.testBit ((c * 5 + j) % 8)) →
        ∀ t', t.Upd t' 0 8 (fun c => UInt8.ofNat (e c)) →
        Runs (cfor 0 8 m' fun j r => do
            let x ← rd t' j
            wr r (8 * i + j) (i16 (((UInt32.ofNat (x.toNat &&& 31) * 3329 + 16) >>> 5).toNat)))
          (fun r' => m'.Upd r' (0 + 8 * i) 8 (fun j => i16 ((dval 5 (decNum 5 (fun k => B.getD k 0) (8 * i + j)) : Nat) : Int))) := by
      intro e he t' ht'
      refine runs_fill1 fun c m'' hc hm'' => ?_
      have hm : (UInt8.ofNat (e c)).toNat &&& 31 = e c % 2 ^ 5 := toNat_ofNat8_and (k := 5) (by omega)
      rw [runs_bind, runs_rd_of (ht'.has.get0 hc), hm, dec_block (d := 5) (w := 5) (v := 8) (by rfl) (fun k => B.getD k 0) i c]
      · rw [dword 4 _ (by omega) (bitsVal_lt 5 _) 5 16 rfl rfl, Nat.zero_add]
        exact runs_wr_upd (by rw [hm''.size, hu.size]; omega)
      · exact he c hc
    have h0 := Mem.Upd.refl t 0 (fun c => UInt8.ofNat ([
      (B.getD (5 * i + 0) 0).toNat >>> 0,
      ((B.getD (5 * i + 0) 0).toNat >>> 5) ||| ((B.getD (5 * i + 1) 0).toNat <<< 3),
      (B.getD (5 * i + 1) 0).toNat >>> 2,
      ((B.getD (5 * i + 1) 0).toNat >>> 7) ||| ((B.getD (5 * i + 2) 0).toNat <<< 1),
      ((B.getD (5 * i + 2) 0).toNat >>> 4) ||| ((B.getD (5 * i + 3) 0).toNat <<< 4),
      (B.getD (5 * i + 3) 0).toNat >>> 1,
      ((B.getD (5 * i + 3) 0).toNat >>> 6) ||| ((B.getD (5 * i + 4) 0).toNat <<< 2),
      (B.getD (5 * i + 4) 0).toNat >>> 3].getD c 0))
    rw [runs_rd_of (g 0 (by omega))]
    refine runs_wr_next h0 rfl (by omega) rfl fun t1 h1 => ?_
    rw [runs_rd_of (g 0 (by omega)), runs_rd_of (g 1 (by omega))]
    refine runs_wr_next h1 rfl (by omega) rfl fun t2 h2 => ?_
    rw [runs_rd_of (g 1 (by omega))]
    refine runs_wr_next h2 rfl (by omega) rfl fun t3 h3 => ?_
    rw [runs_rd_of (g 1 (by omega)), runs_rd_of (g 2 (by omega))]
    refine runs_wr_next h3 rfl (by omega) rfl fun t4 h4 => ?_
    rw [runs_rd_of (g 2 (by omega)), runs_rd_of (g 3 (by omega))]
    refine runs_wr_next h4 rfl (by omega) rfl fun t5 h5 => ?_
    rw [runs_rd_of (g 3 (by omega))]
    refine runs_wr_next h5 rfl (by omega) rfl fun t6 h6 => ?_
    rw [runs_rd_of (g 3 (by omega)), runs_rd_of (g 4 (by omega))]
    refine runs_wr_next h6 rfl (by omega) rfl fun t7 h7 => ?_
    rw [runs_rd_of (g 4 (by omega))]
    refine runs_wr_next h7 rfl (by omega) rfl fun t8 h8 => ?_
    refine (key _ ?_ t8 h8).mono fun r' hr' => ?_
    · intro c hc j hj
      interval_cases c <;> interval_cases j <;> simp [testBit_u8_ge]
    · rw [runs_pure]
      exact ⟨hr', by rw [h8.size, ht]⟩
  · rintro ⟨r', t⟩ ⟨hu, _⟩
    rw [runs_pure]
    exact PolyR.of_dval (d := 4) (by omega) hr hu (by rfl)

end Verif.Proof
