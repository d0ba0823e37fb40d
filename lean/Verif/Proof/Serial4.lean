import Verif.Proof.Serial

/-! # poly_compress, poly_decompress, poly_tomsg, poly_frommsg -/

namespace Verif.Proof
open Verif.Model Verif.Spec

/-- The compressed coefficients. -/
def cvals (d : Nat) (f : Rq) (i : Nat) : Nat := Compress d (ext f i)

theorem compress_lt (d : Nat) (x : Zq) : Compress d x < 2 ^ d := by
  rw [compress_nat]; exact Nat.mod_lt _ (Nat.two_pow_pos d)

theorem cvals_lt (d : Nat) (f : Rq) (i : Nat) : cvals d f i < 2 ^ d := compress_lt _ _

theorem comp4_word (x : Zq) :
    ((((u32 ((x.val : Int) * 2 ^ 4)) + 1665) * 80635) >>> 28 &&& 0xf).toUInt8.toNat = Compress 4 x := by
  have hx := zq_val_lt (a := x)
  rw [compress_nat]
  have h := comp4_nat x.val ((2 * 2 ^ 4 * x.val + 3329) / 6658) hx (by norm_num)
  have e : ((x.val : Int) * 2 ^ 4 % 4294967296).toNat = 16 * x.val := by omega
  unfold u32
  rw [e]
  simp only [UInt32.toNat_toUInt8, UInt32.toNat_and, UInt32.toNat_shiftRight, UInt32.toNat_mul, UInt32.toNat_add, UInt32.toNat_ofNat',
    UInt32.reduceToNat, Nat.shiftRight_eq_div_pow]
  rw [Nat.and_two_pow_sub_one_eq_mod _ 4, ← h, show (16 * x.val % 2 ^ 32 + 1665) % 2 ^ 32 = 16 * x.val + 1665 from by omega]
  generalize (16 * x.val + 1665) * 80635 = X
  rw [show (28 % 32) = 28 from rfl]
  omega

theorem comp5_word (x : Zq) :
    ((((u32 ((x.val : Int) * 2 ^ 5)) + 1664) * 40318) >>> 27 &&& 0x1f).toUInt8.toNat = Compress 5 x := by
  have hx := zq_val_lt (a := x)
  rw [compress_nat]
  have h := comp5_nat x.val ((2 * 2 ^ 5 * x.val + 3329) / 6658) hx (by norm_num)
  have e : ((x.val : Int) * 2 ^ 5 % 4294967296).toNat = 32 * x.val := by omega
  unfold u32
  rw [e]
  simp only [UInt32.toNat_toUInt8, UInt32.toNat_and, UInt32.toNat_shiftRight, UInt32.toNat_mul, UInt32.toNat_add, UInt32.toNat_ofNat',
    UInt32.reduceToNat, Nat.shiftRight_eq_div_pow]
  rw [Nat.and_two_pow_sub_one_eq_mod _ 5, ← h, show (32 * x.val % 2 ^ 32 + 1664) % 2 ^ 32 = 32 * x.val + 1664 from by omega]
  generalize (32 * x.val + 1664) * 40318 = X
  rw [show (27 % 32) = 27 from rfl]
  omega

/-- Write step stated on bytes of an encoding. -/
theorem runs_wr_byte {m0 m : Mem UInt8} {o k i j : Nat} {d w v : Nat} {F : Nat → Nat} {x : Nat} {Q : Mem UInt8 → Prop}
    (hd : 8 * w = d * v) (hd0 : 0 < d)
    (hu : m0.Upd m o k (fun j => encByte d F (w * i + j))) (hi : j = o + k)
    (hs : o + k < m0.size) (hx : ∀ j, j < 8 → x.testBit j = (F (v * i + (8 * k + j) / d)).testBit ((8 * k + j) % d))
    (h : ∀ m', m0.Upd m' o (k + 1) (fun j => encByte d F (w * i + j)) → Q m') : Runs (wr m j (UInt8.ofNat x)) Q :=
  runs_wr_next hu hi hs (byte_block hd hd0 F i k x hx) h

theorem poly_compress_128_runs {r : Mem UInt8} {ro : Nat} {a : Mem Int16} {f : Rq} (ha : PolyR a f 3328) (hr : ro + 128 ≤ r.size) :
    Runs (poly_compress_128 r ro a) (fun r' => r.Wrote r' ro (ByteEncode 4 fun i => Compress 4 (f i))) := by
  unfold poly_compress_128
  rw [runs_bind]
  refine Runs.mono (runs_fill2 (P := fun t : Mem UInt8 => t.size = 8) (o := ro) (w := 4) (n := 32) (f := encByte 4 (cvals 4 f))
    (by simp) ?_) ?_
  · intro i m' t hi hu ht
    simp only [runs_bind]
    refine Runs.mono (runs_fill1 (o := 0) (f := fun j => UInt8.ofNat (cvals 4 f (8 * i + j))) ?_) ?_
    · intro j t' hj ht'
      obtain ⟨x, hx0, hx, hx1, hx2⟩ := PolyIs.coef ha (8 * i + j) (by omega)
      simp only [runs_bind]
      rw [runs_rd_of hx0]
      refine (caddq_runs hx1 hx2).mono fun u hu' => ?_
      rw [runs_ishl, hu', hx]
      have := zq_val_lt (a := ext f (8 * i + j))
      refine ⟨by omega, by omega, ?_⟩
      have hc := comp4_word (ext f (8 * i + j))
      refine (runs_wr_upd (by rw [ht'.size]; omega)).mono fun m'' h'' => ?_
      rw [Nat.zero_add]
      refine h''.congr fun _ _ => ?_
      apply UInt8.toNat_inj.mp
      rw [hc]
      have := cvals_lt 4 f (8 * i + j)
      simp
      unfold cvals at *
      omega
    · intro t1 ht1
      have hb : ∀ j, (UInt8.ofNat (cvals 4 f (8 * i + j))).toNat = cvals 4 f (8 * i + j) := fun j => by
        have := cvals_lt 4 f (8 * i + j)
        simp; omega
      have hg : ∀ j, j < 8 → t1[j]? = some (some (UInt8.ofNat (cvals 4 f (8 * i + j)))) := fun j hj => ht1.has.get0 hj

      have hs := hu.size
      have h0 := Mem.Upd.refl m' (ro + 4 * i) (fun j => encByte 4 (cvals 4 f) (4 * i + j))
      rw [runs_rd_of (hg 0 (by omega)), runs_rd_of (hg 1 (by omega)), hb, hb]
      refine runs_wr_byte (d := 4) (w := 4) (v := 8) (i := i) (F := cvals 4 f) rfl (by omega) h0 (by omega) (by omega) ?_ ?_
      · intro j hj; interval_cases j <;> simp [testBit_ge (cvals_lt 4 f _)]
      intro m1 h1
      rw [runs_rd_of (hg 2 (by omega)), runs_rd_of (hg 3 (by omega)), hb, hb]
      refine runs_wr_byte (d := 4) (w := 4) (v := 8) (i := i) (F := cvals 4 f) rfl (by omega) h1 (by omega) (by omega) ?_ ?_
      · intro j hj; interval_cases j <;> simp [testBit_ge (cvals_lt 4 f _)]
      intro m2 h2
      rw [runs_rd_of (hg 4 (by omega)), runs_rd_of (hg 5 (by omega)), hb, hb]
      refine runs_wr_byte (d := 4) (w := 4) (v := 8) (i := i) (F := cvals 4 f) rfl (by omega) h2 (by omega) (by omega) ?_ ?_
      · intro j hj; interval_cases j <;> simp [testBit_ge (cvals_lt 4 f _)]
      intro m3 h3
      rw [runs_rd_of (hg 6 (by omega)), runs_rd_of (hg 7 (by omega)), hb, hb]
      refine runs_wr_byte (d := 4) (w := 4) (v := 8) (i := i) (F := cvals 4 f) rfl (by omega) h3 (by omega) (by omega) ?_ ?_
      · intro j hj; interval_cases j <;> simp [testBit_ge (cvals_lt 4 f _)]
      intro m4 h4
      rw [runs_pure]
      exact ⟨h4, by rw [ht1.size, ht]⟩
  · rintro ⟨r', t⟩ ⟨hu, _⟩
    rw [runs_pure]
    exact wrote_encode (by omega) hu (by omega) fun i hi => by unfold cvals; rw [ext_lt f hi]

theorem poly_compress_160_runs {r : Mem UInt8} {ro : Nat} {a : Mem Int16} {f : Rq} (ha : PolyR a f 3328) (hr : ro + 160 ≤ r.size) :
    Runs (poly_compress_160 r ro a) (fun r' => r.Wrote r' ro (ByteEncode 5 fun i => Compress 5 (f i))) := by
  unfold poly_compress_160
  rw [runs_bind]
  refine Runs.mono (runs_fill2 (P := fun t : Mem UInt8 => t.size = 8) (o := ro) (w := 5) (n := 32) (f := encByte 5 (cvals 5 f))
    (by simp) ?_) ?_
  · intro i m' t hi hu ht
    simp only [runs_bind]
    refine Runs.mono (runs_fill1 (o := 0) (f := fun j => UInt8.ofNat (cvals 5 f (8 * i + j))) ?_) ?_
    · intro j t' hj ht'
      obtain ⟨x, hx0, hx, hx1, hx2⟩ := PolyIs.coef ha (8 * i + j) (by omega)
      simp only [runs_bind]
      rw [runs_rd_of hx0]
      refine (caddq_runs hx1 hx2).mono fun u hu' => ?_
      rw [runs_ishl, hu', hx]
      have := zq_val_lt (a := ext f (8 * i + j))
      refine ⟨by omega, by omega, ?_⟩
      have hc := comp5_word (ext f (8 * i + j))
      refine (runs_wr_upd (by rw [ht'.size]; omega)).mono fun m'' h'' => ?_
      rw [Nat.zero_add]
      refine h''.congr fun _ _ => ?_
      apply UInt8.toNat_inj.mp
      rw [hc]
      have := cvals_lt 5 f (8 * i + j)
      simp
      unfold cvals at *
      omega
    · intro t1 ht1
      have hb : ∀ j, (UInt8.ofNat (cvals 5 f (8 * i + j))).toNat = cvals 5 f (8 * i + j) := fun j => by
        have := cvals_lt 5 f (8 * i + j)
        simp; omega
      have hg : ∀ j, j < 8 → t1[j]? = some (some (UInt8.ofNat (cvals 5 f (8 * i + j)))) := fun j hj => ht1.has.get0 hj

      have hs := hu.size
      have h0 := Mem.Upd.refl m' (ro + 5 * i) (fun j => encByte 5 (cvals 5 f) (5 * i + j))
      rw [runs_rd_of (hg 0 (by omega)), runs_rd_of (hg 1 (by omega)), hb, hb]
      refine runs_wr_byte (d := 5) (w := 5) (v := 8) (i := i) (F := cvals 5 f) rfl (by omega) h0 (by omega) (by omega) ?_ ?_
      · intro j hj; interval_cases j <;> simp [testBit_ge (cvals_lt 5 f _)]
      intro m1 h1
      rw [runs_rd_of (hg 1 (by omega)), runs_rd_of (hg 2 (by omega)), runs_rd_of (hg 3 (by omega)), hb, hb, hb]
      refine runs_wr_byte (d := 5) (w := 5) (v := 8) (i := i) (F := cvals 5 f) rfl (by omega) h1 (by omega) (by omega) ?_ ?_
      · intro j hj; interval_cases j <;> simp [testBit_ge (cvals_lt 5 f _)]
      intro m2 h2
      rw [runs_rd_of (hg 3 (by omega)), runs_rd_of (hg 4 (by omega)), hb, hb]
      refine runs_wr_byte (d := 5) (w := 5) (v := 8) (i := i) (F := cvals 5 f) rfl (by omega) h2 (by omega) (by omega) ?_ ?_
      · intro j hj; interval_cases j <;> simp [testBit_ge (cvals_lt 5 f _)]
      intro m3 h3
      rw [runs_rd_of (hg 4 (by omega)), runs_rd_of (hg 5 (by omega)), runs_rd_of (hg 6 (by omega)), hb, hb, hb]
      refine runs_wr_byte (d := 5) (w := 5) (v := 8) (i := i) (F := cvals 5 f) rfl (by omega) h3 (by omega) (by omega) ?_ ?_
      · intro j hj; interval_cases j <;> simp [testBit_ge (cvals_lt 5 f _)]
      intro m4 h4
      rw [runs_rd_of (hg 6 (by omega)), runs_rd_of (hg 7 (by omega)), hb, hb]
      refine runs_wr_byte (d := 5) (w := 5) (v := 8) (i := i) (F := cvals 5 f) rfl (by omega) h4 (by omega) (by omega) ?_ ?_
      · intro j hj; interval_cases j <;> simp [testBit_ge (cvals_lt 5 f _)]
      intro m5 h5
      rw [runs_pure]
      exact ⟨h5, by rw [ht1.size, ht]⟩
  · rintro ⟨r', t⟩ ⟨hu, _⟩
    rw [runs_pure]
    exact wrote_encode (by omega) hu (by omega) fun i hi => by unfold cvals; rw [ext_lt f hi]

end Verif.Proof
