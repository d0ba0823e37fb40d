import Verif.Proof.Polyvec

/-! # polyvec_compress -/

namespace Verif.Proof
open Verif.Model Verif.Spec

theorem Mem.get?_set_self {α : Type} {m : Mem α} {i : Nat} {c : Option α} (hi : i < m.size) : (m.setIfInBounds i c)[i]? = some c := by
  rw [Array.getElem?_setIfInBounds_self_of_lt hi]

theorem comp11_word (x : Zq) (t : UInt16) (ht : t.toNat = x.val) :
    (((((t.toUInt64 <<< 11) + 1664) * 645084) >>> 31) &&& 0x7ff).toUInt16.toNat = Compress 11 x := by
  have hx := zq_val_lt (a := x)
  rw [compress_nat]
  have h := comp11_nat x.val ((2 * 2 ^ 11 * x.val + 3329) / 6658) hx (by norm_num)
  simp only [UInt64.toNat_toUInt16, UInt64.toNat_and, UInt64.toNat_shiftRight, UInt64.toNat_shiftLeft, UInt64.toNat_mul, UInt64.toNat_add,
    UInt16.toNat_toUInt64, UInt64.reduceToNat, Nat.shiftRight_eq_div_pow, Nat.shiftLeft_eq, ht]
  rw [show (11 % 64) = 11 from rfl, show (31 % 64) = 31 from rfl, Nat.and_two_pow_sub_one_eq_mod _ 11, ← h,
    show (x.val * 2 ^ 11 % 2 ^ 64 + 1664) % 2 ^ 64 = 2048 * x.val + 1664 from by omega,
    Nat.mod_eq_of_lt (a := (2048 * x.val + 1664) * 645084) (by omega), Nat.mod_eq_of_lt (b := 2 ^ 16)]
  have := Nat.mod_lt ((2048 * x.val + 1664) * 645084 / 2 ^ 31) (Nat.two_pow_pos 11)
  exact lt_of_lt_of_le this (by norm_num)

theorem poly_compress_352_block {r : Mem UInt8} {ro : Nat} {a : Mem Int16} {v : Polyvec} {n : Nat} (hv : v[n]? = some a) {f : Rq} (ha : PolyR a f 3328) (hr : ro + 352 ≤ r.size)
    {t0 : Mem UInt16} (ht0 : t0.size = 8) (off : Nat → Nat) (hoff : ∀ j, off j = ro + 11 * j) :
    Runs (cfor 0 32 (r, t0) fun j (r, t) => do
      let t ← cfor 0 8 t fun k t => do
        let ai ← at' v n
        let t ← wr t k (u16 (← rd ai (8 * j + k)).toInt)
        let t ← wr t k (← caddq16 (← rd t k))
        let d0 := (← rd t k).toUInt64
        let d0 := d0 <<< 11
        let d0 := d0 + 1664
        let d0 := d0 * 645084
        let d0 := d0 >>> 31
        wr t k (d0 &&& 0x7ff).toUInt16
      let o := off j
      let r ← wr r (o + 0) (UInt8.ofNat ((← rd t 0).toNat >>> 0))
      let r ← wr r (o + 1) (UInt8.ofNat (((← rd t 0).toNat >>> 8) ||| ((← rd t 1).toNat <<< 3)))
      let r ← wr r (o + 2) (UInt8.ofNat (((← rd t 1).toNat >>> 5) ||| ((← rd t 2).toNat <<< 6)))
      let r ← wr r (o + 3) (UInt8.ofNat ((← rd t 2).toNat >>> 2))
      let r ← wr r (o + 4) (UInt8.ofNat (((← rd t 2).toNat >>> 10) ||| ((← rd t 3).toNat <<< 1)))
      let r ← wr r (o + 5) (UInt8.ofNat (((← rd t 3).toNat >>> 7) ||| ((← rd t 4).toNat <<< 4)))
      let r ← wr r (o + 6) (UInt8.ofNat (((← rd t 4).toNat >>> 4) ||| ((← rd t 5).toNat <<< 7)))
      let r ← wr r (o + 7) (UInt8.ofNat ((← rd t 5).toNat >>> 1))
      let r ← wr r (o + 8) (UInt8.ofNat (((← rd t 5).toNat >>> 9) ||| ((← rd t 6).toNat <<< 2)))
      let r ← wr r (o + 9) (UInt8.ofNat (((← rd t 6).toNat >>> 6) ||| ((← rd t 7).toNat <<< 5)))
      let r ← wr r (o + 10) (UInt8.ofNat ((← rd t 7).toNat >>> 3))
      pure (r, t))
    (fun s => r.Wrote s.1 ro (ByteEncode 11 fun i => Compress 11 (f i)) ∧ s.2.size = 8) := by
  refine Runs.mono (runs_fill2 (P := fun t : Mem UInt16 => t.size = 8) (o := ro) (w := 11) (n := 32) (f := encByte 11 (cvals 11 f))
    ht0 ?_) ?_
  · intro i m' t hi hu ht
    simp only [runs_bind]
    refine Runs.mono (runs_fill1 (o := 0) (f := fun j => UInt16.ofNat (cvals 11 f (8 * i + j))) ?_) ?_
    · intro j t' hj ht'
      have hts : t'.size = 8 := ht'.size.trans ht
      obtain ⟨x, hx0, hx, hx1, hx2⟩ := PolyIs.coef ha (8 * i + j) (by omega)
      simp only [runs_bind]
      rw [runs_at]
      refine ⟨a, hv, ?_⟩
      rw [runs_rd_of hx0, runs_wr]
      refine ⟨by omega, ?_⟩
      rw [runs_rd_of (Mem.get?_set_self (by omega))]
      refine (caddq16_runs hx1 hx2).mono fun u hu' => ?_
      rw [runs_wr]
      refine ⟨by simp; omega, ?_⟩
      rw [runs_rd_of (Mem.get?_set_self (by simp; omega)), runs_wr]
      refine ⟨by simp; omega, ?_⟩
      rw [hx] at hu'
      have hc := comp11_word _ u hu'
      rw [Nat.zero_add]
      refine ⟨by simp, ?_, ?_⟩
      · intro k hk
        have : k = 0 := by omega
        subst this
        rw [Nat.add_zero, Mem.get?_set_self (by simp; omega)]
        congr 2
        apply UInt16.toNat_inj.mp
        rw [hc]
        have := cvals_lt 11 f (8 * i + j)
        simp
        unfold cvals at *
        omega
      · intro k hk
        rw [Array.getElem?_setIfInBounds_ne (by omega), Array.getElem?_setIfInBounds_ne (by omega), Array.getElem?_setIfInBounds_ne (by omega)]
    · intro t1 ht1
      have hb : ∀ j, (UInt16.ofNat (cvals 11 f (8 * i + j))).toNat = cvals 11 f (8 * i + j) := fun j => by
        have := cvals_lt 11 f (8 * i + j)
        simp; omega
      have hg : ∀ j, j < 8 → t1[j]? = some (some (UInt16.ofNat (cvals 11 f (8 * i + j)))) := fun j hj => ht1.has.get0 hj
      have hs := hu.size
      rw [hoff]
      have h0 := Mem.Upd.refl m' (ro + 11 * i) (fun j => encByte 11 (cvals 11 f) (11 * i + j))
      rw [runs_rd_of (hg 0 (by omega)), hb]
      refine runs_wr_byte (d := 11) (w := 11) (v := 8) (i := i) (F := cvals 11 f) rfl (by omega) h0 (by omega) (by omega) ?_ ?_
      · intro j hj; interval_cases j <;> simp [testBit_ge (cvals_lt 11 f _)]
      intro m1 h1
      rw [runs_rd_of (hg 0 (by omega)), runs_rd_of (hg 1 (by omega)), hb, hb]
      refine runs_wr_byte (d := 11) (w := 11) (v := 8) (i := i) (F := cvals 11 f) rfl (by omega) h1 (by omega) (by omega) ?_ ?_
      · intro j hj; interval_cases j <;> simp [testBit_ge (cvals_lt 11 f _)]
      intro m2 h2
      rw [runs_rd_of (hg 1 (by omega)), runs_rd_of (hg 2 (by omega)), hb, hb]
      refine runs_wr_byte (d := 11) (w := 11) (v := 8) (i := i) (F := cvals 11 f) rfl (by omega) h2 (by omega) (by omega) ?_ ?_
      · intro j hj; interval_cases j <;> simp [testBit_ge (cvals_lt 11 f _)]
      intro m3 h3
      rw [runs_rd_of (hg 2 (by omega)), hb]
      refine runs_wr_byte (d := 11) (w := 11) (v := 8) (i := i) (F := cvals 11 f) rfl (by omega) h3 (by omega) (by omega) ?_ ?_
      · intro j hj; interval_cases j <;> simp [testBit_ge (cvals_lt 11 f _)]
      intro m4 h4
      rw [runs_rd_of (hg 2 (by omega)), runs_rd_of (hg 3 (by omega)), hb, hb]
      refine runs_wr_byte (d := 11) (w := 11) (v := 8) (i := i) (F := cvals 11 f) rfl (by omega) h4 (by omega) (by omega) ?_ ?_
      · intro j hj; interval_cases j <;> simp [testBit_ge (cvals_lt 11 f _)]
      intro m5 h5
      rw [runs_rd_of (hg 3 (by omega)), runs_rd_of (hg 4 (by omega)), hb, hb]
      refine runs_wr_byte (d := 11) (w := 11) (v := 8) (i := i) (F := cvals 11 f) rfl (by omega) h5 (by omega) (by omega) ?_ ?_
      · intro j hj; interval_cases j <;> simp [testBit_ge (cvals_lt 11 f _)]
      intro m6 h6
      rw [runs_rd_of (hg 4 (by omega)), runs_rd_of (hg 5 (by omega)), hb, hb]
      refine runs_wr_byte (d := 11) (w := 11) (v := 8) (i := i) (F := cvals 11 f) rfl (by omega) h6 (by omega) (by omega) ?_ ?_
      · intro j hj; interval_cases j <;> simp [testBit_ge (cvals_lt 11 f _)]
      intro m7 h7
      rw [runs_rd_of (hg 5 (by omega)), hb]
      refine runs_wr_byte (d := 11) (w := 11) (v := 8) (i := i) (F := cvals 11 f) rfl (by omega) h7 (by omega) (by omega) ?_ ?_
      · intro j hj; interval_cases j <;> simp [testBit_ge (cvals_lt 11 f _)]
      intro m8 h8
      rw [runs_rd_of (hg 5 (by omega)), runs_rd_of (hg 6 (by omega)), hb, hb]
      refine runs_wr_byte (d := 11) (w := 11) (v := 8) (i := i) (F := cvals 11 f) rfl (by omega) h8 (by omega) (by omega) ?_ ?_
      · intro j hj; interval_cases j <;> simp [testBit_ge (cvals_lt 11 f _)]
      intro m9 h9
      rw [runs_rd_of (hg 6 (by omega)), runs_rd_of (hg 7 (by omega)), hb, hb]
      refine runs_wr_byte (d := 11) (w := 11) (v := 8) (i := i) (F := cvals 11 f) rfl (by omega) h9 (by omega) (by omega) ?_ ?_
      · intro j hj; interval_cases j <;> simp [testBit_ge (cvals_lt 11 f _)]
      intro m10 h10
      rw [runs_rd_of (hg 7 (by omega)), hb]
      refine runs_wr_byte (d := 11) (w := 11) (v := 8) (i := i) (F := cvals 11 f) rfl (by omega) h10 (by omega) (by omega) ?_ ?_
      · intro j hj; interval_cases j <;> simp [testBit_ge (cvals_lt 11 f _)]
      intro m11 h11
      rw [runs_pure]
      exact ⟨h11, by rw [ht1.size, ht]⟩
  · rintro ⟨r', t⟩ ⟨hu, ht⟩
    exact ⟨wrote_encode (by omega) hu (by omega) fun i hi => by unfold cvals; rw [ext_lt f hi], ht⟩

theorem polyvec_compress_352_runs {p : ParamSet} {r : Mem UInt8} {ro : Nat} {a : Polyvec} {f : Nat → Rq} (ha : VecR (KYBER_K p) a f 3328)
    (hr : ro + 352 * KYBER_K p ≤ r.size) :
    Runs (polyvec_compress_352 p r ro a) (fun r' => r.Wrote r' ro ((List.range (KYBER_K p)).flatMap fun i => ByteEncode 11 fun j => Compress 11 (f i j))) := by
  unfold polyvec_compress_352
  generalize KYBER_K p = k at *
  rw [runs_bind]
  refine Runs.mono (runs_cat (P := fun t : Mem UInt16 => t.size = 8) (o := ro) (w := 352) (L := fun i => ByteEncode 11 fun j => Compress 11 (f i j)) (fun i => byteEncode_length 11 _) (by simp) ?_) ?_
  · intro i m' t hi hm' ht
    obtain ⟨q, hq, hqR⟩ := ha.get i hi
    exact poly_compress_352_block hq hqR (by omega) ht _ (fun j => by unfold KYBER_N; omega)
  · rintro ⟨r', t⟩ ⟨h, _⟩
    rw [runs_pure]
    exact h

theorem comp10_word (x : Zq) (t : UInt16) (ht : t.toNat = x.val) :
    (((((t.toUInt64 <<< 10) + 1665) * 1290167) >>> 32) &&& 0x3ff).toUInt16.toNat = Compress 10 x := by
  have hx := zq_val_lt (a := x)
  rw [compress_nat]
  have h := comp10_nat x.val ((2 * 2 ^ 10 * x.val + 3329) / 6658) hx (by norm_num)
  simp only [UInt64.toNat_toUInt16, UInt64.toNat_and, UInt64.toNat_shiftRight, UInt64.toNat_shiftLeft, UInt64.toNat_mul, UInt64.toNat_add,
    UInt16.toNat_toUInt64, UInt64.reduceToNat, Nat.shiftRight_eq_div_pow, Nat.shiftLeft_eq, ht]
  rw [show (10 % 64) = 10 from rfl, show (32 % 64) = 32 from rfl, Nat.and_two_pow_sub_one_eq_mod _ 10, ← h,
    show (x.val * 2 ^ 10 % 2 ^ 64 + 1665) % 2 ^ 64 = 1024 * x.val + 1665 from by omega,
    Nat.mod_eq_of_lt (a := (1024 * x.val + 1665) * 1290167) (by omega), Nat.mod_eq_of_lt (b := 2 ^ 16)]
  have := Nat.mod_lt ((1024 * x.val + 1665) * 1290167 / 2 ^ 32) (Nat.two_pow_pos 10)
  exact lt_of_lt_of_le this (by norm_num)

theorem poly_compress_320_block {r : Mem UInt8} {ro : Nat} {a : Mem Int16} {v : Polyvec} {n : Nat} (hv : v[n]? = some a) {f : Rq} (ha : PolyR a f 3328) (hr : ro + 320 ≤ r.size)
    {t0 : Mem UInt16} (ht0 : t0.size = 4) (off : Nat → Nat) (hoff : ∀ j, off j = ro + 5 * j) :
    Runs (cfor 0 64 (r, t0) fun j (r, t) => do
      let t ← cfor 0 4 t fun k t => do
        let ai ← at' v n
        let t ← wr t k (u16 (← rd ai (4 * j + k)).toInt)
        let t ← wr t k (← caddq16 (← rd t k))
        let d0 := (← rd t k).toUInt64
        let d0 := d0 <<< 10
        let d0 := d0 + 1665
        let d0 := d0 * 1290167
        let d0 := d0 >>> 32
        wr t k (d0 &&& 0x3ff).toUInt16
      let o := off j
      let r ← wr r (o + 0) (UInt8.ofNat ((← rd t 0).toNat >>> 0))
      let r ← wr r (o + 1) (UInt8.ofNat (((← rd t 0).toNat >>> 8) ||| ((← rd t 1).toNat <<< 2)))
      let r ← wr r (o + 2) (UInt8.ofNat (((← rd t 1).toNat >>> 6) ||| ((← rd t 2).toNat <<< 4)))
      let r ← wr r (o + 3) (UInt8.ofNat (((← rd t 2).toNat >>> 4) ||| ((← rd t 3).toNat <<< 6)))
      let r ← wr r (o + 4) (UInt8.ofNat ((← rd t 3).toNat >>> 2))
      pure (r, t))
    (fun s => r.Wrote s.1 ro (ByteEncode 10 fun i => Compress 10 (f i)) ∧ s.2.size = 4) := by
  refine Runs.mono (runs_fill2 (P := fun t : Mem UInt16 => t.size = 4) (o := ro) (w := 5) (n := 64) (f := encByte 10 (cvals 10 f))
    ht0 ?_) ?_
  · intro i m' t hi hu ht
    simp only [runs_bind]
    refine Runs.mono (runs_fill1 (o := 0) (f := fun j => UInt16.ofNat (cvals 10 f (4 * i + j))) ?_) ?_
    · intro j t' hj ht'
      have hts : t'.size = 4 := ht'.size.trans ht
      obtain ⟨x, hx0, hx, hx1, hx2⟩ := PolyIs.coef ha (4 * i + j) (by omega)
      simp only [runs_bind]
      rw [runs_at]
      refine ⟨a, hv, ?_⟩
      rw [runs_rd_of hx0, runs_wr]
      refine ⟨by omega, ?_⟩
      rw [runs_rd_of (Mem.get?_set_self (by omega))]
      refine (caddq16_runs hx1 hx2).mono fun u hu' => ?_
      rw [runs_wr]
      refine ⟨by simp; omega, ?_⟩
      rw [runs_rd_of (Mem.get?_set_self (by simp; omega)), runs_wr]
      refine ⟨by simp; omega, ?_⟩
      rw [hx] at hu'
      have hc := comp10_word _ u hu'
      rw [Nat.zero_add]
      refine ⟨by simp, ?_, ?_⟩
      · intro k hk
        have : k = 0 := by omega
        subst this
        rw [Nat.add_zero, Mem.get?_set_self (by simp; omega)]
        congr 2
        apply UInt16.toNat_inj.mp
        rw [hc]
        have := cvals_lt 10 f (4 * i + j)
        simp
        unfold cvals at *
        omega
      · intro k hk
        rw [Array.getElem?_setIfInBounds_ne (by omega), Array.getElem?_setIfInBounds_ne (by omega), Array.getElem?_setIfInBounds_ne (by omega)]
    · intro t1 ht1
      have hb : ∀ j, (UInt16.ofNat (cvals 10 f (4 * i + j))).toNat = cvals 10 f (4 * i + j) := fun j => by
        have := cvals_lt 10 f (4 * i + j)
        simp; omega
      have hg : ∀ j, j < 4 → t1[j]? = some (some (UInt16.ofNat (cvals 10 f (4 * i + j)))) := fun j hj => ht1.has.get0 hj
      have hs := hu.size
      rw [hoff]
      have h0 := Mem.Upd.refl m' (ro + 5 * i) (fun j => encByte 10 (cvals 10 f) (5 * i + j))
      rw [runs_rd_of (hg 0 (by omega)), hb]
      refine runs_wr_byte (d := 10) (w := 5) (v := 4) (i := i) (F := cvals 10 f) rfl (by omega) h0 (by omega) (by omega) ?_ ?_
      · intro j hj; interval_cases j <;> simp [testBit_ge (cvals_lt 10 f _)]
      intro m1 h1
      rw [runs_rd_of (hg 0 (by omega)), runs_rd_of (hg 1 (by omega)), hb, hb]
      refine runs_wr_byte (d := 10) (w := 5) (v := 4) (i := i) (F := cvals 10 f) rfl (by omega) h1 (by omega) (by omega) ?_ ?_
      · intro j hj; interval_cases j <;> simp [testBit_ge (cvals_lt 10 f _)]
      intro m2 h2
      rw [runs_rd_of (hg 1 (by omega)), runs_rd_of (hg 2 (by omega)), hb, hb]
      refine runs_wr_byte (d := 10) (w := 5) (v := 4) (i := i) (F := cvals 10 f) rfl (by omega) h2 (by omega) (by omega) ?_ ?_
      · intro j hj; interval_cases j <;> simp [testBit_ge (cvals_lt 10 f _)]
      intro m3 h3
      rw [runs_rd_of (hg 2 (by omega)), runs_rd_of (hg 3 (by omega)), hb, hb]
      refine runs_wr_byte (d := 10) (w := 5) (v := 4) (i := i) (F := cvals 10 f) rfl (by omega) h3 (by omega) (by omega) ?_ ?_
      · intro j hj; interval_cases j <;> simp [testBit_ge (cvals_lt 10 f _)]
      intro m4 h4
      rw [runs_rd_of (hg 3 (by omega)), hb]
      refine runs_wr_byte (d := 10) (w := 5) (v := 4) (i := i) (F := cvals 10 f) rfl (by omega) h4 (by omega) (by omega) ?_ ?_
      · intro j hj; interval_cases j <;> simp [testBit_ge (cvals_lt 10 f _)]
      intro m5 h5
      rw [runs_pure]
      exact ⟨h5, by rw [ht1.size, ht]⟩
  · rintro ⟨r', t⟩ ⟨hu, ht⟩
    exact ⟨wrote_encode (by omega) hu (by omega) fun i hi => by unfold cvals; rw [ext_lt f hi], ht⟩

theorem polyvec_compress_320_runs {p : ParamSet} {r : Mem UInt8} {ro : Nat} {a : Polyvec} {f : Nat → Rq} (ha : VecR (KYBER_K p) a f 3328)
    (hr : ro + 320 * KYBER_K p ≤ r.size) :
    Runs (polyvec_compress_320 p r ro a) (fun r' => r.Wrote r' ro ((List.range (KYBER_K p)).flatMap fun i => ByteEncode 10 fun j => Compress 10 (f i j))) := by
  unfold polyvec_compress_320
  generalize KYBER_K p = k at *
  rw [runs_bind]
  refine Runs.mono (runs_cat (P := fun t : Mem UInt16 => t.size = 4) (o := ro) (w := 320) (L := fun i => ByteEncode 10 fun j => Compress 10 (f i j)) (fun i => byteEncode_length 10 _) (by simp) ?_) ?_
  · intro i m' t hi hm' ht
    obtain ⟨q, hq, hqR⟩ := ha.get i hi
    exact poly_compress_320_block hq hqR (by omega) ht _ (fun j => by unfold KYBER_N; omega)
  · rintro ⟨r', t⟩ ⟨h, _⟩
    rw [runs_pure]
    exact h

end Verif.Proof
