import Verif.Avx.PackRuns

/-! # Encoding and decoding in the AVX2 code -/

namespace Verif.Avx
open Verif.Spec Verif.Proof
open Verif.Model (ParamSet KYBER_K Polyvec)

theorem all53 {P : Nat → Prop} (h : ∀ h : Fin 53, ∀ l : Fin 64, 64 * h.val + l.val ≤ 3329 → P (64 * h.val + l.val)) (u : Nat) (hu : u ≤ 3329) : P u := by
  have := h ⟨u / 64, by omega⟩ ⟨u % 64, by omega⟩ (by show 64 * (u / 64) + u % 64 ≤ _; omega)
  rwa [show 64 * (u / 64) + u % 64 = u from by omega] at this

theorem bv_of_toInt {x : Int16} {u : Nat} (h : x.toInt = u) : x.toBitVec = BitVec.ofNat 16 u := by
  apply BitVec.eq_of_toInt_eq
  have h1 := x.toInt_lt
  have h2 : x.toBitVec.toInt = u := h
  have h3 : (BitVec.ofNat 16 u).toNat = u := by rw [BitVec.toNat_ofNat]; omega
  rw [h2, BitVec.toInt_eq_toNat_of_lt (by rw [h3]; omega), h3]

/-- A coefficient in 0..q as a natural number. -/
theorem coef_nat {x : Int16} {f : Zq} (h1 : zq x = f) (h2 : 0 ≤ x.toInt) (h3 : x.toInt ≤ 3329) :
    ∃ u, u ≤ 3329 ∧ x.toBitVec = BitVec.ofNat 16 u ∧ u % 3329 = f.val := by
  refine ⟨x.toInt.toNat, by omega, bv_of_toInt (by omega), ?_⟩
  have := zq_val (a := x)
  rw [h1] at this
  omega

/-! ## Compression -/

theorem compW {d : Nat} {tW : W → W}
    (h : ∀ u, u ≤ 3329 → (tW (BitVec.ofNat 16 u)).toNat = (2 * 2 ^ d * (u % 3329) + 3329) / 6658 % 2 ^ d) {x : Int16} {f : Zq}
    (h1 : zq x = f) (h2 : 0 ≤ x.toInt) (h3 : x.toInt ≤ 3329) : (tW x.toBitVec).toNat = Compress d f := by
  obtain ⟨u, hu, e, hm⟩ := coef_nat h1 h2 h3
  rw [e, h u hu, hm, compress_nat]

/-- Compression by a program whose symbolic run has been checked. -/
theorem comp_runs {T : Ex → Ex} {tW : W → W} (hT : ∀ ρ i, (T (.v 1 i)).eval ρ = tW (ρ 1 i)) {d N : Nat} {p : List I}
    (hrun : headIs (run (V.sem (nameT T d) numP) p ⟨noRegs, packObjs N⟩)
      (fun cs => cellsBits (nameT T d) numP (fun m => packB d m 8 0) (cs.take (32 * d)) 0) = true) (hw : p.all (I.stIn [0]) = true)
    (hd : 0 < d) (hwd : d ≤ 16) (hN : 32 * d ≤ N)
    (hall : ∀ u, u ≤ 3329 → (tW (BitVec.ofNat 16 u)).toNat = (2 * 2 ^ d * (u % 3329) + 3329) / 6658 % 2 ^ d)
    {a : Mem Int16} {f : Rq} (ha : PolyQ a (ext f)) {r : Mem UInt8} {ro : Nat} (hr : ro + N ≤ r.size) :
    Runs (callBytes [0] p false r ro [polyObj a, tabObj qdata]) (fun r' => r'.size = r.size ∧
      r'.Holds ro (ByteEncode d fun i => Compress d (f i)) ∧ ∀ j, (j < ro ∨ ro + N ≤ j) → r'[j]? = r[j]?) := by
  obtain ⟨x, hx, hxf⟩ := ha.has
  refine Runs.mono (pack_enc (g := id) (F := fun i => Compress d (ext f i)) hT hrun hw hd hwd hN ha.size hx (fun i hi => hi) (fun i hi => ?_) hr) ?_
  · obtain ⟨h1, h2, h3⟩ := hxf i hi
    exact ⟨compW hall h1 h2 h3, compress_lt _ _⟩
  · rintro r' ⟨h1, h2, h3⟩
    refine ⟨h1, h2.holds_of (by rw [byteEncode_length]) fun i hi => ?_, h3⟩
    rw [byteEncode_get]
    rw [byteEncode_length] at hi
    refine encByte_congr fun j hj => ?_
    have : (8 * i + j) / d < 256 := by rw [Nat.div_lt_iff_lt_mul hd]; omega
    rw [extN_lt _ this, ext_lt _ this]

theorem compress4_st : poly_compress_128.all (I.stIn [0]) = true := by decide +kernel
theorem compress5_st : poly_compress_160.all (I.stIn [0]) = true := by decide +kernel
theorem compress10_st : poly_compress10_prog.all (I.stIn [0]) = true := by decide +kernel
theorem compress11_st : poly_compress11_prog.all (I.stIn [0]) = true := by decide +kernel
theorem ntttobytes_st : ntttobytes_avx.all (I.stIn [0]) = true := by decide +kernel
theorem tomsg_st : poly_tomsg_prog.all (I.stIn [0]) = true := by decide +kernel
theorem decompress4_st : poly_decompress_128.all (I.stIn [0]) = true := by decide +kernel
theorem decompress5_st : poly_decompress_160.all (I.stIn [0]) = true := by decide +kernel
theorem decompress10_st : poly_decompress10_prog.all (I.stIn [0]) = true := by decide +kernel
theorem decompress11_st : poly_decompress11_prog.all (I.stIn [0]) = true := by decide +kernel
theorem nttfrombytes_st : nttfrombytes_avx.all (I.stIn [0]) = true := by decide +kernel
theorem frommsg_st : poly_frommsg_prog.all (I.stIn [0]) = true := by decide +kernel
theorem cbd2_st : cbd2_prog.all (I.stIn [0]) = true := by decide +kernel
theorem cbd3_st : cbd3_prog.all (I.stIn [0]) = true := by decide +kernel

attribute [local irreducible] poly_compress_128 poly_compress_160 qdata headIs run in
theorem poly_compress_runs {p : ParamSet} {a : Mem Int16} {f : Rq} (ha : PolyQ a (ext f)) {r : Mem UInt8} {ro : Nat}
    (hr : ro + Verif.Model.KYBER_POLYCOMPRESSEDBYTES p ≤ r.size) :
    Runs (poly_compress p r ro a) (fun r' => r.Wrote r' ro (ByteEncode (fips p).dv fun i => Compress (fips p).dv (f i))) := by
  have key : ∀ {d : Nat} {r' : Mem UInt8}, (r'.size = r.size ∧ r'.Holds ro (ByteEncode d fun i => Compress d (f i)) ∧
      ∀ j, (j < ro ∨ ro + 32 * d ≤ j) → r'[j]? = r[j]?) → r.Wrote r' ro (ByteEncode d fun i => Compress d (f i)) := fun h =>
    ⟨h.1, h.2.1, by rw [byteEncode_length]; exact h.2.2⟩
  unfold poly_compress
  cases p
  · exact Runs.mono (comp_runs (d := 4) (tW := c4W) (fun _ _ => rfl) compress4_check compress4_st (by omega) (by omega) (by omega) (all53 c4_all) ha hr) fun _ h => key h
  · exact Runs.mono (comp_runs (d := 4) (tW := c4W) (fun _ _ => rfl) compress4_check compress4_st (by omega) (by omega) (by omega) (all53 c4_all) ha hr) fun _ h => key h
  · exact Runs.mono (comp_runs (d := 5) (tW := c5W) (fun _ _ => rfl) compress5_check compress5_st (by omega) (by omega) (by omega) (all53 c5_all) ha hr) fun _ h => key h

attribute [local irreducible] poly_compress10_prog qdata headIs run in
theorem poly_compress10_runs {a : Mem Int16} {f : Rq} (ha : PolyQ a (ext f)) {r : Mem UInt8} {ro : Nat} (hr : ro + 320 ≤ r.size) :
    Runs (poly_compress10 r ro a) (fun r' => r'.size = r.size ∧
      r'.Holds ro (ByteEncode 10 fun i => Compress 10 (f i)) ∧ ∀ j, (j < ro ∨ ro + 320 ≤ j) → r'[j]? = r[j]?) := by
  unfold poly_compress10
  exact comp_runs (d := 10) (tW := c10W) (fun _ _ => rfl) compress10_check compress10_st (by omega) (by omega) (by omega) (all53 c10_all) ha hr

attribute [local irreducible] poly_compress11_prog qdata headIs run in
theorem poly_compress11_runs {a : Mem Int16} {f : Rq} (ha : PolyQ a (ext f)) {r : Mem UInt8} {ro : Nat} (hr : ro + 354 ≤ r.size) :
    Runs (poly_compress11 r ro a) (fun r' => r'.size = r.size ∧
      r'.Holds ro (ByteEncode 11 fun i => Compress 11 (f i)) ∧ ∀ j, (j < ro ∨ ro + 354 ≤ j) → r'[j]? = r[j]?) := by
  unfold poly_compress11
  exact comp_runs (d := 11) (tW := c11W) (fun _ _ => rfl) compress11_check compress11_st (by omega) (by omega) (by omega) (all53 c11_all) ha hr

end Verif.Avx
