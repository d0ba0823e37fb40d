import Verif.Proof.Msg
import Verif.Proof.PvCompress
import Verif.Proof.PvDecompress
import Verif.Spec.Params
import Verif.Model.Indcpa

/-! # Encoding and decoding undo each other; the parameter-dependent compressions -/

namespace Verif.Proof
open Verif.Model Verif.Spec

theorem getD_lt {α : Type} {l : List α} {n : Nat} {d : α} (h : n < l.length) : l.getD n d = l[n] := by simp [h]

theorem byteDecode_byteEncode (d : Nat) (F : Fin 256 → Nat) (hF : ∀ i, F i < 2 ^ d) : ByteDecode d (ByteEncode d F) = F := by
  funext i
  unfold ByteDecode
  symm
  refine eq_bitsVal (hF i) fun j hj => ?_
  rw [bytesToBits]
  have hd : 0 < d := by omega
  have hk : (i.val * d + j) / 8 < 32 * d := by
    rw [Nat.div_lt_iff_lt_mul (by omega)]
    have : (i.val + 1) * d ≤ 256 * d := Nat.mul_le_mul_right d (by omega)
    rw [Nat.add_mul] at this
    omega
  rw [getD_lt (by rw [byteEncode_length]; exact hk), byteEncode_get, encByte]
  have hlt := bitsVal_lt 8 fun j' => (extN F ((8 * ((i.val * d + j) / 8) + j') / d)).testBit ((8 * ((i.val * d + j) / 8) + j') % d)
  rw [UInt8.toNat_ofNat', Nat.mod_eq_of_lt hlt, testBit_bitsVal]
  have hm : (i.val * d + j) % 8 < 8 := Nat.mod_lt _ (by omega)
  rw [Nat.div_add_mod]
  have h1 : (i.val * d + j) / d = i.val := by
    rw [Nat.mul_comm, Nat.mul_add_div hd, Nat.div_eq_of_lt hj, Nat.add_zero]
  have h2 : (i.val * d + j) % d = j := by rw [Nat.mul_comm, Nat.mul_add_mod, Nat.mod_eq_of_lt hj]
  rw [h1, h2, extN_lt F i.isLt]
  simp [hm]

theorem byteDecode_lt (d : Nat) (B : List UInt8) (i : Fin 256) : ByteDecode d B i < 2 ^ d := bitsVal_lt _ _

theorem byteEncode_byteDecode (d : Nat) (B : List UInt8) (hB : B.length = 32 * d) (hd : 0 < d) : ByteEncode d (ByteDecode d B) = B := by
  refine List.ext_getElem (by rw [byteEncode_length, hB]) fun n h1 h2 => ?_
  rw [byteEncode_get, encByte]
  apply UInt8.toNat_inj.mp
  rw [UInt8.toNat_ofNat', Nat.mod_eq_of_lt (bitsVal_lt 8 _)]
  symm
  refine eq_bitsVal B[n].toNat_lt fun j hj => ?_
  have hk : (8 * n + j) / d < 256 := by rw [Nat.div_lt_iff_lt_mul hd]; omega
  rw [extN_lt _ hk, ByteDecode, testBit_bitsVal]
  have hm : (8 * n + j) % d < d := Nat.mod_lt _ hd
  rw [bytesToBits]
  simp only [Nat.div_add_mod']
  rw [show (8 * n + j) / 8 = n from by omega, show (8 * n + j) % 8 = j from by omega, getD_lt h2]
  simp [hm]

theorem byteDecode12_byteEncode12 (f : Rq) : ByteDecode12 (ByteEncode12 f) = f := by
  funext i
  unfold ByteDecode12 ByteEncode12
  rw [byteDecode_byteEncode 12 _ fun i => lt_of_lt_of_le zq_val_lt (by norm_num)]
  exact ZMod.natCast_zmod_val (f i)

theorem byteEncode12_inj {f g : Rq} (h : ByteEncode12 f = ByteEncode12 g) : f = g := by
  rw [← byteDecode12_byteEncode12 f, h, byteDecode12_byteEncode12]

/-- The widths of compression used by the standard. -/
theorem decompress_val {d : Nat} (hd : d ≤ 10) {y : Nat} (hy : y < 2 ^ (d + 1)) :
    (Decompress (d + 1) y).val = (3329 * y + 2 ^ d) / 2 ^ (d + 1) := by
  rw [decompress_nat, ZMod.val_natCast, Nat.mod_eq_of_lt]
  have := dval_le d y hd hy
  unfold dval at this
  rw [Nat.mul_comm y] at this
  exact lt_of_le_of_lt this (by norm_num)

theorem compress_decompress {d : Nat} (hd : d = 1 ∨ d = 4 ∨ d = 5 ∨ d = 10 ∨ d = 11) {y : Nat} (hy : y < 2 ^ d) :
    Compress d (Decompress d y) = y := by
  rw [compress_nat]
  rcases hd with rfl | rfl | rfl | rfl | rfl
  · rw [decompress_val (d := 0) (by omega) hy, Nat.div_eq_of_lt_le (k := y) (by omega) (by omega), Nat.mod_eq_of_lt hy]
  · rw [decompress_val (d := 3) (by omega) hy, Nat.div_eq_of_lt_le (k := y) (by omega) (by omega), Nat.mod_eq_of_lt hy]
  · rw [decompress_val (d := 4) (by omega) hy, Nat.div_eq_of_lt_le (k := y) (by omega) (by omega), Nat.mod_eq_of_lt hy]
  · rw [decompress_val (d := 9) (by omega) hy, Nat.div_eq_of_lt_le (k := y) (by omega) (by omega), Nat.mod_eq_of_lt hy]
  · rw [decompress_val (d := 10) (by omega) hy, Nat.div_eq_of_lt_le (k := y) (by omega) (by omega), Nat.mod_eq_of_lt hy]

/-- The rounding error as an integer. -/
theorem decompress_compress {d : Nat} (hd : d = 1 ∨ d = 4 ∨ d = 5 ∨ d = 10 ∨ d = 11) (x : Zq) :
    ∃ e : Int, |e| ≤ ((3329 + 2 ^ d) / 2 ^ (d + 1) : Nat) ∧ Decompress d (Compress d x) = x + (e : Zq) := by
  have key : ∀ z u : Nat, ∀ b : Nat, z < 3329 → u < 3329 → (z ≤ u + b ∧ u ≤ z + b ∨ z + 3329 ≤ u + b ∧ u ≤ z + 3329 + b) →
      ∃ e : Int, |e| ≤ (b : Int) ∧ ((z : Nat) : Zq) = (u : Zq) + (e : Zq) := by
    rintro z u b _ _ (h | h)
    · refine ⟨(z : Int) - u, abs_le.mpr ⟨by omega, by omega⟩, ?_⟩
      push_cast; ring
    · refine ⟨(z : Int) + 3329 - u, abs_le.mpr ⟨by omega, by omega⟩, ?_⟩
      push_cast
      have : (3329 : Zq) = 0 := by decide
      rw [this]; ring
  have hx : (x.val : Zq) = x := ZMod.natCast_zmod_val x
  have hc := compress_lt d x
  have hlt := zq_val_lt (a := x)
  rw [← ZMod.natCast_zmod_val (Decompress d (Compress d x))]
  nth_rw 2 [← hx]
  refine key _ _ _ zq_val_lt hlt ?_
  rw [compress_nat] at *
  rcases hd with rfl | rfl | rfl | rfl | rfl
  · rw [decompress_val (d := 0) (by omega) hc]
    clear hx key hc
    generalize x.val = u at *
    generalize hb : (2 * 2 ^ 1 * u + 3329) / 6658 = b
    have h1 : b ≤ 2 ^ 1 := by omega
    rcases Nat.lt_or_ge b (2 ^ 1) with h | h
    · rw [Nat.mod_eq_of_lt h]; omega
    · obtain rfl : b = 2 ^ 1 := by omega
      rw [Nat.mod_self]; omega
  · rw [decompress_val (d := 3) (by omega) hc]
    clear hx key hc
    generalize x.val = u at *
    generalize hb : (2 * 2 ^ 4 * u + 3329) / 6658 = b
    have h1 : b ≤ 2 ^ 4 := by omega
    rcases Nat.lt_or_ge b (2 ^ 4) with h | h
    · rw [Nat.mod_eq_of_lt h]; omega
    · obtain rfl : b = 2 ^ 4 := by omega
      rw [Nat.mod_self]; omega
  · rw [decompress_val (d := 4) (by omega) hc]
    clear hx key hc
    generalize x.val = u at *
    generalize hb : (2 * 2 ^ 5 * u + 3329) / 6658 = b
    have h1 : b ≤ 2 ^ 5 := by omega
    rcases Nat.lt_or_ge b (2 ^ 5) with h | h
    · rw [Nat.mod_eq_of_lt h]; omega
    · obtain rfl : b = 2 ^ 5 := by omega
      rw [Nat.mod_self]; omega
  · rw [decompress_val (d := 9) (by omega) hc]
    clear hx key hc
    generalize x.val = u at *
    generalize hb : (2 * 2 ^ 10 * u + 3329) / 6658 = b
    have h1 : b ≤ 2 ^ 10 := by omega
    rcases Nat.lt_or_ge b (2 ^ 10) with h | h
    · rw [Nat.mod_eq_of_lt h]; omega
    · obtain rfl : b = 2 ^ 10 := by omega
      rw [Nat.mod_self]; omega
  · rw [decompress_val (d := 10) (by omega) hc]
    clear hx key hc
    generalize x.val = u at *
    generalize hb : (2 * 2 ^ 11 * u + 3329) / 6658 = b
    have h1 : b ≤ 2 ^ 11 := by omega
    rcases Nat.lt_or_ge b (2 ^ 11) with h | h
    · rw [Nat.mod_eq_of_lt h]; omega
    · obtain rfl : b = 2 ^ 11 := by omega
      rw [Nat.mod_self]; omega

theorem poly_compress_runs {p : ParamSet} {r : Mem UInt8} {ro : Nat} {a : Mem Int16} {f : Rq} (ha : PolyR a f 3328)
    (hr : ro + KYBER_POLYCOMPRESSEDBYTES p ≤ r.size) :
    Runs (poly_compress p r ro a) (fun r' => r.Wrote r' ro (ByteEncode (fips p).dv fun i => Compress (fips p).dv (f i))) := by
  cases p
  · exact poly_compress_128_runs ha hr
  · exact poly_compress_128_runs ha hr
  · exact poly_compress_160_runs ha hr

theorem poly_decompress_runs {p : ParamSet} {r : Mem Int16} {a : Mem UInt8} {ao : Nat} {B : List UInt8} (hr : r.size = 256) (ha : a.Holds ao B)
    (hB : B.length = KYBER_POLYCOMPRESSEDBYTES p) :
    Runs (poly_decompress p r a ao) (fun r' => PolyR r' (fun i => Decompress (fips p).dv (ByteDecode (fips p).dv B i)) 3328) := by
  cases p
  · exact poly_decompress_128_runs hr ha hB
  · exact poly_decompress_128_runs hr ha hB
  · exact poly_decompress_160_runs hr ha hB

theorem polyvec_compress_runs {p : ParamSet} {r : Mem UInt8} {ro : Nat} {a : Polyvec} {f : Nat → Rq} (ha : VecR (KYBER_K p) a f 3328)
    (hr : ro + KYBER_POLYVECCOMPRESSEDBYTES p ≤ r.size) :
    Runs (polyvec_compress p r ro a) (fun r' => r.Wrote r' ro ((List.range (KYBER_K p)).flatMap fun i =>
      ByteEncode (fips p).du fun j => Compress (fips p).du (f i j))) := by
  cases p
  · exact polyvec_compress_320_runs ha hr
  · exact polyvec_compress_320_runs ha hr
  · exact polyvec_compress_352_runs ha hr

theorem polyvec_decompress_runs {p : ParamSet} {r : Polyvec} {a : Mem UInt8} {ao : Nat} {B : List UInt8} (hr : VecSz (KYBER_K p) r)
    (ha : a.Holds ao B) (hB : B.length = KYBER_POLYVECCOMPRESSEDBYTES p) :
    Runs (polyvec_decompress p r a ao) (fun r' => VecR (KYBER_K p) r'
      (fun i j => Decompress (fips p).du (ByteDecode (fips p).du (slice B (32 * (fips p).du * i) (32 * (fips p).du)) j)) 3328) := by
  cases p
  · exact polyvec_decompress_320_runs hr ha hB
  · exact polyvec_decompress_320_runs hr ha hB
  · exact polyvec_decompress_352_runs hr ha hB

theorem slice_slice {α : Type} {l : List α} {a n b m : Nat} (h : b + m ≤ n) : slice (slice l a n) b m = slice l (a + b) m := by
  unfold slice
  rw [List.drop_take, List.drop_drop, List.take_take, Nat.min_eq_left (by omega)]

theorem vecR_vecMem (k : Nat) (x : Nat → Fin 256 → Int16) (B : Int) (h : ∀ i, i < k → ∀ j, -B ≤ (x i j).toInt ∧ (x i j).toInt ≤ B) :
    VecR k (vecMem k x) (fun i => residues (x i)) B :=
  ⟨by simp [vecMem], fun i hi => ⟨polyMem (x i), by simp [vecMem, hi], polyR_polyMem _ _ (h i hi)⟩⟩

theorem vecSz_vecMem (k : Nat) (x : Nat → Fin 256 → Int16) : VecSz k (vecMem k x) :=
  ⟨by simp [vecMem], fun i hi => ⟨polyMem (x i), by simp [vecMem, hi], polyMem_size _⟩⟩

theorem VecR.exists {k : Nat} {v : Polyvec} {f : Nat → Rq} {B : Int} (h : VecR k v f B) :
    ∃ x, v = vecMem k x ∧ (∀ i, i < k → residues (x i) = f i) ∧ ∀ i, i < k → ∀ j, -B ≤ (x i j).toInt ∧ (x i j).toInt ≤ B := by
  have : ∀ i, ∃ x, i < k → v[i]? = some (polyMem x) ∧ residues x = f i ∧ ∀ j, -B ≤ (x j).toInt ∧ (x j).toInt ≤ B := by
    intro i
    by_cases hi : i < k
    · obtain ⟨q, hq, hqR⟩ := h.get i hi
      obtain ⟨x, h1, h2, h3⟩ := hqR.exists
      exact ⟨x, fun _ => ⟨by rw [hq, h1], h2, h3⟩⟩
    · exact ⟨fun _ => 0, fun h => absurd h hi⟩
  choose x hx using this
  refine ⟨x, ?_, fun i hi => (hx i hi).2.1, fun i hi => (hx i hi).2.2⟩
  apply Array.ext_getElem?
  intro i
  by_cases hi : i < k
  · rw [(hx i hi).1]; simp [vecMem, hi]
  · rw [Array.getElem?_eq_none (by rw [h.size]; omega), Array.getElem?_eq_none (by simp [vecMem]; omega)]

/-- `memcpy` on strings. -/
theorem runs_memcpy_str {dst src : Mem UInt8} {doff soff n : Nat} {l : List UInt8} (hs : src.Holds soff l) (hn : l.length = n)
    (hd : doff + n ≤ dst.size) : Runs (memcpy dst doff src soff n) (fun d => dst.Wrote d doff l) := by
  subst hn
  exact (runs_memcpy (hs.has 0) hd).mono fun d hd => hd.wrote_of rfl fun i hi => by simp [hi]

theorem pack_pk_runs {p : ParamSet} {r : Mem UInt8} {pk : Polyvec} {f : Nat → Rq} {seed : Mem UInt8} {so : Nat} {ρ : List UInt8}
    (hpk : VecR (KYBER_K p) pk f 3328) (hs : seed.Holds so ρ) (hρ : ρ.length = 32) (hr : KYBER_INDCPA_PUBLICKEYBYTES p ≤ r.size) :
    Runs (pack_pk p r pk seed so) (fun r' => r.Wrote r' 0 (((List.range (KYBER_K p)).flatMap fun i => ByteEncode12 (f i)) ++ ρ)) := by
  unfold pack_pk
  have hz : KYBER_INDCPA_PUBLICKEYBYTES p = 384 * KYBER_K p + 32 := by
    unfold KYBER_INDCPA_PUBLICKEYBYTES KYBER_POLYVECBYTES KYBER_POLYBYTES KYBER_SYMBYTES; omega
  have hz' : KYBER_POLYVECBYTES p = 384 * KYBER_K p := by unfold KYBER_POLYVECBYTES KYBER_POLYBYTES; omega
  rw [runs_bind]
  refine (polyvec_tobytes_runs hpk (by omega)).mono fun r1 h1 => ?_
  refine (runs_memcpy_str hs hρ (by rw [h1.size, hz']; omega)).mono fun r2 h2 => ?_
  refine h1.append ?_
  rw [flatMap_length (w := 384) (L := fun i => ByteEncode12 (f i)) fun i => byteEncode_length 12 _]
  rwa [hz', ← Nat.zero_add (384 * KYBER_K p)] at h2

theorem unpack_pk_runs {p : ParamSet} {pk : Polyvec} {seed : Mem UInt8} {r : Mem UInt8} {po : Nat} {B : List UInt8} (hpk : VecSz (KYBER_K p) pk)
    (hseed : seed.size = 32) (hr : r.Holds po B) (hB : B.length = KYBER_INDCPA_PUBLICKEYBYTES p) :
    Runs (unpack_pk p pk seed r po) (fun s => VecR (KYBER_K p) s.1 (fun i => ByteDecode12 (slice B (384 * i) 384)) 4095 ∧
      s.2.Holds 0 (slice B (384 * KYBER_K p) 32)) := by
  unfold unpack_pk
  have hz : KYBER_INDCPA_PUBLICKEYBYTES p = 384 * KYBER_K p + 32 := by
    unfold KYBER_INDCPA_PUBLICKEYBYTES KYBER_POLYVECBYTES KYBER_POLYBYTES KYBER_SYMBYTES; omega
  have hz' : KYBER_POLYVECBYTES p = 384 * KYBER_K p := by unfold KYBER_POLYVECBYTES KYBER_POLYBYTES; omega
  simp only [runs_bind, hz', show KYBER_SYMBYTES = 32 from rfl]
  refine (polyvec_frombytes_runs (B := slice B 0 (384 * KYBER_K p)) hpk (by simpa using hr.slice 0 (384 * KYBER_K p) (by omega)) (length_slice (by omega))).mono fun pk' hpk' => ?_
  refine (runs_memcpy_str (hr.slice (384 * KYBER_K p) 32 (by omega)) (length_slice (by omega)) (by rw [hseed])).mono fun s hs => ?_
  rw [runs_pure]
  refine ⟨hpk'.congr fun i hi => ?_, hs.holds⟩
  rw [slice_slice (by omega), Nat.zero_add]

/-- Pieces of a concatenation of strings of equal length. -/
theorem slice_flatMap {α : Type} {L : Nat → List α} {w n : Nat} (h : ∀ i, (L i).length = w) (R : List α) {i : Nat} (hi : i < n) :
    slice ((List.range n).flatMap L ++ R) (w * i) w = L i := by
  have hle : w * (i + 1) ≤ w * n := Nat.mul_le_mul_left w hi
  rw [Nat.mul_add, Nat.mul_one] at hle
  unfold slice
  rw [List.drop_append_of_le_length (by rw [flatMap_length h]; omega),
    List.take_append_of_le_length (by rw [List.length_drop, flatMap_length h]; omega)]
  have e : List.range n = List.range i ++ (List.range (n - i)).map (i + ·) := by
    rw [← List.range_add]; congr 1; omega
  rw [e, List.flatMap_append, List.drop_append_of_le_length (by rw [flatMap_length h]), List.drop_of_length_le (by rw [flatMap_length h]), List.nil_append]
  obtain ⟨m, hm⟩ : ∃ m, n - i = m + 1 := ⟨n - i - 1, by omega⟩
  rw [hm, List.range_succ_eq_map]
  simp [List.take_append, h]

theorem slice_append_right {α : Type} (l r : List α) {n m : Nat} (hn : l.length = n) (hm : r.length = m) : slice (l ++ r) n m = r := by
  subst hn; subst hm; simp [slice]

theorem slice_append_left {α : Type} (l r : List α) {n : Nat} (hn : l.length = n) : slice (l ++ r) 0 n = l := by
  subst hn; simp [slice]

theorem pack_ciphertext_runs {p : ParamSet} {r : Mem UInt8} {b : Polyvec} {v : Poly} {f : Nat → Rq} {g : Rq}
    (hb : VecR (KYBER_K p) b f 3328) (hv : PolyR v g 3328) (hr : KYBER_INDCPA_BYTES p ≤ r.size) :
    Runs (pack_ciphertext p r b v) (fun r' => r.Wrote r' 0
      (((List.range (KYBER_K p)).flatMap fun i => ByteEncode (fips p).du fun j => Compress (fips p).du (f i j)) ++
        ByteEncode (fips p).dv fun j => Compress (fips p).dv (g j))) := by
  unfold pack_ciphertext
  have hz : KYBER_INDCPA_BYTES p = KYBER_POLYVECCOMPRESSEDBYTES p + KYBER_POLYCOMPRESSEDBYTES p := rfl
  rw [runs_bind]
  refine (polyvec_compress_runs hb (by omega)).mono fun r1 h1 => ?_
  refine (poly_compress_runs hv (by rw [h1.size]; omega)).mono fun r2 h2 => ?_
  refine h1.append ?_
  rw [flatMap_length (w := 32 * (fips p).du) (L := fun i => ByteEncode (fips p).du fun j => Compress (fips p).du (f i j))
    fun i => byteEncode_length _ _]
  have : KYBER_POLYVECCOMPRESSEDBYTES p = 0 + 32 * (fips p).du * KYBER_K p := by cases p <;> rfl
  rwa [this] at h2

theorem unpack_ciphertext_runs {p : ParamSet} {b : Polyvec} {v : Poly} {c : Mem UInt8} {B : List UInt8} (hb : VecSz (KYBER_K p) b)
    (hv : v.size = 256) (hc : c.Holds 0 B) (hB : B.length = KYBER_INDCPA_BYTES p) :
    Runs (unpack_ciphertext p b v c) (fun s =>
      VecR (KYBER_K p) s.1 (fun i j => Decompress (fips p).du (ByteDecode (fips p).du (slice B (32 * (fips p).du * i) (32 * (fips p).du)) j)) 3328 ∧
      PolyR s.2 (fun i => Decompress (fips p).dv (ByteDecode (fips p).dv (slice B (32 * (fips p).du * KYBER_K p) (32 * (fips p).dv)) i)) 3328) := by
  unfold unpack_ciphertext
  have hz : KYBER_INDCPA_BYTES p = KYBER_POLYVECCOMPRESSEDBYTES p + KYBER_POLYCOMPRESSEDBYTES p := rfl
  have hu : KYBER_POLYVECCOMPRESSEDBYTES p = 32 * (fips p).du * KYBER_K p := by cases p <;> rfl
  have hw : KYBER_POLYCOMPRESSEDBYTES p = 32 * (fips p).dv := by cases p <;> rfl
  simp only [runs_bind]
  refine (polyvec_decompress_runs (B := slice B 0 (32 * (fips p).du * KYBER_K p)) hb
    (by simpa using hc.slice 0 (32 * (fips p).du * KYBER_K p) (by omega)) (by rw [length_slice (by omega), hu])).mono fun b' hb' => ?_
  refine (poly_decompress_runs (B := slice B (32 * (fips p).du * KYBER_K p) (32 * (fips p).dv)) hv ?_ (by rw [length_slice (by omega), hw])).mono fun v' hv' => ?_
  · have := hc.slice (32 * (fips p).du * KYBER_K p) (32 * (fips p).dv) (by omega)
    rw [Nat.zero_add] at this
    rwa [hu]
  · rw [runs_pure]
    refine ⟨hb'.congr fun i hi => ?_, hv'⟩
    have : 32 * (fips p).du * (i + 1) ≤ 32 * (fips p).du * KYBER_K p := Nat.mul_le_mul_left _ hi
    rw [Nat.mul_add, Nat.mul_one] at this
    rw [slice_slice (by omega), Nat.zero_add]

end Verif.Proof
