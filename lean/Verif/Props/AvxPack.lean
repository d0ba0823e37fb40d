import Verif.Avx.PolyvecPack

/-! # C37 to C42: encoding, compression, sampling and comparison in the AVX2 implementation

The functions `Avx.…` run the vector code of avx2/poly.c, polyvec.c, cbd.c and shuffle.S, instruction by instruction. `Runs m Q` says that `m` ends
normally (no access outside an object, no read of an undefined register or cell, no misaligned access) in a result satisfying `Q`.
In the NTT domain the AVX2 code keeps coefficient `avxPos m` at index `m`. -/

set_option autoImplicit false

namespace Verif.Props
open Verif.Proof Verif.Spec Verif.Avx
open Verif.Model (ParamSet KYBER_K KYBER_POLYCOMPRESSEDBYTES KYBER_POLYVECCOMPRESSEDBYTES)

/-! ## C37 -/

/-- C37. `poly_tobytes` (shuffle.S, ntttobytes) takes a polynomial in the order of the AVX2 code and writes ByteEncode_12 of FIPS 203 of the
canonical representatives in the standard order, for all coefficients in [0, q]. -/
theorem C37_poly_tobytes (x : Fin 256 → Int16) (h : ∀ i, 0 ≤ (x i).toInt ∧ (x i).toInt ≤ 3329) (f : Rq) (hf : ∀ m, residues x m = f (avxPos m))
    (r : Mem UInt8) (ro : Nat) (hr : ro + 384 ≤ r.size) :
    Runs (Avx.poly_tobytes r ro (polyMem x)) (fun r' => r.Wrote r' ro (ByteEncode12 f)) :=
  Avx.poly_tobytes_runs ⟨polyMem_size x, fun i hi => ⟨_, polyMem_get x i hi, by rw [ext_lt _ (nttIdx_lt hi)]; exact hf ⟨i, hi⟩, h _⟩⟩ hr

/-- C37. `poly_frombytes` reads the 12-bit integers of ByteDecode_12 unreduced, and puts them in the order of the AVX2 code, for every string. -/
theorem C37_poly_frombytes (r : Mem Int16) (hr : r.size = 256) (a : Mem UInt8) (ao : Nat) (B : List UInt8) (ha : a.Holds ao B)
    (hB : B.length = 384) :
    Runs (Avx.poly_frombytes r a ao) (fun r' => ∃ y, r' = polyMem y ∧ ∀ m, (y m).toInt = (ByteDecode 12 B (avxPos m) : Nat)) := by
  refine (Avx.poly_frombytes_exact hr ha hB).mono ?_
  rintro r' ⟨h1, h2⟩
  refine ⟨fun m => i16 ((ByteDecode 12 B (avxPos m) : Nat) : Int), ?_, fun m => ?_⟩
  · apply Array.ext_getElem?
    intro i
    by_cases hi : i < 256
    · have := h2 i hi
      rw [Nat.zero_add] at this
      rw [this, polyMem_get _ i hi, byteDecode]; rfl
    · rw [Array.getElem?_eq_none (by omega), Array.getElem?_eq_none (by rw [polyMem_size]; omega)]
  · have := byteDecode_lt 12 B (avxPos m)
    exact toInt_i16_nat (by omega)

/-- C37. Serialise, then deserialise: every coefficient comes back, at the same index, as its canonical representative modulo q. -/
theorem C37_roundtrip (x : Fin 256 → Int16) (h : ∀ i, 0 ≤ (x i).toInt ∧ (x i).toInt ≤ 3329) (r : Mem UInt8) (ro : Nat)
    (hr : ro + 384 ≤ r.size) (b : Mem Int16) (hb : b.size = 256) :
    Runs (do let r ← Avx.poly_tobytes r ro (polyMem x); Avx.poly_frombytes b r ro)
      (fun r' => ∃ y, r' = polyMem y ∧ ∀ i, (y i).toInt = (x i).toInt % 3329) := by
  have hf : ∀ m : Fin 256, residues x m = (fun i : Fin 256 => residues x ⟨nttMem i.val, nttMem_lt i.isLt⟩) (avxPos m) := fun m =>
    congrArg (residues x) (Fin.ext (nttMem_nttIdx m.isLt).symm)
  rw [runs_bind]
  refine (C37_poly_tobytes x h (fun i : Fin 256 => residues x ⟨nttMem i.val, nttMem_lt i.isLt⟩) hf r ro hr).mono fun r1 h1 => ?_
  refine (C37_poly_frombytes b hb r1 ro _ h1.holds (byteEncode_length 12 _)).mono fun b' ⟨y, h2, h3⟩ => ⟨y, h2, fun i => ?_⟩
  rw [h3, ByteEncode12, byteDecode_byteEncode 12 _ fun i => lt_of_lt_of_le zq_val_lt (by norm_num)]
  show (((residues x _).val : Nat) : Int) = _
  rw [show residues x _ = residues x i from (hf i).symm]
  exact zq_val

/-- C37. The AVX2 code and the reference code write the same bytes for the same element of the ring. -/
theorem C37_agrees_with_ref (x y : Fin 256 → Int16) (hx : ∀ i, 0 ≤ (x i).toInt ∧ (x i).toInt ≤ 3329)
    (hy : ∀ i, -3328 ≤ (y i).toInt ∧ (y i).toInt ≤ 3328) (hxy : ∀ m, residues x m = residues y (avxPos m)) (r r' : Mem UInt8) (ro : Nat)
    (hr : ro + 384 ≤ r.size) (hr' : ro + 384 ≤ r'.size) :
    ∃ s s' t t', Avx.poly_tobytes r ro (polyMem x) = .ok s t ∧ Model.poly_tobytes r' ro (polyMem y) = .ok s' t' ∧
      ∀ i, i < 384 → s[ro + i]? = s'[ro + i]? := by
  obtain ⟨s, t, h1, hs⟩ := (C37_poly_tobytes x hx _ hxy r ro hr).exists_ok
  obtain ⟨s', t', h2, hs'⟩ := (Proof.poly_tobytes_runs (polyR_polyMem y 3328 hy) hr').exists_ok
  refine ⟨s, s', t, t', h1, h2, fun i hi => ?_⟩
  have hl : (ByteEncode12 (residues y)).length = 384 := byteEncode_length 12 _
  rw [hs.holds i (by omega), hs'.holds i (by omega)]

/-! ## C38 -/

/-- C38. `poly_compress` (4 bits for K = 2, 3; 5 bits for K = 4) writes ByteEncode of round((2^d / q) x) mod 2^d and nothing else, for all
coefficients in [0, q]. -/
theorem C38_poly_compress (p : ParamSet) (x : Fin 256 → Int16) (h : ∀ i, 0 ≤ (x i).toInt ∧ (x i).toInt ≤ 3329) (r : Mem UInt8)
    (ro : Nat) (hr : ro + KYBER_POLYCOMPRESSEDBYTES p ≤ r.size) :
    Runs (Avx.poly_compress p r ro (polyMem x))
      (fun r' => r.Wrote r' ro (ByteEncode (fips p).dv fun i => Compress (fips p).dv (residues x i))) :=
  Avx.poly_compress_runs ⟨polyMem_size x, fun i hi => ⟨_, polyMem_get x i hi, by rw [ext_lt _ hi]; rfl, h _⟩⟩ hr

/-- C38. `polyvec_compress` (10 bits for K = 2, 3; 11 bits for K = 4), for all coefficients in [0, q]. For K = 4 it also changes the two bytes
after its output: `spill` is 2 for K = 4 and 0 otherwise. -/
theorem C38_polyvec_compress (p : ParamSet) (x : Nat → Fin 256 → Int16)
    (h : ∀ i, i < KYBER_K p → ∀ j, 0 ≤ (x i j).toInt ∧ (x i j).toInt ≤ 3329) (r : Mem UInt8) (ro : Nat)
    (hr : ro + KYBER_POLYVECCOMPRESSEDBYTES p + spill p ≤ r.size) :
    Runs (Avx.polyvec_compress p r ro (vecMem (KYBER_K p) x)) (fun r' => r'.size = r.size ∧
      r'.Holds ro ((List.range (KYBER_K p)).flatMap fun i => ByteEncode (fips p).du fun j => Compress (fips p).du (residues (x i) j)) ∧
      ∀ j, (j < ro ∨ ro + KYBER_POLYVECCOMPRESSEDBYTES p + spill p ≤ j) → r'[j]? = r[j]?) :=
  Avx.polyvec_compress_runs ⟨by simp [vecMem], fun i hi => ⟨polyMem (x i), by simp [vecMem, hi], polyMem_size _, fun j hj =>
    ⟨_, polyMem_get (x i) j hj, by rw [ext_lt _ hj]; rfl, h i hi _⟩⟩⟩ hr

/-- C38. For K = 4 the two further bytes are needed: on a buffer of exactly KYBER_POLYVECCOMPRESSEDBYTES bytes `polyvec_compress` writes past
the end. (In `pack_ciphertext` the two bytes belong to the second part of the ciphertext, which is written afterwards.) -/
theorem C38_spill_needed : Avx.polyvec_compress .k4 (Mem.uninit UInt8 (KYBER_POLYVECCOMPRESSEDBYTES .k4)) 0 (vecMem 4 fun _ _ => 0) = .ub .oob := by
  refine oob_of ?_; decide +kernel

/-! ## C39 -/

/-- C39. `poly_decompress` computes round((q / 2^d) y) for every byte string. -/
theorem C39_poly_decompress (p : ParamSet) (r : Mem Int16) (hr : r.size = 256) (a : Mem UInt8) (ao : Nat) (B : List UInt8)
    (ha : a.Holds ao B) (hB : B.length = KYBER_POLYCOMPRESSEDBYTES p) :
    Runs (Avx.poly_decompress p r a ao) (fun r' => ∃ y, r' = polyMem y ∧
      ∀ i, residues y i = Decompress (fips p).dv (ByteDecode (fips p).dv B i)) :=
  (Avx.poly_decompress_runs hr ha hB).mono fun _ h => by
    obtain ⟨y, h1, h2, _⟩ := h.exists
    exact ⟨y, h1, fun i => congrFun h2 i⟩

/-- C39. `polyvec_decompress` computes round((q / 2^d) y) for every byte string, if at least `over` bytes (12 for K = 2, 3; 10 for K = 4) follow
the compressed vector. The result does not depend on them. -/
theorem C39_polyvec_decompress (p : ParamSet) (x : Nat → Fin 256 → Int16) (a : Mem UInt8) (ao : Nat) (B : List UInt8)
    (ha : a.Holds ao B) (hB : KYBER_POLYVECCOMPRESSEDBYTES p + over p ≤ B.length) :
    Runs (Avx.polyvec_decompress p (vecMem (KYBER_K p) x) a ao) (fun r' => ∃ y, r' = vecMem (KYBER_K p) y ∧ ∀ i, i < KYBER_K p →
      ∀ j, residues (y i) j = Decompress (fips p).du (ByteDecode (fips p).du (slice B (32 * (fips p).du * i) (32 * (fips p).du)) j)) :=
  (Avx.polyvec_decompress_runs (vecSz_vecMem _ x) ha hB).mono fun _ h => by
    obtain ⟨y, h1, h2, _⟩ := h.exists
    exact ⟨y, h1, fun i hi j => congrFun (h2 i hi) j⟩

/-- C39. The further bytes are needed: with one byte less `polyvec_decompress` reads past the end. (In `unpack_ciphertext` they belong to the
second part of the ciphertext.) -/
theorem C39_over_needed : Avx.polyvec_decompress .k2 (vecMem 2 fun _ _ => 0) (Mem.ofList (List.replicate (640 + 11) 0)) 0 = .ub .oob ∧
    Avx.polyvec_decompress .k4 (vecMem 4 fun _ _ => 0) (Mem.ofList (List.replicate (1408 + 9) 0)) 0 = .ub .oob := by
  constructor <;> refine oob_of ?_ <;> decide +kernel

/-! ## C40 -/

/-- C40. `poly_frommsg` maps each bit of the message to 0 or (q+1)/2, for every message. -/
theorem C40_poly_frommsg (r : Mem Int16) (hr : r.size = 256) (msg : Mem UInt8) (mo : Nat) (B : List UInt8) (hm : msg.Holds mo B) (hB : B.length = 32) :
    Runs (Avx.poly_frommsg r msg mo) (fun r' => ∃ y, r' = polyMem y ∧ ∀ i, residues y i = Decompress 1 (ByteDecode 1 B i)) :=
  (Avx.poly_frommsg_runs hr hm hB).mono fun _ h => by
    obtain ⟨y, h1, h2, _⟩ := h.exists
    exact ⟨y, h1, fun i => congrFun h2 i⟩

/-- C40. `poly_tomsg` writes the bits Compress_1 of the coefficients, for all coefficients in [0, q]. -/
theorem C40_poly_tomsg (x : Fin 256 → Int16) (h : ∀ i, 0 ≤ (x i).toInt ∧ (x i).toInt ≤ 3329) (msg : Mem UInt8) (mo : Nat) (hm : mo + 32 ≤ msg.size) :
    Runs (Avx.poly_tomsg msg mo (polyMem x)) (fun m' => msg.Wrote m' mo (ByteEncode 1 fun i => Compress 1 (residues x i))) :=
  Avx.poly_tomsg_runs ⟨polyMem_size x, fun i hi => ⟨_, polyMem_get x i hi, by rw [ext_lt _ hi]; rfl, h _⟩⟩ hm

/-- C40. Encode a message, add noise of absolute value at most 831 to every coefficient, reduce, decode: the message comes back. -/
theorem C40_message (msg : Mem UInt8) (mo : Nat) (B : List UInt8) (hm : msg.Holds mo B) (hB : B.length = 32) (e : Fin 256 → Int16)
    (he : ∀ i, -831 ≤ (e i).toInt ∧ (e i).toInt ≤ 831) (r : Mem Int16) (hr : r.size = 256) (out : Mem UInt8) (oo : Nat)
    (ho : oo + 32 ≤ out.size) :
    Runs (do
        let k ← Avx.poly_frommsg r msg mo
        let v ← Avx.poly_add k (polyMem e)
        let v ← Avx.poly_reduce v
        Avx.poly_tomsg out oo v)
      (fun out' => out.Wrote out' oo B) := by
  simp only [runs_bind]
  refine (Avx.poly_frommsg_runs hr hm hB).mono fun k hk => ?_
  refine (Avx.poly_add_runs hk (polyR_polyMem e 831 he) (by omega)).mono fun v hv => ?_
  refine (Avx.poly_reduce_runs hv).mono fun w hw => ?_
  have hw' : PolyQ w (ext fun i => Decompress 1 (ByteDecode 1 B i) + residues e i) :=
    ⟨hw.size, fun i hi => by obtain ⟨x, h1, h2, h3⟩ := hw.coef i hi; exact ⟨x, h1, by rw [h2, ext_lt _ hi, ext_lt _ hi, ext_lt _ hi], h3⟩⟩
  refine (Avx.poly_tomsg_runs hw' ho).mono fun out' h => ?_
  have : (ByteEncode 1 fun i => Compress 1 (Decompress 1 (ByteDecode 1 B i) + residues e i)) = B := by
    rw [← byteEncode_byteDecode 1 B hB (by omega)]
    congr 1
    funext i
    rw [byteEncode_byteDecode 1 B hB (by omega)]
    have hlt := byteDecode_lt 1 B i
    have hi := he i
    have hv : (((Decompress 1 (ByteDecode 1 B i) + residues e i).val : Nat) : Int) = ((if ByteDecode 1 B i = 1 then 1665 else 0) + (e i).toInt) % 3329 := by
      have hD : Decompress 1 (ByteDecode 1 B i) = ((if ByteDecode 1 B i = 1 then 1665 else 0 : Int) : Zq) := by
        rw [decompress_nat (d := 0)]
        rcases (by omega : ByteDecode 1 B i = 0 ∨ ByteDecode 1 B i = 1) with h | h <;> rw [h] <;> norm_num
      rw [hD, show residues e i = (((e i).toInt : Int) : Zq) from rfl, ← Int.cast_add]
      exact ZMod.val_intCast _
    rw [compress1]
    generalize (Decompress 1 (ByteDecode 1 B i) + residues e i).val = v at hv
    rcases (by omega : ByteDecode 1 B i = 0 ∨ ByteDecode 1 B i = 1) with h | h
    · rw [h] at hv ⊢
      simp only [show ¬ (0 : Nat) = 1 by omega, if_false] at hv
      rw [if_neg (by omega)]
    · rw [h] at hv ⊢
      simp only [if_true] at hv
      rw [if_pos (by omega)]
  rwa [this] at h

/-! ## C41 -/

/-- C41. `poly_cbd_eta1` computes SamplePolyCBD_η1 of FIPS 203 for every string. For K = 2 it reads 200 bytes, of which the last 8 have no effect. -/
theorem C41_cbd_eta1 (p : ParamSet) (r : Mem Int16) (hr : r.size = 256) (buf : Mem UInt8) (B R : List UInt8) (hb : buf.Holds 0 (B ++ R))
    (hB : B.length = 64 * (fips p).η₁) (hR : p = .k2 → 8 ≤ R.length) :
    Runs (Avx.poly_cbd_eta1 p r buf) (fun r' => ∃ y, r' = polyMem y ∧ residues y = SamplePolyCBD (fips p).η₁ B ∧
      ∀ i, -3 ≤ (y i).toInt ∧ (y i).toInt ≤ 3) := by
  have h := hb.has 0
  rw [List.length_append] at h
  refine (Avx.poly_cbd_eta1_runs (b := fun i => (B ++ R).getD i 0) hr (fun i hi => h i ?_) hB fun i hi => ?_).mono fun _ h => h.exists
  · cases p
    · have := hR rfl
      rw [if_pos rfl] at hi
      rw [hB]; show i < 64 * 3 + R.length; omega
    · rw [if_neg (by decide)] at hi
      rw [hB]; show i < 64 * 2 + R.length; omega
    · rw [if_neg (by decide)] at hi
      rw [hB]; show i < 64 * 2 + R.length; omega
  · rw [List.getD, List.getD, List.getElem?_append_left hi]

/-- C41. `poly_cbd_eta2` computes SamplePolyCBD_2. -/
theorem C41_cbd_eta2 (p : ParamSet) (r : Mem Int16) (hr : r.size = 256) (buf : Mem UInt8) (B : List UInt8) (hb : buf.Holds 0 B)
    (hB : B.length = 64 * (fips p).η₂) :
    Runs (Avx.poly_cbd_eta2 r buf) (fun r' => ∃ y, r' = polyMem y ∧ residues y = SamplePolyCBD (fips p).η₂ B ∧
      ∀ i, -2 ≤ (y i).toInt ∧ (y i).toInt ≤ 2) := by
  cases p <;> exact (Avx.cbd2_runs hr hb hB).mono fun _ h => h.exists

/-- C41. The 8 further bytes are needed for K = 2: on a buffer of 192 bytes the code reads past the end. -/
theorem C41_over_needed : Avx.poly_cbd_eta1 .k2 (Mem.uninit Int16 256) (Mem.ofList (List.replicate 192 0)) = .ub .oob := by
  refine oob_of ?_; decide +kernel

/-! ## C42 -/

/-- C42. `verify` of the AVX2 code gives 0 exactly if two byte strings of the same length are equal, else 1. -/
theorem C42_verify (a b : Mem UInt8) (ao bo : Nat) (x y : List UInt8) (hlen : x.length = y.length) (ha : a.Holds ao x) (hb : b.Holds bo y) :
    Runs (Avx.verify a ao b bo x.length) (fun r => r = if x = y then 0 else 1) := by
  have hb' := hb.has 0
  rw [← hlen] at hb'
  refine (Avx.verify_runs (ha.has 0) hb').mono fun r ⟨h1, h2⟩ => ?_
  have key : (∀ i, i < x.length → x.getD i 0 = y.getD i 0) ↔ x = y := by
    refine ⟨fun h => List.ext_getElem hlen fun i hi hi' => ?_, fun h i _ => by rw [h]⟩
    have := h i hi
    simpa [List.getD, List.getElem?_eq_getElem hi, List.getElem?_eq_getElem hi'] using this
  rw [key] at h2
  by_cases h : x = y
  · rw [if_pos h]; exact h2.mpr h
  · rw [if_neg h]
    rcases h1 with h1 | h1
    · exact absurd (h2.mp h1) h
    · exact h1

/-- C42. `cmov` of the AVX2 code copies the source if the flag is 1 and leaves the destination as it is if the flag is 0; nothing else changes. -/
theorem C42_cmov (r x : Mem UInt8) (ro xo : Nat) (l s : List UInt8) (hlen : l.length = s.length) (hr : r.Holds ro l) (hx : x.Holds xo s) (b : Bool) :
    Runs (Avx.cmov r ro x xo l.length (if b then 1 else 0)) (fun r' => r.Wrote r' ro (if b then s else l)) := by
  have hx' := hx.has 0
  rw [← hlen] at hx'
  refine (Avx.cmov_runs (hr.has 0) hx' b).mono fun r' h => h.wrote_of (by split <;> simp [hlen]) fun i hi => ?_
  cases b
  · have hi : i < l.length := hi
    simp [List.getD, hi]
  · have hi : i < s.length := hi
    simp [List.getD, hi]

/-! ## Concrete cases -/

/-- Compression of the coefficients 0, 13, 26, ...: coefficient 8 rounds to 0, coefficient 9 to 1; the last two round up to 16 = 0. -/
example : Runs (Avx.poly_compress .k2 (Mem.uninit UInt8 128) 0 (polyMem fun i => Int16.ofNat (13 * i.val)))
    (fun r : Mem UInt8 => r[4]? = some (some 16) ∧ r[127]? = some (some 0)) := by decide +kernel

/-- The value q is allowed as input and treated like 0. -/
example : Runs (Avx.poly_tobytes (Mem.uninit UInt8 384) 0 (polyMem fun _ => 3329)) (fun r : Mem UInt8 => r[5]? = some (some 0)) := by decide +kernel

example : Runs (Avx.poly_frombytes (Mem.uninit Int16 256) (Mem.ofList (List.replicate 384 255)) 0) (fun r : Mem Int16 => r[5]? = some (some 4095)) := by
  decide +kernel

/-- Noise sampling on the bytes of the example for the reference code. -/
example : Runs (Avx.cbd2 (Mem.uninit Int16 256) (Mem.ofList (0x03 :: 0x0c :: List.replicate 126 0)))
    (fun r : Mem Int16 => r[0]? = some (some 2) ∧ r[1]? = some (some 0) ∧ r[2]? = some (some (-2 : Int16))) := by decide +kernel

/-- 40 bytes that differ in the last one, and that differ in the first one. -/
example : Runs (Avx.verify (Mem.ofList (List.replicate 40 7)) 0 (Mem.ofList (List.replicate 39 7 ++ [8])) 0 40) (· = 1) := by decide +kernel
example : Runs (Avx.verify (Mem.ofList (List.replicate 40 7)) 0 (Mem.ofList (8 :: List.replicate 39 7)) 0 40) (· = 1) := by decide +kernel
example : Runs (Avx.verify (Mem.ofList (List.replicate 40 7)) 0 (Mem.ofList (List.replicate 40 7)) 0 40) (· = 0) := by decide +kernel

/-- A message with one bit set. -/
example : Runs (Avx.poly_frommsg (Mem.uninit Int16 256) (Mem.ofList (List.replicate 31 0 ++ [128])) 0)
    (fun r : Mem Int16 => r[255]? = some (some 1665) ∧ r[254]? = some (some 0)) := by decide +kernel

end Verif.Props
