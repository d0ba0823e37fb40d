import Verif.Proof.Roundtrip

/-! # C16, C17, C18, C19, C32: serialisation, compression and message encoding

`r.Wrote r' o l` says that `r'` is `r` with exactly the bytes from offset `o` replaced by the string `l`; `m.Holds o l` that `m` stores `l`
at offset `o`. `polyMem x` is a `poly` object with coefficients `x`, `vecMem k x` a `polyvec`, `residues x` the ring element. -/

set_option autoImplicit false

namespace Verif.Props
open Verif.Model Verif.Proof Verif.Spec

/-! ## C16 -/

/-- C16. `poly_tobytes` writes exactly FIPS 203 ByteEncode_12 of the canonical representatives, for all coefficients in (-q, q). -/
theorem C16_poly_tobytes (x : Fin 256 → Int16) (h : ∀ i, -3328 ≤ (x i).toInt ∧ (x i).toInt ≤ 3328) (r : Mem UInt8) (ro : Nat)
    (hr : ro + 384 ≤ r.size) :
    Runs (poly_tobytes r ro (polyMem x)) (fun r' => r.Wrote r' ro (ByteEncode12 (residues x))) :=
  poly_tobytes_runs (polyR_polyMem x 3328 h) hr

/-- C16. `poly_frombytes` reads the 12-bit integers of FIPS 203 ByteDecode_12 unreduced (they lie in [0, 4096)), for every string. -/
theorem C16_poly_frombytes (r : Mem Int16) (hr : r.size = 256) (a : Mem UInt8) (ao : Nat) (B : List UInt8) (ha : a.Holds ao B)
    (hB : B.length = 384) :
    Runs (poly_frombytes r a ao) (fun r' => ∃ y, r' = polyMem y ∧ ∀ i, (y i).toInt = (ByteDecode 12 B i : Nat)) := by
  refine (poly_frombytes_upd hr ha hB).mono fun r' h => ?_
  refine ⟨fun i => i16 ((ByteDecode 12 B i : Nat) : Int), eq_polyMem hr h _ fun i hi => by rw [byteDecode], fun i => ?_⟩
  have := byteDecode_lt 12 B i
  exact toInt_i16_nat (by omega)

/-- C16. Serialise, then deserialise: every coefficient comes back as its canonical representative modulo q. -/
theorem C16_roundtrip_poly (x : Fin 256 → Int16) (h : ∀ i, -3328 ≤ (x i).toInt ∧ (x i).toInt ≤ 3328) (r : Mem UInt8) (ro : Nat)
    (hr : ro + 384 ≤ r.size) (b : Mem Int16) (hb : b.size = 256) :
    Runs (do let r ← poly_tobytes r ro (polyMem x); poly_frombytes b r ro)
      (fun r' => ∃ y, r' = polyMem y ∧ ∀ i, (y i).toInt = (x i).toInt % 3329) := by
  rw [runs_bind]
  refine (C16_poly_tobytes x h r ro hr).mono fun r1 h1 => ?_
  refine (C16_poly_frombytes b hb r1 ro _ h1.holds (byteEncode_length 12 _)).mono fun b' ⟨y, h2, h3⟩ => ⟨y, h2, fun i => ?_⟩
  rw [h3, ByteEncode12, byteDecode_byteEncode 12 _ fun i => lt_of_lt_of_le zq_val_lt (by norm_num)]
  exact zq_val

/-- C16. Deserialise, then serialise: every 384-byte string comes back unchanged, also if it holds integers from q to 4095. -/
theorem C16_roundtrip_bytes (b : Mem Int16) (hb : b.size = 256) (a : Mem UInt8) (ao : Nat) (B : List UInt8) (ha : a.Holds ao B)
    (hB : B.length = 384) (r : Mem UInt8) (ro : Nat) (hr : ro + 384 ≤ r.size) :
    Runs (do let b ← poly_frombytes b a ao; poly_tobytes r ro b) (fun r' => r.Wrote r' ro B) := by
  rw [runs_bind]
  refine (C16_poly_frombytes b hb a ao B ha hB).mono ?_
  rintro _ ⟨y, rfl, hy⟩
  have hV : ∀ i, extN (ByteDecode 12 B) i < 2 ^ 12 := fun i => by
    unfold extN
    split
    · exact byteDecode_lt 12 B _
    · norm_num
  refine (poly_tobytes_gen hV (fun i hi => ⟨_, polyMem_get y i hi, ?_⟩) hr).mono fun r' h => ?_
  · refine (caddq16_nonneg (by rw [hy]; omega)).mono fun t ht => ?_
    rw [hy] at ht
    rw [extN_lt _ hi]
    omega
  · have := wrote_encode (d := 12) (by omega) h (by omega) (G := ByteDecode 12 B) fun i hi => extN_lt _ hi
    rwa [byteEncode_byteDecode 12 B hB (by omega)] at this

/-- C16. The same for whole vectors, `polyvec_tobytes` then `polyvec_frombytes`. -/
theorem C16_roundtrip_polyvec (p : ParamSet) (x : Nat → Fin 256 → Int16)
    (h : ∀ i, i < KYBER_K p → ∀ j, -3328 ≤ (x i j).toInt ∧ (x i j).toInt ≤ 3328) (r : Mem UInt8) (ro : Nat)
    (hr : ro + KYBER_POLYVECBYTES p ≤ r.size) (b : Nat → Fin 256 → Int16) :
    Runs (do let r ← polyvec_tobytes p r ro (vecMem (KYBER_K p) x); polyvec_frombytes p (vecMem (KYBER_K p) b) r ro)
      (fun r' => ∃ y, r' = vecMem (KYBER_K p) y ∧ ∀ i, i < KYBER_K p → residues (y i) = residues (x i)) := by
  have hz' : KYBER_POLYVECBYTES p = 384 * KYBER_K p := by unfold KYBER_POLYVECBYTES KYBER_POLYBYTES; omega
  rw [runs_bind]
  refine (polyvec_tobytes_runs (vecR_vecMem _ x 3328 h) (by omega)).mono fun r1 h1 => ?_
  refine (polyvec_frombytes_runs (vecSz_vecMem _ b) h1.holds (flatMap_length fun i => byteEncode_length 12 _)).mono fun b' hb' => ?_
  obtain ⟨y, h2, h3, _⟩ := hb'.exists
  refine ⟨y, h2, fun i hi => ?_⟩
  have := slice_flatMap (L := fun i => ByteEncode12 (residues (x i))) (w := 384) (fun i => byteEncode_length 12 _) [] hi
  rw [List.append_nil] at this
  rw [h3 i hi, this, byteDecode12_byteEncode12]

/-- C16. The byte layout written out: two coefficients in three bytes, little-endian. -/
theorem C16_layout (f : Rq) (i : Nat) (hi : i < 128) :
    (ByteEncode12 f)[3 * i]? = some (UInt8.ofNat ((f ⟨2 * i, by omega⟩).val % 256)) ∧
    (ByteEncode12 f)[3 * i + 1]? = some (UInt8.ofNat ((f ⟨2 * i, by omega⟩).val / 256 + 16 * ((f ⟨2 * i + 1, by omega⟩).val % 16))) ∧
    (ByteEncode12 f)[3 * i + 2]? = some (UInt8.ofNat ((f ⟨2 * i + 1, by omega⟩).val / 16)) := by
  have hl := byteEncode_length 12 fun i => (f i).val
  have h0 := zq_val_lt (a := f ⟨2 * i, by omega⟩)
  have h1 := zq_val_lt (a := f ⟨2 * i + 1, by omega⟩)
  have e0 := extN_lt (fun i => (f i).val) (i := 2 * i) (by omega)
  have e1 := extN_lt (fun i => (f i).val) (i := 2 * i + 1) (by omega)
  unfold ByteEncode12
  have key : ∀ c x, c < 3 → (∀ j, j < 8 → x.testBit j = (extN (fun i => (f i).val) (2 * i + (8 * c + j) / 12)).testBit ((8 * c + j) % 12)) →
      (ByteEncode 12 fun i => (f i).val)[3 * i + c]? = some (UInt8.ofNat x) := by
    intro c x hc hx
    rw [List.getElem?_eq_getElem (by rw [hl]; omega), byteEncode_get, ← byte_block (d := 12) (w := 3) (v := 2) (by rfl) (by omega) _ i c x hx]
  generalize (f ⟨2 * i, by omega⟩).val = a at *
  generalize (f ⟨2 * i + 1, by omega⟩).val = b at *
  refine ⟨key 0 _ (by omega) fun j hj => ?_, key 1 _ (by omega) fun j hj => ?_, key 2 _ (by omega) fun j hj => ?_⟩
  · rw [show a % 256 = a % 2 ^ 8 from rfl, Nat.testBit_mod_two_pow]
    interval_cases j <;> simp [e0]
  · rw [show a / 256 + 16 * (b % 16) = 2 ^ 4 * (b % 2 ^ 4) + a / 2 ^ 8 from by omega,
      Nat.testBit_two_pow_mul_add _ (by omega), Nat.testBit_mod_two_pow, Nat.testBit_div_two_pow]
    interval_cases j <;> simp [e0, e1]
  · rw [show b / 16 = b / 2 ^ 4 from rfl, Nat.testBit_div_two_pow]
    interval_cases j <;> simp [e1]

/-! ## C17 -/

/-- C17. `poly_compress` (4 bits for K = 2, 3; 5 bits for K = 4) writes ByteEncode of round((2^d / q) x) mod 2^d, for all coefficients in
(-q, q). `Compress` is the definition with rational rounding. -/
theorem C17_poly_compress (p : ParamSet) (x : Fin 256 → Int16) (h : ∀ i, -3328 ≤ (x i).toInt ∧ (x i).toInt ≤ 3328) (r : Mem UInt8)
    (ro : Nat) (hr : ro + KYBER_POLYCOMPRESSEDBYTES p ≤ r.size) :
    Runs (poly_compress p r ro (polyMem x))
      (fun r' => r.Wrote r' ro (ByteEncode (fips p).dv fun i => Compress (fips p).dv (residues x i))) :=
  poly_compress_runs (polyR_polyMem x 3328 h) hr

/-- C17. `polyvec_compress` (10 bits for K = 2, 3; 11 bits for K = 4). -/
theorem C17_polyvec_compress (p : ParamSet) (x : Nat → Fin 256 → Int16)
    (h : ∀ i, i < KYBER_K p → ∀ j, -3328 ≤ (x i j).toInt ∧ (x i j).toInt ≤ 3328) (r : Mem UInt8) (ro : Nat)
    (hr : ro + KYBER_POLYVECCOMPRESSEDBYTES p ≤ r.size) :
    Runs (polyvec_compress p r ro (vecMem (KYBER_K p) x)) (fun r' => r.Wrote r' ro ((List.range (KYBER_K p)).flatMap fun i =>
      ByteEncode (fips p).du fun j => Compress (fips p).du (residues (x i) j))) :=
  polyvec_compress_runs (vecR_vecMem _ x 3328 h) hr

/-! ## C18 -/

/-- C18. `poly_decompress` computes round((q / 2^d) y) for every byte string. -/
theorem C18_poly_decompress (p : ParamSet) (r : Mem Int16) (hr : r.size = 256) (a : Mem UInt8) (ao : Nat) (B : List UInt8)
    (ha : a.Holds ao B) (hB : B.length = KYBER_POLYCOMPRESSEDBYTES p) :
    Runs (poly_decompress p r a ao) (fun r' => ∃ y, r' = polyMem y ∧
      ∀ i, residues y i = Decompress (fips p).dv (ByteDecode (fips p).dv B i)) :=
  (poly_decompress_runs hr ha hB).mono fun _ h => by
    obtain ⟨y, h1, h2, _⟩ := h.exists
    exact ⟨y, h1, fun i => congrFun h2 i⟩

/-- C18. `polyvec_decompress` computes round((q / 2^d) y) for every byte string. -/
theorem C18_polyvec_decompress (p : ParamSet) (x : Nat → Fin 256 → Int16) (a : Mem UInt8) (ao : Nat) (B : List UInt8)
    (ha : a.Holds ao B) (hB : B.length = KYBER_POLYVECCOMPRESSEDBYTES p) :
    Runs (polyvec_decompress p (vecMem (KYBER_K p) x) a ao) (fun r' => ∃ y, r' = vecMem (KYBER_K p) y ∧ ∀ i, i < KYBER_K p →
      ∀ j, residues (y i) j = Decompress (fips p).du (ByteDecode (fips p).du (slice B (32 * (fips p).du * i) (32 * (fips p).du)) j)) :=
  (polyvec_decompress_runs (vecSz_vecMem _ x) ha hB).mono fun _ h => by
    obtain ⟨y, h1, h2, _⟩ := h.exists
    exact ⟨y, h1, fun i hi j => congrFun (h2 i hi) j⟩

/-- C18. Compressing a decompressed value returns it. -/
theorem C18_compress_decompress (d : Nat) (hd : d = 1 ∨ d = 4 ∨ d = 5 ∨ d = 10 ∨ d = 11) (y : Nat) (hy : y < 2 ^ d) :
    Compress d (Decompress d y) = y := compress_decompress hd hy

/-- C18. Decompressing a compressed value is off by at most round(q / 2^(d+1)) modulo q: 832, 104, 52, 2, 1 for d = 1, 4, 5, 10, 11. -/
theorem C18_decompress_compress (d : Nat) (hd : d = 1 ∨ d = 4 ∨ d = 5 ∨ d = 10 ∨ d = 11) (x : Zq) :
    ∃ e : Int, |e| ≤ round ((3329 : ℚ) / 2 ^ (d + 1)) ∧ Decompress d (Compress d x) = x + (e : Zq) := by
  have hb : round ((3329 : ℚ) / 2 ^ (d + 1)) = (((3329 + 2 ^ d) / 2 ^ (d + 1) : Nat) : Int) := by
    rw [round_eq]
    rcases hd with rfl | rfl | rfl | rfl | rfl <;> norm_num [Int.floor_eq_iff]
  rw [hb]
  exact decompress_compress hd x

/-- C18. The code: a polynomial that went through `poly_compress` and `poly_decompress` is off by at most 104 (K = 2, 3) or 52 (K = 4). -/
theorem C18_poly_roundtrip (p : ParamSet) (x : Fin 256 → Int16) (h : ∀ i, -3328 ≤ (x i).toInt ∧ (x i).toInt ≤ 3328) (r : Mem UInt8)
    (ro : Nat) (hr : ro + KYBER_POLYCOMPRESSEDBYTES p ≤ r.size) (b : Mem Int16) (hb : b.size = 256) :
    Runs (do let r ← poly_compress p r ro (polyMem x); poly_decompress p b r ro) (fun r' => ∃ y, r' = polyMem y ∧
      ∀ i, ∃ e : Int, |e| ≤ (if p = .k4 then 52 else 104) ∧ residues y i = residues x i + (e : Zq)) := by
  rw [runs_bind]
  refine (C17_poly_compress p x h r ro hr).mono fun r1 h1 => ?_
  refine (C18_poly_decompress p b hb r1 ro _ h1.holds (by rw [byteEncode_length]; cases p <;> rfl)).mono fun b' ⟨y, h2, h3⟩ => ⟨y, h2, fun i => ?_⟩
  rw [h3, byteDecode_byteEncode _ _ fun i => compress_lt _ _]
  cases p
  · obtain ⟨e, h4, h5⟩ := decompress_compress (d := 4) (by omega) (residues x i)
    exact ⟨e, h4, h5⟩
  · obtain ⟨e, h4, h5⟩ := decompress_compress (d := 4) (by omega) (residues x i)
    exact ⟨e, h4, h5⟩
  · obtain ⟨e, h4, h5⟩ := decompress_compress (d := 5) (by omega) (residues x i)
    exact ⟨e, h4, h5⟩

/-! ## C19 -/

/-- C19. Decoding one bit with noise: correct exactly when the noise is within the range [-832, 832] for a 0 and [-832, 831] for a 1. -/
theorem C19_bit (b : Bool) (e : Int) (he : -1664 ≤ e ∧ e ≤ 1664) :
    Compress 1 (Decompress 1 b.toNat + (e : Zq)) = b.toNat ↔ -832 ≤ e ∧ e ≤ (if b then 831 else 832) := by
  rw [compress1]
  have hD : Decompress 1 b.toNat = ((if b then 1665 else 0 : Int) : Zq) := by
    rw [decompress_nat (d := 0)]; cases b <;> norm_num
  have hv : (((Decompress 1 b.toNat + (e : Zq)).val : Nat) : Int) = ((if b then 1665 else 0) + e) % 3329 := by
    rw [hD, ← Int.cast_add]
    exact ZMod.val_intCast _
  generalize (Decompress 1 b.toNat + (e : Zq)).val = v at hv
  cases b
  · simp only [Bool.false_eq_true, if_false, Bool.toNat_false] at *
    split <;> omega
  · simp only [if_true, Bool.toNat_true] at *
    split <;> omega

/-- C19. The code: encode a message, add noise of absolute value at most 831 to every coefficient, reduce, decode: the message comes back. -/
theorem C19_message (msg : Mem UInt8) (mo : Nat) (B : List UInt8) (hm : msg.Holds mo B) (hB : B.length = 32) (e : Fin 256 → Int16)
    (he : ∀ i, -831 ≤ (e i).toInt ∧ (e i).toInt ≤ 831) (r : Mem Int16) (hr : r.size = 256) (out : Mem UInt8) (oo : Nat)
    (ho : oo + 32 ≤ out.size) :
    Runs (do
        let k ← poly_frommsg r msg mo
        let v ← poly_add k k (polyMem e)
        let v ← poly_reduce v
        poly_tomsg out oo v)
      (fun out' => out.Wrote out' oo B) := by
  simp only [runs_bind]
  refine (poly_frommsg_runs hr hm hB).mono fun k hk => ?_
  refine (poly_add_runs hk.size hk (polyR_polyMem e 831 he) (by omega)).mono fun v hv => ?_
  refine (poly_reduce_runs hv).mono fun w hw => ?_
  refine (poly_tomsg_runs hw ho).mono fun out' h => ?_
  have : (ByteEncode 1 fun i => Compress 1 (Decompress 1 (ByteDecode 1 B i) + residues e i)) = B := by
    rw [← byteEncode_byteDecode 1 B hB (by omega)]
    congr 1
    funext i
    rw [byteEncode_byteDecode 1 B hB (by omega)]
    have hlt := byteDecode_lt 1 B i
    obtain ⟨b, hb⟩ : ∃ b : Bool, ByteDecode 1 B i = b.toNat := by
      rcases (by omega : ByteDecode 1 B i = 0 ∨ ByteDecode 1 B i = 1) with h | h
      · exact ⟨false, h⟩
      · exact ⟨true, h⟩
    rw [hb]
    have hi := he i
    refine (C19_bit b (e i).toInt (by omega)).mpr ⟨by omega, ?_⟩
    split <;> omega
  rwa [this] at h

/-- C19. The bound is tight: noise 832 on one coefficient of a message with a 1 bit changes the decoded message. -/
theorem C19_tight : Compress 1 (Decompress 1 1 + ((832 : Int) : Zq)) = 0 ∧ Compress 1 (Decompress 1 1) = 1 := by
  constructor
  · have h := (C19_bit true 832 (by omega)).not.mpr (by simp)
    rw [compress1] at *
    by_contra hc
    refine h ?_
    simp only [Bool.toNat_true]
    split at hc
    · rw [if_pos (by assumption)]
    · exact absurd rfl hc
  · exact compress_decompress (by omega) (by omega)

/-- C19. The same for the code: all-ones message, noise 832 on every coefficient, decodes to the all-zero message. -/
theorem C19_tight_code (B : List UInt8) (hB : B = List.replicate 32 255) (r : Mem Int16) (hr : r.size = 256) (out : Mem UInt8) (oo : Nat) (ho : oo + 32 ≤ out.size) :
    Runs (do
        let k ← poly_frommsg r (Mem.ofList B) 0
        let v ← poly_add k k (polyMem fun _ => 832)
        let v ← poly_reduce v
        poly_tomsg out oo v)
      (fun out' => out.Wrote out' oo (List.replicate 32 0)) := by
  have e1 : ∀ i, ByteDecode 1 B i = 1 := fun i => by
    have hi := i.isLt
    unfold ByteDecode
    rw [bitsVal_succ, bitsVal_zero, bytesToBits]
    have h1 : B.getD ((i.val * 1 + 0) / 8) 0 = 255 := by
      rw [hB, getD_lt (by rw [List.length_replicate]; omega), List.getElem_replicate]
    rw [h1]
    have : ∀ j, j < 8 → (255 : UInt8).toNat.testBit j = true := by decide
    rw [this _ (Nat.mod_lt _ (by omega))]; rfl
  have hl : B.length = 32 := by rw [hB, List.length_replicate]
  clear hB
  simp only [runs_bind]
  refine (poly_frommsg_runs hr (Mem.holds_ofList B) hl).mono fun k hk => ?_
  refine (poly_add_runs hk.size hk (polyR_polyMem (fun _ => 832) 832 fun i =>
    ⟨by show -832 ≤ (832 : Int16).toInt; decide, by show (832 : Int16).toInt ≤ 832; decide⟩) (by omega)).mono fun v hv => ?_
  refine (poly_reduce_runs hv).mono fun w hw => ?_
  refine (poly_tomsg_runs hw ho).mono fun out' h => ?_
  have e2 : (fun i : Fin 256 => Compress 1 (Decompress 1 (ByteDecode 1 B i) + residues (fun _ => 832) i)) = fun _ => 0 := funext fun i => by
    rw [e1]; exact C19_tight.1
  rw [e2] at h
  have e3 : (ByteEncode 1 fun _ => 0) = List.replicate 32 0 := by decide
  rwa [e3] at h

/-! ## C32 -/

/-- C32. `unpack_pk` recovers from a packed public key the vector modulo q and the seed. -/
theorem C32_unpack_pack_pk (p : ParamSet) (x : Nat → Fin 256 → Int16)
    (h : ∀ i, i < KYBER_K p → ∀ j, -3328 ≤ (x i j).toInt ∧ (x i j).toInt ≤ 3328) (seed : Mem UInt8) (so : Nat) (ρ : List UInt8)
    (hs : seed.Holds so ρ) (hρ : ρ.length = 32) (r : Mem UInt8) (hr : KYBER_INDCPA_PUBLICKEYBYTES p ≤ r.size)
    (b : Nat → Fin 256 → Int16) (seed' : Mem UInt8) (hs' : seed'.size = 32) :
    Runs (do let r ← pack_pk p r (vecMem (KYBER_K p) x) seed so; unpack_pk p (vecMem (KYBER_K p) b) seed' r 0)
      (fun s => (∃ y, s.1 = vecMem (KYBER_K p) y ∧ ∀ i, i < KYBER_K p → residues (y i) = residues (x i)) ∧ s.2.Holds 0 ρ) := by
  have hL : ∀ i, (ByteEncode12 (residues (x i))).length = 384 := fun i => byteEncode_length 12 _
  rw [runs_bind]
  refine (pack_pk_runs (vecR_vecMem _ x 3328 h) hs hρ hr).mono fun r1 h1 => ?_
  refine (unpack_pk_runs (vecSz_vecMem _ b) hs' h1.holds ?_).mono fun s hs => ?_
  · rw [List.length_append, flatMap_length hL, hρ]
    unfold KYBER_INDCPA_PUBLICKEYBYTES KYBER_POLYVECBYTES KYBER_POLYBYTES KYBER_SYMBYTES; omega
  · obtain ⟨y, h2, h3, _⟩ := hs.1.exists
    refine ⟨⟨y, h2, fun i hi => ?_⟩, ?_⟩
    · rw [h3 i hi, slice_flatMap hL ρ hi, byteDecode12_byteEncode12]
    · have := hs.2
      rwa [slice_append_right _ _ (flatMap_length hL) hρ] at this

/-- C32. Two public keys that pack to the same bytes have the same vector modulo q and the same seed. -/
theorem C32_pack_pk_injective (p : ParamSet) (x x' : Nat → Fin 256 → Int16)
    (h : ∀ i, i < KYBER_K p → ∀ j, -3328 ≤ (x i j).toInt ∧ (x i j).toInt ≤ 3328)
    (h' : ∀ i, i < KYBER_K p → ∀ j, -3328 ≤ (x' i j).toInt ∧ (x' i j).toInt ≤ 3328) (ρ ρ' : List UInt8) (hρ : ρ.length = 32) (hρ' : ρ'.length = 32)
    (r r' : Mem UInt8) (hr : KYBER_INDCPA_PUBLICKEYBYTES p ≤ r.size) (hr' : KYBER_INDCPA_PUBLICKEYBYTES p ≤ r'.size) (pk : List UInt8)
    (hl : pk.length = KYBER_INDCPA_PUBLICKEYBYTES p)
    (e : Runs (pack_pk p r (vecMem (KYBER_K p) x) (Mem.ofList ρ) 0) (fun m => m.Holds 0 pk))
    (e' : Runs (pack_pk p r' (vecMem (KYBER_K p) x') (Mem.ofList ρ') 0) (fun m => m.Holds 0 pk)) :
    (∀ i, i < KYBER_K p → residues (x i) = residues (x' i)) ∧ ρ = ρ' := by
  have hL : ∀ (x : Nat → Fin 256 → Int16) i, (ByteEncode12 (residues (x i))).length = 384 := fun x i => byteEncode_length 12 _
  have key : ∀ (x : Nat → Fin 256 → Int16) (_ : ∀ i, i < KYBER_K p → ∀ j, -3328 ≤ (x i j).toInt ∧ (x i j).toInt ≤ 3328) (ρ : List UInt8)
      (_ : ρ.length = 32) (r : Mem UInt8) (_ : KYBER_INDCPA_PUBLICKEYBYTES p ≤ r.size)
      (_ : Runs (pack_pk p r (vecMem (KYBER_K p) x) (Mem.ofList ρ) 0) (fun m => m.Holds 0 pk)),
      pk = ((List.range (KYBER_K p)).flatMap fun i => ByteEncode12 (residues (x i))) ++ ρ := by
    intro x h ρ hρ r hr e
    obtain ⟨m, t, hm, hw, hh⟩ := ((pack_pk_runs (vecR_vecMem _ x 3328 h) (Mem.holds_ofList ρ) hρ hr).and e).exists_ok
    refine hh.unique hw.holds ?_
    rw [hl, List.length_append, flatMap_length (hL x), hρ]
    unfold KYBER_INDCPA_PUBLICKEYBYTES KYBER_POLYVECBYTES KYBER_POLYBYTES KYBER_SYMBYTES; omega
  have k1 := key x h ρ hρ r hr e
  have k2 := key x' h' ρ' hρ' r' hr' e'
  rw [k1] at k2
  constructor
  · intro i hi
    have := congrArg (fun l => slice l (384 * i) 384) k2
    simp only [slice_flatMap (hL x) ρ hi, slice_flatMap (hL x') ρ' hi] at this
    exact byteEncode12_inj this
  · have := congrArg (fun l => slice l (384 * KYBER_K p) 32) k2
    simpa only [slice_append_right _ _ (flatMap_length (hL _)) hρ, slice_append_right _ _ (flatMap_length (hL _)) hρ'] using this

/-- C32. `unpack_ciphertext` recovers from a packed ciphertext exactly the compressed values: re-compressing gives them back. -/
theorem C32_unpack_pack_ciphertext (p : ParamSet) (x : Nat → Fin 256 → Int16) (y : Fin 256 → Int16)
    (hx : ∀ i, i < KYBER_K p → ∀ j, -3328 ≤ (x i j).toInt ∧ (x i j).toInt ≤ 3328) (hy : ∀ i, -3328 ≤ (y i).toInt ∧ (y i).toInt ≤ 3328)
    (r : Mem UInt8) (hr : KYBER_CIPHERTEXTBYTES p ≤ r.size) (b : Nat → Fin 256 → Int16) (v : Mem Int16) (hv : v.size = 256) :
    Runs (do let r ← pack_ciphertext p r (vecMem (KYBER_K p) x) (polyMem y); unpack_ciphertext p (vecMem (KYBER_K p) b) v r)
      (fun s => (∃ x', s.1 = vecMem (KYBER_K p) x' ∧ ∀ i, i < KYBER_K p → ∀ j,
          Compress (fips p).du (residues (x' i) j) = Compress (fips p).du (residues (x i) j)) ∧
        ∃ y', s.2 = polyMem y' ∧ ∀ j, Compress (fips p).dv (residues y' j) = Compress (fips p).dv (residues y j)) := by
  have hL : ∀ i, (ByteEncode (fips p).du fun j => Compress (fips p).du (residues (x i) j)).length = 32 * (fips p).du := fun i => byteEncode_length _ _
  rw [runs_bind]
  refine (pack_ciphertext_runs (vecR_vecMem _ x 3328 hx) (polyR_polyMem y 3328 hy) hr).mono fun r1 h1 => ?_
  refine (unpack_ciphertext_runs (vecSz_vecMem _ b) hv h1.holds ?_).mono fun s hs => ?_
  · rw [List.length_append, flatMap_length hL, byteEncode_length]; cases p <;> rfl
  · obtain ⟨x', h2, h3, _⟩ := hs.1.exists
    obtain ⟨y', h4, h5, _⟩ := hs.2.exists
    refine ⟨⟨x', h2, fun i hi j => ?_⟩, y', h4, fun j => ?_⟩
    · rw [h3 i hi, slice_flatMap hL _ hi, byteDecode_byteEncode _ _ fun i => compress_lt _ _,
        compress_decompress (by cases p <;> simp [fips, ML_KEM_512, ML_KEM_768, ML_KEM_1024]) (compress_lt _ _)]
    · rw [h5, slice_append_right _ _ (flatMap_length hL) (byteEncode_length _ _), byteDecode_byteEncode _ _ fun i => compress_lt _ _,
        compress_decompress (by cases p <;> simp [fips, ML_KEM_512, ML_KEM_768, ML_KEM_1024]) (compress_lt _ _)]

/-! ## Concrete cases -/

/-- The range hypotheses are satisfiable with both end points used. -/
example : ∀ i : Fin 256, -3328 ≤ ((fun i => if i.val = 0 then 3328 else -3328 : Fin 256 → Int16) i).toInt ∧
    ((fun i => if i.val = 0 then 3328 else -3328 : Fin 256 → Int16) i).toInt ≤ 3328 := by
  intro i
  show -3328 ≤ (if i.val = 0 then (3328 : Int16) else -3328).toInt ∧ (if i.val = 0 then (3328 : Int16) else -3328).toInt ≤ 3328
  split <;> decide

/-- The specification on a concrete input: coefficients 1, 2, 0, 0, ... encode to the bytes 1, 0x20, 0. -/
example : (ByteEncode12 fun i => if i.val = 0 then 1 else if i.val = 1 then 2 else 0).take 3 = [1, 0x20, 0] := by decide +kernel

/-- Running the model on it. -/
example : Runs (poly_tobytes (Mem.uninit UInt8 384) 0 (polyMem fun i => if i.val = 0 then 1 else if i.val = 1 then -1 else 0))
    (fun r => r[0]? = some (some 0x01) ∧ r[1]? = some (some 0x00) ∧ r[2]? = some (some 0xd0)) := by decide +kernel

/-- The bounds of `C18_decompress_compress` are attained: 104 for d = 4. -/
example : Decompress 4 (Compress 4 104) = 0 := by
  rw [compress_nat, decompress_nat (d := 3)]; decide

example : Compress 4 0 = 0 ∧ Compress 4 1664 = 8 ∧ Compress 4 3328 = 0 := by
  simp only [compress_nat]; decide

/-- Why C19 stops at 831. -/
example : Compress 1 (Decompress 1 1 + ((831 : Int) : Zq)) = 1 := (C19_bit true 831 (by omega)).mpr (by simp)

end Verif.Props
