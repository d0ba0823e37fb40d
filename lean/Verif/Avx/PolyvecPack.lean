import Verif.Avx.UnpackProof
import Verif.Avx.PolyvecProof
import Verif.Avx.Pack
import Verif.Proof.Verify

/-! # Vectors: encoding and compression; comparison and conditional copy -/

namespace Verif.Avx
open Verif.Spec Verif.Proof
open Verif.Model (ParamSet KYBER_K Polyvec KYBER_POLYVECCOMPRESSEDBYTES KYBER_POLYBYTES)

theorem polyvec_tobytes_runs {p : ParamSet} {r : Mem UInt8} {ro : Nat} {a : Polyvec} {f : Nat → Rq}
    (ha : VecP (KYBER_K p) a fun i q => PolyQ q (fun m => ext (f i) (nttIdx m))) (hr : ro + 384 * KYBER_K p ≤ r.size) :
    Runs (polyvec_tobytes p r ro a) (fun r' => r.Wrote r' ro ((List.range (KYBER_K p)).flatMap fun i => ByteEncode12 (f i))) := by
  unfold polyvec_tobytes
  generalize KYBER_K p = k at *
  refine runs_cat1 (w := 384) (fun i => byteEncode_length 12 _) fun i m' hi hm' => ?_
  obtain ⟨q, hq, hqR⟩ := ha.get i hi
  simp only [runs_bind]
  rw [runs_at]
  refine ⟨q, hq, ?_⟩
  rw [show i * KYBER_POLYBYTES = 384 * i from by unfold KYBER_POLYBYTES; omega]
  exact poly_tobytes_runs hqR (by omega)

theorem polyvec_frombytes_runs {p : ParamSet} {r : Polyvec} {a : Mem UInt8} {ao : Nat} {B : List UInt8} (hr : VecSz (KYBER_K p) r)
    (ha : a.Holds ao B) (hB : B.length = 384 * KYBER_K p) :
    Runs (polyvec_frombytes p r a ao) (fun r' => VecV (KYBER_K p) r' (fun i => ByteDecode12 (slice B (384 * i) 384)) 4095) := by
  unfold polyvec_frombytes
  generalize KYBER_K p = k at *
  refine runs_vloop hr.size fun i m hi hm hfr => ?_
  obtain ⟨q, hq, hqs⟩ := hr.get i hi
  simp only [runs_bind]
  rw [runs_at]
  refine ⟨q, by rw [hfr i (Nat.le_refl _), hq], ?_⟩
  rw [show i * KYBER_POLYBYTES = 384 * i from by unfold KYBER_POLYBYTES; omega]
  have hle : 384 * i + 384 ≤ B.length := by omega
  refine (poly_frombytes_runs hqs (ha.slice (384 * i) 384 hle) (length_slice hle)).mono fun q' hq' => ?_
  rw [runs_put]
  exact ⟨by omega, q', rfl, hq'⟩

/-- A loop writing strings one after another, each call touching up to `s` bytes more. -/
theorem runs_cat_over {m : Mem UInt8} {o w s n : Nat} {L : Nat → List UInt8} {body : Nat → Mem UInt8 → C (Mem UInt8)}
    (hL : ∀ i, (L i).length = w)
    (h : ∀ i m', i < n → m'.size = m.size → Runs (body i m') (fun m'' => m''.size = m'.size ∧ m''.Holds (o + w * i) (L i) ∧
      ∀ j, (j < o + w * i ∨ o + w * i + (w + s) ≤ j) → m''[j]? = m'[j]?)) :
    Runs (cfor 0 n m body) (fun m' => m'.size = m.size ∧ m'.Holds o ((List.range n).flatMap L) ∧
      ∀ j, (j < o ∨ o + w * n + s ≤ j) → m'[j]? = m[j]?) := by
  refine runs_cfor (fun i (m' : Mem UInt8) => m'.size = m.size ∧ m'.Holds o ((List.range i).flatMap L) ∧
    ∀ j, (j < o ∨ o + w * i + s ≤ j) → m'[j]? = m[j]?) (Nat.zero_le _) ⟨rfl, Mem.holds_nil m o, fun _ _ => rfl⟩ ?_
  rintro i m' _ hi ⟨h1, h2, h3⟩
  refine (h i m' hi h1).mono ?_
  rintro m'' ⟨g1, g2, g3⟩
  have hle : w * (i + 1) = w * i + w := Nat.mul_succ w i
  have hl := flatMap_length (n := i) hL
  refine ⟨g1.trans h1, ?_, fun j hj => ?_⟩
  · rw [List.range_succ, List.flatMap_append, List.flatMap_singleton, Mem.Holds.append, hl]
    exact ⟨fun j hj => by rw [g3 _ (by omega)]; exact h2 j hj, g2⟩
  · rw [g3 j (by omega), h3 j (by omega)]

/-- The number of bytes after its output that `polyvec_compress` overwrites. -/
def spill : ParamSet → Nat
  | .k4 => 2
  | _ => 0

theorem polyvec_compress_runs {p : ParamSet} {r : Mem UInt8} {ro : Nat} {a : Polyvec} {f : Nat → Rq}
    (ha : VecP (KYBER_K p) a fun i q => PolyQ q (ext (f i))) (hr : ro + KYBER_POLYVECCOMPRESSEDBYTES p + spill p ≤ r.size) :
    Runs (polyvec_compress p r ro a) (fun r' => r'.size = r.size ∧ r'.Holds ro ((List.range (KYBER_K p)).flatMap fun i =>
      ByteEncode (fips p).du fun j => Compress (fips p).du (f i j)) ∧
      ∀ j, (j < ro ∨ ro + KYBER_POLYVECCOMPRESSEDBYTES p + spill p ≤ j) → r'[j]? = r[j]?) := by
  have key : ∀ k, VecP k a (fun i q => PolyQ q (ext (f i))) → ro + 320 * k ≤ r.size →
      Runs (cfor 0 k r fun i r => do poly_compress10 r (ro + 320 * i) (← at' a i)) (fun r' => r'.size = r.size ∧ r'.Holds ro ((List.range k).flatMap fun i =>
      ByteEncode 10 fun j => Compress 10 (f i j)) ∧ ∀ j, (j < ro ∨ ro + 320 * k + 0 ≤ j) → r'[j]? = r[j]?) := by
    intro k ha hr
    refine runs_cat_over (w := 320) (s := 0) (fun i => byteEncode_length 10 _) fun i m' hi hm' => ?_
    obtain ⟨q, hq, hqR⟩ := ha.get i hi
    rw [runs_bind, runs_at]
    exact ⟨q, hq, poly_compress10_runs hqR (by omega)⟩
  cases p
  · exact key 2 ha hr
  · exact key 3 ha hr
  · have hr : ro + 352 * 4 + 2 ≤ r.size := hr
    have ha : VecP 4 a _ := ha
    refine runs_cat_over (n := 4) (w := 352) (s := 2) (fun i => byteEncode_length 11 _) fun i m' hi hm' => ?_
    obtain ⟨q, hq, hqR⟩ := ha.get i hi
    rw [runs_bind, runs_at]
    exact ⟨q, hq, poly_compress11_runs hqR (by omega)⟩

/-- The number of bytes after its input that `polyvec_decompress` reads (and ignores). -/
def over : ParamSet → Nat
  | .k4 => 10
  | _ => 12

theorem decNum_slice {d i : Nat} {B : List UInt8} (hd : 0 < d) {a : Nat} (ha : a + 32 * d ≤ B.length) (hi : i < 256) :
    decNum d (fun k => B.getD (a + k) 0) i = decNum d (fun k => (slice B a (32 * d)).getD k 0) i := by
  unfold decNum
  refine bitsVal_congr fun j hj => ?_
  have h1 : (i * d + j) / 8 < 32 * d := by
    rw [Nat.div_lt_iff_lt_mul (by omega)]
    have : i * d ≤ 255 * d := Nat.mul_le_mul_right d (by omega)
    omega
  have hl := length_slice ha
  have e : (slice B a (32 * d)).getD ((i * d + j) / 8) 0 = B.getD (a + (i * d + j) / 8) 0 := by
    rw [List.getD, List.getD, List.getElem?_eq_getElem (by omega), List.getElem?_eq_getElem (by omega), getElem_slice _ (by omega)]
  show (B.getD (a + (i * d + j) / 8) 0).toNat.testBit _ = ((slice B a (32 * d)).getD ((i * d + j) / 8) 0).toNat.testBit _
  rw [e]

theorem polyvec_decompress_runs {p : ParamSet} {r : Polyvec} {a : Mem UInt8} {ao : Nat} {B : List UInt8} (hr : VecSz (KYBER_K p) r)
    (ha : a.Holds ao B) (hB : KYBER_POLYVECCOMPRESSEDBYTES p + over p ≤ B.length) :
    Runs (polyvec_decompress p r a ao) (fun r' => VecR (KYBER_K p) r'
      (fun i j => Decompress (fips p).du (ByteDecode (fips p).du (slice B (32 * (fips p).du * i) (32 * (fips p).du)) j)) 3329) := by
  have sub : ∀ o n, o + n ≤ B.length → a.Has (ao + o) n (fun k => B.getD (o + k) 0) := fun o n ho k hk => by
    rw [Nat.add_assoc]; exact ha.getElem? 0 (by omega)
  have key : ∀ k, VecSz k r → 320 * k + 12 ≤ B.length →
      Runs (cfor 0 k r fun i r => do put' r i (← poly_decompress10 (← at' r i) a (ao + 320 * i))) (fun r' => VecR k r'
        (fun i j => Decompress 10 (ByteDecode 10 (slice B (320 * i) 320) j)) 3329) := by
    intro k hr hB
    refine runs_vecloop hr.size fun i m hi hm hfr => ?_
    obtain ⟨q, hq, hqs⟩ := hr.get i hi
    simp only [runs_bind]
    rw [runs_at]
    refine ⟨q, by rw [hfr i (Nat.le_refl _), hq], (poly_decompress10_runs hqs (sub (320 * i) 332 (by omega))).mono fun q' hq' => ?_⟩
    rw [runs_put]
    refine ⟨by omega, q', rfl, ?_⟩
    convert hq' using 2
    rename_i j
    have e := decNum_slice (d := 10) (i := j.val) (a := 320 * i) (B := B) (by omega) (by omega) j.isLt
    rw [byteDecode, ← e]
  cases p
  · exact key 2 hr hB
  · exact key 3 hr hB
  · have hB : 352 * 4 + 10 ≤ B.length := hB
    have hr : VecSz 4 r := hr
    refine runs_vecloop (k := 4) hr.size fun i m hi hm hfr => ?_
    obtain ⟨q, hq, hqs⟩ := hr.get i hi
    simp only [runs_bind]
    rw [runs_at]
    refine ⟨q, by rw [hfr i (Nat.le_refl _), hq], (poly_decompress11_runs hqs (sub (352 * i) 362 (by omega))).mono fun q' hq' => ?_⟩
    rw [runs_put]
    refine ⟨by omega, q', rfl, ?_⟩
    convert hq' using 2
    rename_i j
    have e := decNum_slice (d := 11) (i := j.val) (a := 352 * i) (B := B) (by omega) (by omega) j.isLt
    show Decompress 11 (ByteDecode 11 _ j) = _
    rw [byteDecode]
    exact congrArg _ e.symm

/-! ## verify.c -/

theorem loadu_runs {m : Mem UInt8} {o : Nat} {f : Nat → UInt8} (h : m.Has o 32 f) : Runs (loadu m o) (fun l => l = (List.range 32).map f) := by
  refine runs_cfor (fun i l => l = (List.range i).map f) (Nat.zero_le _) (by simp) ?_
  rintro i l _ hi rfl
  rw [runs_bind, runs_rd_of (h i hi), runs_pure, List.range_succ, List.map_append]
  rfl

theorem storeu_runs {m : Mem UInt8} {o : Nat} {f : Nat → UInt8} (h : o + 32 ≤ m.size) :
    Runs (storeu m o ((List.range 32).map f)) (fun m' => m.Upd m' o 32 f) := by
  refine runs_fill1 fun i m' hi hu => ?_
  rw [runs_bind, runs_at]
  exact ⟨f i, by simp [hi], runs_wr_upd (by rw [hu.size]; omega)⟩

theorem zipWith_range {α β γ : Type} (op : α → β → γ) (F : Nat → α) (G : Nat → β) (n : Nat) :
    List.zipWith op ((List.range n).map F) ((List.range n).map G) = (List.range n).map fun k => op (F k) (G k) :=
  List.ext_getElem (by simp) fun i h1 h2 => by simp

theorem has_block {m : Mem UInt8} {o n : Nat} {f : Nat → UInt8} (h : m.Has o n f) {i w : Nat} (hi : i + w ≤ n) :
    m.Has (o + i) w fun k => f (i + k) := fun k hk => by
  rw [Nat.add_assoc]; exact h (i + k) (by omega)

theorem uint64_or_eq_zero (a : UInt64) (b : UInt8) : a ||| b.toUInt64 = 0 ↔ a = 0 ∧ b = 0 := by
  rw [← UInt64.toNat_inj, ← UInt64.toNat_inj (a := a), ← UInt8.toNat_inj (a := b)]
  simp [UInt64.toNat_or, Nat.or_eq_zero_iff]

theorem verify_last64 (r : UInt64) (h : r.toNat < 256) : (((-r) >>> 63).toNat : Int) = if r = 0 then 0 else 1 := by
  have h2 : r = 0 ↔ r.toNat = 0 := by rw [← UInt64.toNat_inj]; rfl
  simp only [h2]
  simp only [UInt64.toNat_shiftRight, UInt64.toNat_neg, Nat.shiftRight_eq_div_pow, UInt64.size]
  generalize r.toNat = n at *
  split <;> simp at * <;> omega

theorem verify_runs {a b : Mem UInt8} {ao bo n : Nat} {f g : Nat → UInt8} (ha : a.Has ao n f) (hb : b.Has bo n g) :
    Runs (verify a ao b bo n) (fun r => (r = 0 ∨ r = 1) ∧ (r = 0 ↔ ∀ i, i < n → f i = g i)) := by
  unfold verify
  rw [runs_bind]
  refine Runs.mono (runs_cfor (fun i h => ∃ H : Nat → UInt8, h = (List.range 32).map H ∧ ∀ k, k < 32 → (H k = 0 ↔ ∀ j, j < i → f (32 * j + k) = g (32 * j + k)))
    (Nat.zero_le _) ⟨fun _ => 0, by decide, by simp⟩ ?_) ?_
  · rintro i _ _ hi ⟨H, rfl, hH⟩
    have hle : 32 * i + 32 ≤ n := by omega
    simp only [runs_bind]
    refine (loadu_runs (has_block ha hle)).mono ?_
    rintro _ rfl
    refine (loadu_runs (has_block hb hle)).mono ?_
    rintro _ rfl
    rw [runs_pure, zipWith_range, zipWith_range]
    refine ⟨_, rfl, fun k hk => ?_⟩
    rw [uint8_or_eq_zero, uint8_xor_eq_zero, hH k hk]
    constructor
    · rintro ⟨h1, h2⟩ j hj
      rcases Nat.lt_or_eq_of_le (Nat.lt_succ_iff.mp hj) with h | rfl
      · exact h1 j h
      · exact h2
    · exact fun h => ⟨fun j hj => h j (by omega), h i (by omega)⟩
  · rintro _ ⟨H, rfl, hH⟩
    have h0 : (((List.range 32).map H).all (· == 0)) = true ↔ ∀ i, i < 32 * (n / 32) → f i = g i := by
      rw [List.all_eq_true]
      constructor
      · intro h i hi
        have := h (H (i % 32)) (List.mem_map_of_mem (by simp; omega))
        have := (hH (i % 32) (by omega)).mp (by simpa using this) (i / 32) (by omega)
        rwa [Nat.div_add_mod] at this
      · intro h x hx
        obtain ⟨k, hk, rfl⟩ := List.mem_map.mp hx
        simp at hk
        simpa using (hH k hk).mpr fun j hj => h _ (by omega)
    rw [runs_bind]
    refine Runs.mono (runs_cfor (fun j (r : UInt64) => r.toNat < 256 ∧ (r = 0 ↔ ∀ i, i < 32 * (n / 32) + j → f i = g i)) (Nat.zero_le _) ?_ ?_) ?_
    · rw [Nat.add_zero]
      by_cases hc : (((List.range 32).map H).all (· == 0)) = true
      · rw [if_pos hc]
        exact ⟨by decide, ⟨fun _ => h0.mp hc, fun _ => by decide⟩⟩
      · rw [if_neg hc]
        exact ⟨by decide, ⟨fun h => absurd h (by decide), fun h => absurd (h0.mpr h) hc⟩⟩
    · rintro j r _ hj ⟨h1, h2⟩
      have e1 := ha (32 * (n / 32) + j) (by omega)
      have e2 := hb (32 * (n / 32) + j) (by omega)
      rw [← Nat.add_assoc] at e1 e2
      simp only [runs_bind, runs_rd_of e1, runs_rd_of e2, runs_pure]
      refine ⟨?_, ?_⟩
      · rw [UInt64.toNat_or, UInt8.toNat_toUInt64]
        exact Nat.or_lt_two_pow (n := 8) h1 (UInt8.toNat_lt _)
      · rw [uint64_or_eq_zero, uint8_xor_eq_zero, h2]
        constructor
        · rintro ⟨h1, h2⟩ i hi
          rcases Nat.lt_or_eq_of_le (Nat.lt_succ_iff.mp hi) with h | rfl
          · exact h1 i h
          · exact h2
        · exact fun h => ⟨fun i hi => h i (by omega), h _ (by omega)⟩
    · rintro r ⟨h1, h2⟩
      rw [show 32 * (n / 32) + (n - 32 * (n / 32)) = n from by omega] at h2
      rw [runs_pure, verify_last64 r h1, ← h2]
      by_cases h : r = 0 <;> simp [h]

theorem u8_int (x : UInt8) : u8 (BitVec.ofInt 32 (x.toNat : Int)).toInt = x := by
  have := x.toNat_lt
  rw [BitVec.toInt_ofInt, Int.bmod_eq_of_le (by omega) (by omega)]
  apply UInt8.toNat_inj.mp
  unfold u8
  simp
  omega

theorem cmov_int0 (x r : UInt8) : u8 (ixor (r.toNat : Int) (iand (-((0 : UInt8).toNat : Int)) (ixor (x.toNat : Int) (r.toNat : Int)))) = r := by
  unfold ixor iand
  rw [BitVec.ofInt_toInt, BitVec.ofInt_toInt, show BitVec.ofInt 32 (-((0 : UInt8).toNat : Int)) = 0#32 from by decide, BitVec.zero_and, BitVec.xor_zero, u8_int]

theorem cmov_int1 (x r : UInt8) : u8 (ixor (r.toNat : Int) (iand (-((1 : UInt8).toNat : Int)) (ixor (x.toNat : Int) (r.toNat : Int)))) = x := by
  unfold ixor iand
  rw [BitVec.ofInt_toInt, BitVec.ofInt_toInt, show BitVec.ofInt 32 (-((1 : UInt8).toNat : Int)) = BitVec.allOnes 32 from by decide, BitVec.allOnes_and,
    BitVec.xor_comm, BitVec.xor_assoc, BitVec.xor_self, BitVec.xor_zero, u8_int]

theorem cmov_runs {r x : Mem UInt8} {ro xo n : Nat} {f g : Nat → UInt8} (hr : r.Has ro n f) (hx : x.Has xo n g) (b : Bool) :
    Runs (cmov r ro x xo n (if b then 1 else 0)) (fun r' => r.Upd r' ro n (fun i => if b then g i else f i)) := by
  have hbv : ((List.range 32).map fun k => byteOf64 (-((if b then (1 : UInt8) else 0).toUInt64)) (k % 8)) = (List.range 32).map fun _ => if b then 255 else 0 := by
    cases b <;> decide +kernel
  unfold cmov
  rw [hbv, runs_bind]
  refine Runs.mono (runs_fill (w := 32) (o := ro) (f := fun i => if b then g i else f i) fun i m hi hu => ?_) fun m hm => ?_
  · have hle : 32 * i + 32 ≤ n := by omega
    have h1 : m.Has (ro + 32 * i) 32 fun k => f (32 * i + k) := fun k hk => by
      rw [hu.frame _ (by omega)]; exact has_block hr hle k hk
    simp only [runs_bind]
    refine (loadu_runs h1).mono ?_
    rintro _ rfl
    refine (loadu_runs (has_block hx hle)).mono ?_
    rintro _ rfl
    rw [List.zip_eq_zipWith, zipWith_range, zipWith_range]
    have hsz := has_size h1 (by omega)
    refine (storeu_runs hsz).mono fun m' h' => h'.congr fun k _ => ?_
    cases b
    · simp
    · simp
  · have := hm
    have h2 : Runs (cfor 0 (n - 32 * (n / 32)) m fun j r => do
        let rj ← rd r (ro + 32 * (n / 32) + j)
        let xj ← rd x (xo + 32 * (n / 32) + j)
        wr r (ro + 32 * (n / 32) + j) (u8 (ixor (rj.toNat : Int) (iand (-((if b then (1 : UInt8) else 0).toNat : Int)) (ixor (xj.toNat : Int) (rj.toNat : Int))))))
        (fun m' => m.Upd m' (ro + 32 * (n / 32)) (n - 32 * (n / 32)) fun j => if b then g (32 * (n / 32) + j) else f (32 * (n / 32) + j)) := by
      refine runs_fill1 fun j m' hj hu => ?_
      have e1 : m'[ro + 32 * (n / 32) + j]? = some (some (f (32 * (n / 32) + j))) := by
        rw [hu.frame _ (by omega), hm.frame _ (by omega), Nat.add_assoc]; exact hr _ (by omega)
      have e2 : x[xo + 32 * (n / 32) + j]? = some (some (g (32 * (n / 32) + j))) := by
        rw [Nat.add_assoc]; exact hx _ (by omega)
      simp only [runs_bind, runs_rd_of e1, runs_rd_of e2]
      refine (runs_wr_upd (Array.getElem?_eq_some_iff.mp e1).1).mono fun m2 h2 => h2.congr fun _ _ => ?_
      cases b
      · exact cmov_int0 _ _
      · exact cmov_int1 _ _
    refine h2.mono fun m' h' => ?_
    have := hm.append h'
    rwa [show 32 * (n / 32) + (n - 32 * (n / 32)) = n from by omega] at this

/-- A decidable form of "ends in an access outside an object". -/
theorem oob_of {α : Type} {m : C α} (h : (match m with | .ub .oob => true | _ => false) = true) : m = .ub .oob := by
  cases m with
  | ok v t => cases h
  | ub u => cases u <;> first | rfl | cases h
  | diverge => cases h

end Verif.Avx
