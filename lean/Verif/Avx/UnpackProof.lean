import Verif.Avx.PackProof
import Verif.Proof.Msg
import Verif.Proof.Cbd
import Verif.Proof.Roundtrip

/-! # 12-bit encoding, messages, decompression and sampling in the AVX2 code -/

namespace Verif.Avx
open Verif.Spec Verif.Proof
open Verif.Model (ParamSet KYBER_K Polyvec)

attribute [local irreducible] ntttobytes_avx qdata headIs run in
theorem poly_tobytes_runs {a : Mem Int16} {f : Rq} (ha : PolyQ a (fun m => ext f (nttIdx m))) {r : Mem UInt8} {ro : Nat} (hr : ro + 384 ≤ r.size) :
    Runs (poly_tobytes r ro a) (fun r' => r.Wrote r' ro (ByteEncode12 f)) := by
  obtain ⟨x, hx, hxf⟩ := ha.has
  unfold poly_tobytes
  have key := pack_enc (d := 12) (N := 384) (g := nttIdx) (tW := csubW) (x := fun i => x (nttMem i)) (F := fun i => (ext f i).val) (fun _ _ => rfl)
    ntttobytes_check ntttobytes_st (by omega) (by omega) (by omega) ha.size (fun i hi => by rw [hx i hi]; show _ = some (some (x (nttMem (nttIdx i)))); rw [nttMem_nttIdx hi]) (fun i hi => nttIdx_lt hi)
    (fun i hi => by
      obtain ⟨h1, h2, h3⟩ := hxf (nttMem i) (nttMem_lt hi)
      rw [nttIdx_nttMem hi] at h1
      obtain ⟨u, hu, e, hm⟩ := coef_nat h1 h2 h3
      have hc : (csubW (BitVec.ofNat 16 u)).toNat = u % 3329 := all53 (P := fun u => (csubW (BitVec.ofNat 16 u)).toNat = u % 3329) csub_all u hu
      refine ⟨?_, lt_of_lt_of_le zq_val_lt (by norm_num)⟩
      rw [e, hc, hm]) hr
  refine key.mono ?_
  rintro r' ⟨h1, h2, h3⟩
  exact wrote_encode (d := 12) (n := 384) (F := fun i => (ext f i).val) (by omega) ⟨h1, h2, h3⟩ (by omega) fun i hi => by rw [ext_lt f hi]

theorem getB_signB (m : Nat) : ∀ (n k j : Nat), getB (signB m n k) j = if j < n then atomB (8 * m + (k + j)) 15 else .c false
  | 0, k, j => by simp [signB, getB_nil]
  | n + 1, k, 0 => by simp [signB, getB_zero]
  | n + 1, k, j + 1 => by rw [signB, getB_succ, getB_signB m n (k + 1) j, show k + 1 + j = k + (j + 1) from by omega]; simp

attribute [local irreducible] poly_tomsg_prog qdata headIs run in
theorem poly_tomsg_runs {a : Mem Int16} {f : Rq} (ha : PolyQ a (ext f)) {r : Mem UInt8} {ro : Nat} (hr : ro + 32 ≤ r.size) :
    Runs (poly_tomsg r ro a) (fun r' => r.Wrote r' ro (ByteEncode 1 fun i => Compress 1 (f i))) := by
  obtain ⟨x, hx, hxf⟩ := ha.has
  unfold poly_tomsg
  have key := pack_runs (w := 16) (N := 32) (n := 32) (g := id) (tW := msgW) (x := x) (fun _ _ => rfl) tomsg_check tomsg_st (by omega) (by omega) ha.size hx
    (fun i hi => hi) (fun i _ => (msgW _).isLt) hr
  refine key.mono ?_
  rintro r' ⟨h1, h2, h3⟩
  refine wrote_encode (d := 1) (n := 32) (F := fun i => Compress 1 (ext f i)) (by omega) ⟨h1, fun m hm => ?_, h2⟩ (by omega) fun i hi => by rw [ext_lt f hi]
  obtain ⟨y, hy, hb⟩ := h3 m hm
  rw [hy, encByte]
  congr 2
  refine byte_eq fun k hk => ?_
  rw [hb k hk (8 * m + k) 15 (by omega) (by omega) (by rw [getB_signB, if_pos hk, Nat.zero_add])]
  obtain ⟨g1, g2, g3⟩ := hxf (8 * m + k) (by omega)
  obtain ⟨u, hu, e, hm'⟩ := coef_nat g1 g2 g3
  have hc : (msgW (BitVec.ofNat 16 u)).getLsbD 15 = (833 ≤ u && u ≤ 2496) :=
    all53 (P := fun u => (msgW (BitVec.ofNat 16 u)).getLsbD 15 = (833 ≤ u && u ≤ 2496)) msg_all u hu
  rw [e, hc, Nat.div_one, Nat.mod_one, compress1, ← hm']
  by_cases c : u = 3329
  · subst c; decide
  · rw [Nat.mod_eq_of_lt (by omega)]
    by_cases c1 : 833 ≤ u <;> by_cases c2 : u ≤ 2496 <;> simp [c1, c2]

/-! ## Decompression -/

theorem i16_ofNat (v : Nat) : Int16.ofBitVec (BitVec.ofNat 16 v) = i16 (v : Int) := by
  apply Int16.toBitVec_inj.mp
  show BitVec.ofNat 16 v = BitVec.ofInt 16 (v : Int)
  rw [BitVec.ofInt_natCast]

theorem has_size {a : Mem UInt8} {ao n : Nat} {b : Nat → UInt8} (h : a.Has ao n b) (hn : 0 < n) : ao + n ≤ a.size := by
  have := (Array.getElem?_eq_some_iff.mp (h (n - 1) (by omega))).1
  omega

theorem dec_runs {d N : Nat} {s g : Nat → Nat} {p : List I}
    (hrun : headIs (run (V.sem nameB numP) p ⟨noRegs, unpackObjs false N⟩) (fun cs => cellsMh (fun i => shlB (s i) (unpackB d (d * i))) g cs 0) = true)
    (hw : p.all (I.stIn [0]) = true) (hN : 0 < N) (hd : 0 < d) (hds : ∀ i, d + s i ≤ 16)
    (hall : ∀ i, i < 256 → ∀ t : Fin (2 ^ d), mulhrsW (BitVec.ofNat 16 (t.val * 2 ^ s i)) (BitVec.ofNat 16 (g i)) =
      BitVec.ofNat 16 ((3329 * t.val + 2 ^ (d - 1)) / 2 ^ d))
    {r : Mem Int16} (hr : r.size = 256) {a : Mem UInt8} {ao : Nat} {b : Nat → UInt8} (ha : a.Has ao N b) :
    Runs (callPoly [0] p r [bytesObj false a ao, tabObj qdata]) (fun r' => PolyR r' (fun i => Decompress d (decNum d b i.val)) 3329) := by
  have hsz := has_size ha hN
  refine Runs.mono (callPolyV_runs (E := envB N b) (envB_names N b) hw hrun hr (unpack_rel ha hsz fun _ _ => rfl)) ?_
  rintro r' ⟨h1, cs, ds, hf, hlen, hc, hb⟩
  refine PolyR.of_coef h1 fun i hi => ?_
  obtain ⟨y, hy, hD⟩ := desc_mh hf hc i (by omega)
  have hlt := decNum_lt d b i
  have he := hall i hi ⟨decNum d b i, hlt⟩
  rw [desc_unpack hD (hds i), he] at hy
  refine ⟨_, hb i _ hy, ?_⟩
  obtain ⟨d, rfl⟩ : ∃ e, d = e + 1 := ⟨d - 1, by omega⟩
  have hv : (3329 * decNum (d + 1) b i + 2 ^ d) / 2 ^ (d + 1) ≤ 3329 := by
    rw [← Nat.lt_succ_iff, Nat.div_lt_iff_lt_mul (by positivity)]
    rw [pow_succ] at hlt ⊢
    omega
  show zq (Int16.ofBitVec (BitVec.ofNat 16 ((3329 * decNum (d + 1) b i + 2 ^ d) / 2 ^ (d + 1)))) = _ ∧
    -3329 ≤ (Int16.ofBitVec (BitVec.ofNat 16 ((3329 * decNum (d + 1) b i + 2 ^ d) / 2 ^ (d + 1)))).toInt ∧
    (Int16.ofBitVec (BitVec.ofNat 16 ((3329 * decNum (d + 1) b i + 2 ^ d) / 2 ^ (d + 1)))).toInt ≤ 3329
  generalize hV : (3329 * decNum (d + 1) b i + 2 ^ d) / 2 ^ (d + 1) = V at hv
  rw [i16_ofNat, zq_i16_nat (by omega), toInt_i16_nat (by omega), decompress_nat, hV]
  exact ⟨rfl, by omega, by omega⟩

attribute [local irreducible] poly_decompress_128 poly_decompress_160 qdata headIs run in
theorem poly_decompress_runs {p : ParamSet} {r : Mem Int16} {a : Mem UInt8} {ao : Nat} {B : List UInt8} (hr : r.size = 256) (ha : a.Holds ao B)
    (hB : B.length = Verif.Model.KYBER_POLYCOMPRESSEDBYTES p) :
    Runs (poly_decompress p r a ao) (fun r' => PolyR r' (fun i => Decompress (fips p).dv (ByteDecode (fips p).dv B i)) 3329) := by
  have h := ha.has 0
  rw [hB] at h
  have hsz := has_size h (by cases p <;> decide)
  have key : ∀ {d : Nat}, (fun i : Fin 256 => Decompress d (decNum d (fun k => B.getD k 0) i.val)) = fun i => Decompress d (ByteDecode d B i) := by
    intro d; funext i; rw [byteDecode]
  unfold poly_decompress
  rw [if_pos (by omega)]
  cases p
  · exact Runs.mono (dec_runs (d := 4) decompress4_check decompress4_st (by omega) (by omega) (by intro; omega) (fun _ _ => d4_all) hr h) fun _ h => by rw [key] at h; exact h
  · exact Runs.mono (dec_runs (d := 4) decompress4_check decompress4_st (by omega) (by omega) (by intro; omega) (fun _ _ => d4_all) hr h) fun _ h => by rw [key] at h; exact h
  · exact Runs.mono (dec_runs (d := 5) decompress5_check decompress5_st (by omega) (by omega) (by intro; omega) (fun _ _ => d5_all) hr h) fun _ h => by rw [key] at h; exact h

attribute [local irreducible] poly_decompress10_prog qdata headIs run in
theorem poly_decompress10_runs {r : Mem Int16} {a : Mem UInt8} {ao : Nat} {b : Nat → UInt8} (hr : r.size = 256) (ha : a.Has ao 332 b) :
    Runs (poly_decompress10 r a ao) (fun r' => PolyR r' (fun i => Decompress 10 (decNum 10 b i.val)) 3329) := by
  have hsz := has_size ha (by omega)
  unfold poly_decompress10
  rw [if_pos (by omega)]
  refine dec_runs (d := 10) decompress10_check decompress10_st (by omega) (by omega) (by intro; omega) (fun i _ => ?_) hr ha
  rcases Nat.mod_two_eq_zero_or_one i with h | h
  · simp only [h]; exact d10_all0
  · simp only [h]; exact d10_all1

attribute [local irreducible] poly_decompress11_prog qdata headIs run in
theorem poly_decompress11_runs {r : Mem Int16} {a : Mem UInt8} {ao : Nat} {b : Nat → UInt8} (hr : r.size = 256) (ha : a.Has ao 362 b) :
    Runs (poly_decompress11 r a ao) (fun r' => PolyR r' (fun i => Decompress 11 (decNum 11 b i.val)) 3329) := by
  have hsz := has_size ha (by omega)
  unfold poly_decompress11
  rw [if_pos (by omega)]
  exact dec_runs (d := 11) decompress11_check decompress11_st (by omega) (by omega) (by intro; omega) (fun i _ => d11_all) hr ha

attribute [local irreducible] nttfrombytes_avx qdata headIs run in
/-- The coefficients read are the 12-bit numbers, unreduced, in the order of the AVX2 code. -/
theorem poly_frombytes_exact {r : Mem Int16} {a : Mem UInt8} {ao : Nat} {B : List UInt8} (hr : r.size = 256) (ha : a.Holds ao B)
    (hB : B.length = 384) :
    Runs (poly_frombytes r a ao) (fun r' => r'.size = 256 ∧ r'.Has 0 256 fun i => i16 ((decNum 12 (fun k => B.getD k 0) (nttIdx i) : Nat) : Int)) := by
  have h := ha.has 0
  rw [hB] at h
  have hsz := has_size h (by omega)
  unfold poly_frombytes
  rw [if_pos (by omega)]
  have hrun := nttfrombytes_check
  refine Runs.mono (callPolyV_runs (E := envB 384 fun i => B.getD i 0) (envB_names _ _) nttfrombytes_st hrun hr (unpack_rel h hsz fun _ _ => rfl)) ?_
  rintro r' ⟨h1, cs, ds, hf, hlen, hc, hb⟩
  refine ⟨h1, fun i hi => ?_⟩
  rw [← List.take_of_length_le (l := cs) (i := 256) (by omega)] at hf
  obtain ⟨y, hy, hD⟩ := desc_cells (envB_names 384 fun i => B.getD i 0) hf hc i hi (by omega)
  have hD' : Desc (envB 384 fun i => B.getD i 0).α (shlB 0 (unpackB 12 (12 * nttIdx i))) y := hD
  rw [desc_unpack hD' (by omega)] at hy
  rw [Nat.zero_add, hb i _ hy, i16_ofNat, Nat.pow_zero, Nat.mul_one]

theorem poly_frombytes_runs {r : Mem Int16} {a : Mem UInt8} {ao : Nat} {B : List UInt8} (hr : r.size = 256) (ha : a.Holds ao B)
    (hB : B.length = 384) : Runs (poly_frombytes r a ao) (fun r' => PolyV r' (ByteDecode12 B) 4095) := by
  refine (poly_frombytes_exact hr ha hB).mono ?_
  rintro r' ⟨h1, h2⟩
  refine ⟨h1, fun i hi => ⟨_, by have := h2 i hi; rwa [Nat.zero_add] at this, ?_⟩⟩
  have hlt := decNum_lt 12 (fun k => B.getD k 0) (nttIdx i)
  rw [zq_i16_nat (by omega), toInt_i16_nat (by omega), ext_lt _ (nttIdx_lt hi)]
  refine ⟨?_, by omega, by omega⟩
  unfold ByteDecode12
  rw [byteDecode]

/-! ## Words determined by their bits -/

def noAny : Nat → List Bit → Bool
  | 0, _ => true
  | n + 1, l => (match hd l with | .any => false | _ => true) && noAny n (tl l)

theorem noAny_get : ∀ {n : Nat} {l : List Bit}, noAny n l = true → ∀ k, k < n → getB l k ≠ .any
  | 0, _, _, k, hk => by omega
  | n + 1, l, h, k, hk => by
    simp only [noAny, Bool.and_eq_true] at h
    cases k with
    | zero => intro e; rw [hd_eq, e] at h; simp at h
    | succ k => rw [← tl_eq]; exact noAny_get h.2 k (by omega)

theorem desc_det {α : Nat → Bool} {l : List Bit} {x y : W} (hl : noAny 16 l = true) (hx : Desc α l x) (hy : Desc α l y) : x = y := by
  apply BitVec.eq_of_getLsbD_eq
  intro k hk
  have h1 := hx k hk
  have h2 := hy k hk
  have h3 := noAny_get hl k hk
  revert h1 h2 h3
  cases getB l k with
  | c b => intro h1 h2 _; exact Eq.trans h1 (Eq.symm h2)
  | any => intro _ _ h; exact absurd rfl h
  | t b tt => intro h1 h2 _; exact Eq.trans h1 (Eq.symm h2)

/-! ## Messages -/

theorem hqB_any : ∀ i : Fin 256, noAny 16 (hqB i.val) = true := by decide +kernel

theorem desc_hq {n : Nat} {b : Nat → UInt8} {i : Nat} (hi : i < 256) {y : W} (h : Desc (envB n b).α (hqB i) y) :
    y = if (b (i / 8)).toNat.testBit (i % 8) then 1665#16 else 0 := by
  have ha : (atomB (i / 8) (i % 8)).holds (envB n b).α ((b (i / 8)).toNat.testBit (i % 8)) := by
    have := Bit.atom_holds (envB n b).α (numP (i / 8) (i % 8))
    rwa [envB_atom (Nat.mod_lt _ (by omega)) this] at this
  have h1 : BR (n := 16) (envB n b).α (List.replicate 16 (atomB (i / 8) (i % 8))) (if (b (i / 8)).toNat.testBit (i % 8) then BitVec.allOnes 16 else 0) := by
    intro k
    rw [replicate_getB]
    by_cases hk : k < 16
    · rw [if_pos hk]
      convert ha using 1
      split <;> rename_i hh
      · rw [hh, BitVec.getLsbD_allOnes]; simp [hk]
      · simp at hh; rw [hh]; simp
    · rw [if_neg hk]
      show _ = false
      exact BitVec.getLsbD_of_ge _ _ (by omega)
  have h2 := h1.and (litB_ok (α := (envB n b).α) 16 1665)
  have := desc_det (hqB_any ⟨i, hi⟩) h (fun k _ => h2 k)
  rw [this]
  split <;> decide

attribute [local irreducible] poly_frommsg_prog qdata headIs run in
theorem poly_frommsg_runs {r : Mem Int16} {msg : Mem UInt8} {mo : Nat} {B : List UInt8} (hr : r.size = 256) (hm : msg.Holds mo B)
    (hB : B.length = 32) : Runs (poly_frommsg r msg mo) (fun r' => PolyR r' (fun i => Decompress 1 (ByteDecode 1 B i)) 1665) := by
  have h := hm.has 0
  rw [hB] at h
  have hsz := has_size h (by omega)
  unfold poly_frommsg
  rw [if_pos (by omega)]
  have hrun := frommsg_check
  refine Runs.mono (callPolyV_runs (E := envB 32 fun i => B.getD i 0) (envB_names _ _) frommsg_st hrun hr (unpack_rel h hsz fun _ _ => rfl)) ?_
  rintro r' ⟨h1, cs, ds, hf, hlen, hc, hb⟩
  refine PolyR.of_coef h1 fun i hi => ?_
  rw [← List.take_of_length_le (l := cs) (i := 256) (by omega)] at hf
  obtain ⟨y, hy, hD⟩ := desc_cells (envB_names 32 fun i => B.getD i 0) hf hc i hi (by omega)
  rw [desc_hq hi hD] at hy
  refine ⟨_, hb i _ hy, ?_⟩
  have e : ByteDecode 1 B ⟨i, hi⟩ = ((B.getD (i / 8) 0).toNat.testBit (i % 8)).toNat := by
    rw [byteDecode, decNum, bitsVal_succ, bitsVal_zero]
    simp
  rw [e, decompress_nat 0]
  cases (B.getD (i / 8) 0).toNat.testBit (i % 8)
  · refine ⟨?_, by decide, by decide⟩; decide
  · refine ⟨?_, by decide, by decide⟩; decide

/-! ## Sampling -/

theorem cbd2B_any : ∀ i : Fin 256, noAny 16 (cbd2B i.val) = true := by decide +kernel
theorem cbd3B_any : ∀ i : Fin 256, noAny 16 (cbd3B i.val) = true := by decide +kernel

/-- A bit as a word. -/
def bw (b : Bool) : W := BitVec.ofNat 16 b.toNat

theorem bitB_ok {g : Nat} (hg : 0 < g) (hg6 : g ≤ 6) (b : Nat → UInt8) (k : Nat) :
    BR (envG g fun i => (b i).toBitVec.setWidth 16).α (bitB g k) (bw ((b (k / 8)).toNat.testBit (k % 8))) := by
  intro j
  cases j with
  | zero =>
    have := Bit.atom_holds (envG g fun i => (b i).toBitVec.setWidth 16).α (numG g (k / 8) (k % 8))
    have e : (envG g fun i => (b i).toBitVec.setWidth 16).α (numG g (k / 8) (k % 8)) = (bw ((b (k / 8)).toNat.testBit (k % 8))).getLsbD 0 := by
      show ((b ((g * (numG g (k / 8) (k % 8) / 6) + numG g (k / 8) (k % 8) % 6) / 8)).toBitVec.setWidth 16 : W).getLsbD
        ((g * (numG g (k / 8) (k % 8) / 6) + numG g (k / 8) (k % 8) % 6) % 8) = _
      rw [numG_inv hg hg6, Nat.div_add_mod, wide_bit _ (Nat.mod_lt _ (by omega))]
      cases (b (k / 8)).toNat.testBit (k % 8) <;> rfl
    rwa [e] at this
  | succ j =>
    show _ = false
    cases (b (k / 8)).toNat.testBit (k % 8)
    · simp [bw]
    · show (BitVec.ofNat 16 1).getLsbD (j + 1) = false
      rw [BitVec.getLsbD_ofNat, show Nat.testBit 1 (j + 1) = false from by simp [Nat.testBit_succ]]; simp

theorem cbd2_val : ∀ b0 b1 b2 b3 : Bool, Int16.ofBitVec ((bw b0 + bw b1) - (bw b2 + bw b3)) =
    i16 (((b0.toNat + b1.toNat : Nat) : Int) - ((b2.toNat + b3.toNat : Nat) : Int)) := by decide
theorem cbd3_val : ∀ b0 b1 b2 b3 b4 b5 : Bool, Int16.ofBitVec ((bw b0 + bw b1 + bw b2) - (bw b3 + bw b4 + bw b5)) =
    i16 (((b0.toNat + b1.toNat + b2.toNat : Nat) : Int) - ((b3.toNat + b4.toNat + b5.toNat : Nat) : Int)) := by decide

attribute [local irreducible] cbd2_prog qdata headIs run in
theorem cbd2_runs {r : Mem Int16} {buf : Mem UInt8} {B : List UInt8} (hr : r.size = 256) (hb : buf.Holds 0 B) (hB : B.length = 128) :
    Runs (cbd2 r buf) (fun r' => PolyR r' (SamplePolyCBD 2 B) 2) := by
  have h := hb.has 0
  rw [hB] at h
  have hsz := has_size h (by omega)
  unfold cbd2
  have hrun := cbd2_check
  have hn : (envG 4 fun i => (B.getD i 0).toBitVec.setWidth 16).Names nameB := envG_names (by omega) (by omega) fun i => wide_lt _
  refine Runs.mono (callPolyV_runs hn cbd2_st hrun hr (unpack_rel h hsz fun _ _ => rfl)) ?_
  rintro r' ⟨h1, cs, ds, hf, hlen, hc, hb'⟩
  refine PolyR.of_coef h1 fun i hi => ?_
  rw [← List.take_of_length_le (l := cs) (i := 256) (by omega)] at hf
  obtain ⟨y, hy, hD⟩ := desc_cells hn hf hc i hi (by omega)
  have hk := fun k => bitB_ok (g := 4) (by omega) (by omega) (fun i => B.getD i 0) k
  have hz := ((hk (4 * i)).add (hk (4 * i + 1))).sub ((hk (4 * i + 2)).add (hk (4 * i + 3)))
  have he := desc_det (cbd2B_any ⟨i, hi⟩) hD (fun k _ => hz k)
  have hv : Int16.ofBitVec y = i16 (cbdInt 2 B i) := by
    rw [he, cbd2_val]
    unfold cbdInt ones
    simp only [Finset.sum_range_succ, Finset.sum_range_zero, bytesToBits, Nat.zero_add]
    rw [show 2 * i * 2 + 0 = 4 * i from by ring, show 2 * i * 2 + 1 = 4 * i + 1 from by ring, show (2 * i + 1) * 2 + 0 = 4 * i + 2 from by ring,
      show (2 * i + 1) * 2 + 1 = 4 * i + 3 from by ring]
  refine ⟨_, hb' i _ hy, ?_⟩
  have := cbdInt_bounds 2 B i
  rw [hv, zq_i16 (by omega) (by omega), toInt_i16_of (by omega) (by omega)]
  exact ⟨cbdInt_zq 2 B ⟨i, hi⟩, this.1, this.2⟩

attribute [local irreducible] cbd3_prog qdata headIs run in
theorem cbd3_runs {r : Mem Int16} {buf : Mem UInt8} {b : Nat → UInt8} {B : List UInt8} (hr : r.size = 256) (h : buf.Has 0 200 b)
    (hB : ∀ i, i < 192 → B.getD i 0 = b i) :
    Runs (cbd3 r buf) (fun r' => PolyR r' (SamplePolyCBD 3 B) 3) := by
  have hsz := has_size h (by omega)
  unfold cbd3
  have hrun := cbd3_check
  have hn : (envG 6 fun i => (b i).toBitVec.setWidth 16).Names nameB := envG_names (by omega) (by omega) fun i => wide_lt _
  refine Runs.mono (callPolyV_runs hn cbd3_st hrun hr (unpack_rel h hsz fun _ _ => rfl)) ?_
  rintro r' ⟨h1, cs, ds, hf, hlen, hc, hb'⟩
  refine PolyR.of_coef h1 fun i hi => ?_
  rw [← List.take_of_length_le (l := cs) (i := 256) (by omega)] at hf
  obtain ⟨y, hy, hD⟩ := desc_cells hn hf hc i hi (by omega)
  have hk := fun k => bitB_ok (g := 6) (by omega) (by omega) b k
  have hz := (((hk (6 * i)).add (hk (6 * i + 1))).add (hk (6 * i + 2))).sub (((hk (6 * i + 3)).add (hk (6 * i + 4))).add (hk (6 * i + 5)))
  have he := desc_det (cbd3B_any ⟨i, hi⟩) hD (fun k _ => hz k)
  have hv : Int16.ofBitVec y = i16 (cbdInt 3 B i) := by
    rw [he, cbd3_val]
    unfold cbdInt ones
    simp only [Finset.sum_range_succ, Finset.sum_range_zero, bytesToBits, Nat.zero_add]
    rw [show 2 * i * 3 + 0 = 6 * i from by ring, show 2 * i * 3 + 1 = 6 * i + 1 from by ring, show 2 * i * 3 + 2 = 6 * i + 2 from by ring,
      show (2 * i + 1) * 3 + 0 = 6 * i + 3 from by ring,
      show (2 * i + 1) * 3 + 1 = 6 * i + 4 from by ring, show (2 * i + 1) * 3 + 2 = 6 * i + 5 from by ring,
      hB _ (by omega), hB _ (by omega), hB _ (by omega), hB _ (by omega), hB _ (by omega), hB _ (by omega)]
  refine ⟨_, hb' i _ hy, ?_⟩
  have := cbdInt_bounds 3 B i
  rw [hv, zq_i16 (by omega) (by omega), toInt_i16_of (by omega) (by omega)]
  exact ⟨cbdInt_zq 3 B ⟨i, hi⟩, this.1, this.2⟩

/-- `poly_cbd_eta1` reads 200 bytes for K = 2, and 128 bytes for K = 3, 4. -/
theorem poly_cbd_eta1_runs {p : ParamSet} {r : Mem Int16} {buf : Mem UInt8} {b : Nat → UInt8} {B : List UInt8} (hr : r.size = 256)
    (h : buf.Has 0 (if p = .k2 then 200 else 128) b) (hB : B.length = 64 * (fips p).η₁) (hb : ∀ i, i < B.length → B.getD i 0 = b i) :
    Runs (poly_cbd_eta1 p r buf) (fun r' => PolyR r' (SamplePolyCBD (fips p).η₁ B) 3) := by
  have key : p ≠ .k2 → (fips p).η₁ = 2 → poly_cbd_eta1 p r buf = cbd2 r buf → Runs (poly_cbd_eta1 p r buf) (fun r' => PolyR r' (SamplePolyCBD (fips p).η₁ B) 3) := by
    intro hp he hd
    rw [if_neg hp] at h
    rw [he] at hB ⊢
    rw [hd]
    refine (cbd2_runs hr (fun i hi => ?_) hB).mono fun r' h => PolyR.mono h (by norm_num)
    rw [h i (by omega), ← hb i hi]
    simp [hi]
  cases p
  · rw [if_pos rfl] at h
    exact cbd3_runs hr h fun i hi => hb i (by rw [hB]; exact hi)
  · exact key (by decide) rfl rfl
  · exact key (by decide) rfl rfl

end Verif.Avx
