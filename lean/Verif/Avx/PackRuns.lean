import Verif.Avx.PackLemmas
import Verif.Avx.CheckPack
import Verif.Avx.CheckUnpack
import Verif.Avx.PackRound

/-! # Encoding and decoding in the AVX2 code: bits of the results -/

namespace Verif.Avx
open Verif.Spec Verif.Proof
open Verif.Model (ParamSet KYBER_K Polyvec)

theorem polyObj_length {r : Mem Int16} (hr : r.size = 256) : (polyObj r).cells.length = 256 := by simp [polyObj, hr]

theorem polyObj_get {r : Mem Int16} {i : Nat} {x : Int16} (h : r[i]? = some (some x)) : (polyObj r).cells[i]? = some (some x.toBitVec) := by
  simp [polyObj, h]

theorem bytesObj_get {al : Bool} {r : Mem UInt8} {off i : Nat} {x : UInt8} (h : r[off + i]? = some (some x)) :
    (bytesObj al r off).cells[i]? = some (some (x.toBitVec.setWidth 16)) := by
  simp [bytesObj, h]

/-- A call writing a polynomial. -/
theorem callPolyV_runs {E : Env} {name : Ex → Option (Nat × Nat)} (hn : E.Names name) {w : List Nat} {p : List I} {objs0 : List (Obj V)}
    {f : List (Option V) → Bool} (hw : p.all (I.stIn w) = true)
    (hrun : headIs (run (V.sem name E.num) p ⟨noRegs, ⟨true, true, noCells 256⟩ :: objs0⟩) f = true)
    {r : Mem Int16} (hr : r.size = 256) {objs : List (Obj W)} {rests : List (List (Option W))} (hs : OsRel (V.rel E) rests objs0 objs) :
    Runs (callPoly w p r objs) (fun r' => r'.size = 256 ∧ ∃ cs ds, f cs = true ∧ cs.length = 256 ∧ CRel (V.rel E) [] cs ds ∧
      ∀ (i : Nat) x, ds[i]? = some (some x) → r'[i]? = some (some (Int16.ofBitVec x))) := by
  unfold callPoly
  rw [runs_bind]
  have hl := polyObj_length hr
  refine Runs.mono (call_runs_len (V.sound hn) hw hrun ⟨noCells_rel rfl rfl (by omega), hs⟩) ?_
  rintro o ⟨cs, hf, hlen, hc⟩
  rw [runs_pure]
  rw [List.drop_of_length_le (by omega)] at hc
  replace hlen : cs.length = 256 := by rw [hlen]; exact noCells_length 256
  have h1 := hc.get.1
  exact ⟨by simp [objPoly, h1, hlen], cs, o.cells, hf, hlen, hc, fun i x hx => by simp [objPoly, hx]⟩

theorem getB_packB (d m : Nat) : ∀ (n k j : Nat), getB (packB d m n k) j = if j < n then atomB ((8 * m + (k + j)) / d) ((8 * m + (k + j)) % d) else .c false
  | 0, k, j => by simp [packB, getB_nil]
  | n + 1, k, 0 => by simp [packB, getB_zero]
  | n + 1, k, j + 1 => by rw [packB, getB_succ, getB_packB d m n (k + 1) j, show k + 1 + j = k + (j + 1) from by omega]; simp

theorem getB_unpackB : ∀ (d j k : Nat), getB (unpackB d j) k = if k < d then atomB ((j + k) / 8) ((j + k) % 8) else .c false
  | 0, j, k => by simp [unpackB, getB_nil]
  | d + 1, j, 0 => by simp [unpackB, getB_zero]
  | d + 1, j, k + 1 => by rw [unpackB, getB_succ, getB_unpackB d (j + 1) k, show j + 1 + k = j + (k + 1) from by omega]; simp

theorem byte_eq {x : W} {b : Nat → Bool} (h : ∀ k, k < 8 → x.getLsbD k = b k) : UInt8.ofBitVec (x.setWidth 8) = UInt8.ofNat (bitsVal 8 b) := by
  apply UInt8.toNat_inj.mp
  rw [UInt8.toNat_ofNat', Nat.mod_eq_of_lt (bitsVal_lt 8 _)]
  show (x.setWidth 8).toNat = _
  rw [BitVec.toNat_setWidth]
  exact mod_eq_bitsVal h

/-- Packing: `tW` is the map on words that the code applies to the coefficients, `g` the order of the coefficients in memory. -/
theorem pack_runs {T : Ex → Ex} {tW : W → W} (hT : ∀ ρ i, (T (.v 1 i)).eval ρ = tW (ρ 1 i)) {w N n : Nat} {p : List I} {g : Nat → Nat}
    {B : Nat → List Bit}
    (hrun : headIs (run (V.sem (nameT T w) numP) p ⟨noRegs, [⟨false, false, noCells N⟩, ⟨true, true, varCells g 256 0⟩, qV]⟩)
      (fun cs => cellsBits (nameT T w) numP B (cs.take n) 0) = true) (hw : p.all (I.stIn [0]) = true)
    (hwd : w ≤ 16) (hN : n ≤ N) {a : Mem Int16} {x : Nat → Int16} (ha : a.size = 256)
    (hx : a.Has 0 256 (fun i => x (g i))) (hg : ∀ i, i < 256 → g i < 256) (hF : ∀ i, i < 256 → (tW (x i).toBitVec).toNat < 2 ^ w)
    {r : Mem UInt8} {ro : Nat} (hr : ro + N ≤ r.size) :
    Runs (callBytes [0] p false r ro [polyObj a, tabObj qdata]) (fun r' => r'.size = r.size ∧ (∀ j, (j < ro ∨ ro + N ≤ j) → r'[j]? = r[j]?) ∧
      ∀ m, m < n → ∃ y : W, r'[ro + m]? = some (some (UInt8.ofBitVec (y.setWidth 8))) ∧
        ∀ k, k < 8 → ∀ i l, i < 256 → l < 16 → getB (B m) k = atomB i l → y.getLsbD k = (tW (x i).toBitVec).getLsbD l) := by
  have hn : (envP (fun i => (x (if i < 256 then i else 0)).toBitVec) T).Names (nameT T w) := envP_names hwd fun i => by
    show ((T (.v 1 i)).eval _).toNat < _
    rw [hT]
    exact hF _ (by split <;> omega)
  have hl := polyObj_length ha
  refine Runs.mono (callBytes_runs hn hw hrun hr (rests := [[], []]) ⟨?_, qV_rel _, trivial⟩) ?_
  · have := varCells_rel (E := envP (fun i => (x (if i < 256 then i else 0)).toBitVec) T) (f := g) (n := 256) (o := polyObj a) rfl rfl (by omega)
      fun i hi => by
        rw [polyObj_get (by have := hx i hi; rwa [Nat.zero_add] at this)]
        show _ = some (some (x (if g i < 256 then g i else 0)).toBitVec)
        rw [if_pos (hg i hi)]
    rwa [List.drop_of_length_le (by omega)] at this
  · rintro r' ⟨h1, h2, cs, ds, hf, hlen, hc, hb⟩
    refine ⟨h1, h2, fun m hm => ?_⟩
    obtain ⟨y, hy, hD⟩ := desc_cells hn hf hc m hm (by omega)
    refine ⟨y, hb m y hy, fun k hk i l hi hl' he => ?_⟩
    have := hD k (by omega)
    rw [he] at this
    rw [envP_atom hl' this]
    show ((T (.v 1 i)).eval _).getLsbD l = _
    rw [hT]
    show (tW (x (if i < 256 then i else 0)).toBitVec).getLsbD l = _
    rw [if_pos hi]

/-- Packing of words of `d` bits. -/
theorem pack_enc {T : Ex → Ex} {tW : W → W} (hT : ∀ ρ i, (T (.v 1 i)).eval ρ = tW (ρ 1 i)) {d N : Nat} {p : List I} {g : Nat → Nat}
    (hrun : headIs (run (V.sem (nameT T d) numP) p ⟨noRegs, [⟨false, false, noCells N⟩, ⟨true, true, varCells g 256 0⟩, qV]⟩)
      (fun cs => cellsBits (nameT T d) numP (fun m => packB d m 8 0) (cs.take (32 * d)) 0) = true) (hw : p.all (I.stIn [0]) = true)
    (hd : 0 < d) (hwd : d ≤ 16) (hN : 32 * d ≤ N) {a : Mem Int16} {x : Nat → Int16} (ha : a.size = 256)
    (hx : a.Has 0 256 (fun i => x (g i))) (hg : ∀ i, i < 256 → g i < 256) {F : Nat → Nat}
    (hF : ∀ i, i < 256 → (tW (x i).toBitVec).toNat = F i ∧ F i < 2 ^ d) {r : Mem UInt8} {ro : Nat} (hr : ro + N ≤ r.size) :
    Runs (callBytes [0] p false r ro [polyObj a, tabObj qdata]) (fun r' => r'.size = r.size ∧ r'.Has ro (32 * d) (encByte d F) ∧
      ∀ j, (j < ro ∨ ro + N ≤ j) → r'[j]? = r[j]?) := by
  refine Runs.mono (pack_runs hT hrun hw hwd hN ha hx hg (fun i hi => by rw [(hF i hi).1]; exact (hF i hi).2) hr) ?_
  rintro r' ⟨h1, h2, h3⟩
  refine ⟨h1, fun m hm => ?_, h2⟩
  obtain ⟨y, hy, hb⟩ := h3 m hm
  rw [hy, encByte]
  congr 2
  refine byte_eq fun k hk => ?_
  have hi : (8 * m + k) / d < 256 := by rw [Nat.div_lt_iff_lt_mul hd]; omega
  have hl : (8 * m + k) % d < d := Nat.mod_lt _ hd
  rw [hb k hk _ _ hi (lt_of_lt_of_le hl hwd) (by rw [getB_packB, if_pos hk, Nat.zero_add]), ← (hF _ hi).1]
  rfl

/-- Unpacking: the objects. -/
theorem unpack_rel {E : Env} {al : Bool} {n : Nat} {a : Mem UInt8} {ao : Nat} {b : Nat → UInt8} (hb : a.Has ao n b) (ha : ao + n ≤ a.size)
    (hE : ∀ i, i < n → E.ρ 1 i = (b i).toBitVec.setWidth 16) :
    OsRel (V.rel E) [(bytesObj al a ao).cells.drop n, []] [⟨false, al, varCells id n 0⟩, qV] [bytesObj al a ao, tabObj qdata] := by
  refine ⟨varCells_rel rfl rfl (by simp [bytesObj]; omega) fun i hi => ?_, qV_rel _, trivial⟩
  rw [bytesObj_get (hb i hi), ← hE i hi]; rfl

theorem wide_lt (x : UInt8) : (x.toBitVec.setWidth 16 : W).toNat < 2 ^ 8 := by
  rw [BitVec.toNat_setWidth]
  have : x.toBitVec.toNat < 256 := x.toBitVec.isLt
  omega

theorem wide_bit (x : UInt8) {k : Nat} (hk : k < 8) : (x.toBitVec.setWidth 16 : W).getLsbD k = x.toNat.testBit k := by
  rw [BitVec.getLsbD_setWidth]
  simp [show k < 16 by omega]; rfl

/-- The environment of a byte string. -/
def envB (n : Nat) (b : Nat → UInt8) : Env := envP (fun i => (b i).toBitVec.setWidth 16) id

theorem envB_names (n : Nat) (b : Nat → UInt8) : (envB n b).Names nameB := envP_names (by omega) fun i => wide_lt _

theorem envB_atom {n : Nat} {b : Nat → UInt8} {i k : Nat} (hk : k < 8) {v : Bool} (h : (atomB i k).holds (envB n b).α v) : v = (b i).toNat.testBit k := by
  rw [envP_atom (by omega) h]; exact wide_bit _ hk

/-- A word with the bits of a decoded number, shifted. -/
theorem desc_unpack {n : Nat} {b : Nat → UInt8} {d i s : Nat} {y : W} (h : Desc (envB n b).α (shlB s (unpackB d (d * i))) y) (hds : d + s ≤ 16) :
    y = BitVec.ofNat 16 (decNum d b i * 2 ^ s) := by
  apply BitVec.eq_of_getLsbD_eq
  intro k hk
  have := h k hk
  rw [getB_shlB, getB_unpackB] at this
  rw [BitVec.getLsbD_ofNat, Nat.testBit_mul_two_pow, decNum, testBit_bitsVal]
  by_cases h1 : k < s
  · rw [if_pos h1] at this
    rw [show y.getLsbD k = false from this]
    simp [show ¬ s ≤ k by omega]
  · rw [if_neg h1] at this
    by_cases h2 : k - s < d
    · rw [if_pos h2] at this
      rw [envB_atom (Nat.mod_lt _ (by omega)) this]
      simp [hk, h2, show s ≤ k by omega, Nat.mul_comm d i]
    · rw [if_neg h2] at this
      rw [show y.getLsbD k = false from this]
      simp [h2]

end Verif.Avx
