import Verif.Avx.GenProof
import Verif.Avx.RejBmi

/-! # The variant of the rejection sampling with the bit deposit instructions

The mask made for the flags `g` starts with the same entries as row `g` of the table; what follows is zero here and 255 there. -/

namespace Verif.Avx.Bmi
open Verif.Model Verif.Spec Verif.Proof

/-- Byte `k` of the mask made for the flags `g`. -/
def rowB (g k : Nat) : UInt8 := UInt8.ofNat (bmiMask (pdep 64 g 0x0101010101010101) >>> (8 * k))

/-- **The computed mask is right**: it starts with twice the positions of the ones of `g`. -/
theorem row_eq : ∀ g : Fin 256, ∀ k : Fin 8, k.val < (posl g.val).length → rowB g.val k.val = UInt8.ofNat (2 * (posl g.val).getD k.val 0) := by decide +kernel

/-- A computed mask, with the zero upper half. -/
def rowW (g : Nat → UInt8) (i : Nat) : W := if i < 4 then wordB g i else 0

theorem bmiRow_dec : ∀ g : Fin 256, cvtsi64 (bmiMask (pdep 64 g.val 0x0101010101010101)) = (List.range 8).map (rowW (rowB g.val)) := by decide +kernel

theorem bmiRow_eq {g : Nat} (h : g < 256) : cvtsi64 (bmiMask (pdep 64 g 0x0101010101010101)) = (List.range 8).map (rowW (rowB g)) := bmiRow_dec ⟨g, h⟩

/-- The number of ones among the low `n` bits. -/
def ones1 : Nat → Nat → Nat
  | 0, _ => 0
  | n + 1, m => m % 2 + ones1 n (m / 2)

theorem pdep_mod : ∀ (n x m k : Nat), ones1 n m ≤ k → pdep n (x % 2 ^ k) m = pdep n x m
  | 0, _, _, _, _ => rfl
  | n + 1, x, m, k, h => by
    unfold ones1 at h
    unfold pdep
    by_cases hm : m % 2 = 1
    · rw [if_pos hm, if_pos hm]
      obtain ⟨k, rfl⟩ : ∃ k', k = k' + 1 := ⟨k - 1, by omega⟩
      have h1 : x % 2 ^ (k + 1) % 2 = x % 2 := Nat.mod_mod_of_dvd _ ⟨2 ^ k, by rw [pow_succ]; omega⟩
      have h2 : x % 2 ^ (k + 1) / 2 = x / 2 % 2 ^ k := by rw [pow_succ, Nat.mul_comm]; exact Nat.mod_mul_right_div_self ..
      rw [h1, h2, pdep_mod n (x / 2) (m / 2) k (by omega)]
    · rw [if_neg hm, if_neg hm, pdep_mod n x (m / 2) k (by omega)]

theorem row_of (s good : Nat) : pdep 64 (good >>> s) 0x0101010101010101 = pdep 64 (good >>> s &&& 0xFF) 0x0101010101010101 := by
  rw [show 0xFF = 2 ^ 8 - 1 from rfl, Nat.and_two_pow_sub_one_eq_mod]
  exact (pdep_mod 64 _ _ 8 (by decide +kernel)).symm

theorem bmi_mask (p : Nat → Bool) : pdep 64 ((BitVec.ofNat 16 (maskBits ((List.range 8).map fun i => flw (p i)))).toNat &&& 0x5555) 0x1111111111111111 =
    pdep 64 (mask8 p) 0x0101010101010101 := by
  unfold mask8
  simp only [List.range, List.range.loop, List.map]
  generalize p 0 = b0
  generalize p 1 = b1
  generalize p 2 = b2
  generalize p 3 = b3
  generalize p 4 = b4
  generalize p 5 = b5
  generalize p 6 = b6
  generalize p 7 = b7
  revert b0 b1 b2 b3 b4 b5 b6 b7
  decide +kernel

theorem bmi_pop (p : Nat → Bool) : popcnt ((BitVec.ofNat 16 (maskBits ((List.range 8).map fun i => flw (p i)))).toNat &&& 0x5555) = popcnt (mask8 p) := by
  unfold mask8
  simp only [List.range, List.range.loop, List.map]
  generalize p 0 = b0
  generalize p 1 = b1
  generalize p 2 = b2
  generalize p 3 = b3
  generalize p 4 = b4
  generalize p 5 = b5
  generalize p 6 = b6
  generalize p 7 = b7
  revert b0 b1 b2 b3 b4 b5 b6 b7
  decide +kernel

attribute [local irreducible] rowB bmiMask pdep

/-- The eight words selected by row `g`. -/
def selW (F : Nat → W) (g : Nat → UInt8) (i : Nat) : W :=
  ofBytes (shufByte ((List.range 8).map F) (g i).toBitVec) (shufByte ((List.range 8).map F) ((g i).toBitVec + 1))

theorem selW_eq (F : Nat → W) {g : Nat} (hg : g < 256) {i : Nat} (hi : i < (posl g).length) : selW F (rowB g) i = F ((posl g).getD i 0) := by
  have hi8 : i < 8 := by
    have : (posl g).length ≤ 8 := by unfold posl; exact (List.length_filter_le _ _).trans (by simp)
    omega
  unfold selW
  have := row_eq ⟨g, hg⟩ ⟨i, hi8⟩ hi
  dsimp only at this
  rw [this]
  have hm : (posl g).getD i 0 ∈ posl g := by
    rw [List.getD_eq_getElem?_getD, List.getElem?_eq_getElem hi, Option.getD_some]; exact List.getElem_mem hi
  exact shuf_word F ⟨_, posl_lt hm⟩

theorem select8 (F : Nat → W) (g : Nat → UInt8) {k : List W → C (Poly × Nat × Nat)} {R : Poly × Nat × Nat → Prop} (hk : Runs (k ((List.range 8).map (selW F g))) R) :
    Runs (do
      let pihi ← vop (.lw .add8) [(List.range 8).map (rowW g), ones.take 8] 8
      let pilo ← vop .unpcklbw [(List.range 8).map (rowW g), pihi] 8
      let f ← vop .pshufb [(List.range 8).map F, pilo] 8
      k f) R := by
  rw [runs_bind, vop_runs (l := (List.range 8).map fun i => ofBytes (byteOf 0 (rowW g i) + byteOf 0 (ofBytes 1 1)) (byteOf 1 (rowW g i) + byteOf 1 (ofBytes 1 1))) (by rfl)]
  rw [byteOf_ofBytes0, byteOf_ofBytes1]
  have e : lanes evalW .unpcklbw [(List.range 8).map (rowW g), (List.range 8).map fun i => ofBytes (byteOf 0 (rowW g i) + 1) (byteOf 1 (rowW g i) + 1)] 8 0 =
      some ((List.range 8).map fun i => ofBytes (g i).toBitVec ((g i).toBitVec + 1)) := by
    have : lanes evalW .unpcklbw [(List.range 8).map (rowW g), (List.range 8).map fun i => ofBytes (byteOf 0 (rowW g i) + 1) (byteOf 1 (rowW g i) + 1)] 8 0 =
      some ((List.range 8).map fun i => ofBytes (byteOf (i % 2) (wordB g (i / 2))) (byteOf (i % 2) (ofBytes (byteOf 0 (wordB g (i / 2)) + 1) (byteOf 1 (wordB g (i / 2)) + 1)))) := by rfl
    rw [this]
    congr 1
    refine map8 fun i _ => ?_
    have hb := byte_wordB g i
    rcases Nat.mod_two_eq_zero_or_one i with h | h
    · rw [h] at hb ⊢; rw [byteOf_ofBytes0, hb]
    · rw [h] at hb ⊢; rw [byteOf_ofBytes1, hb]
  rw [runs_bind, vop_runs e]
  have e2 : lanes evalW .pshufb [(List.range 8).map F, (List.range 8).map fun i => ofBytes (g i).toBitVec ((g i).toBitVec + 1)] 8 0 =
      some ((List.range 8).map (selW F g)) := by
    have : lanes evalW .pshufb [(List.range 8).map F, (List.range 8).map fun i => ofBytes (g i).toBitVec ((g i).toBitVec + 1)] 8 0 =
      some ((List.range 8).map fun i => ofBytes (shufByte ((List.range 8).map F) (byteOf 0 (ofBytes (g i).toBitVec ((g i).toBitVec + 1))))
        (shufByte ((List.range 8).map F) (byteOf 1 (ofBytes (g i).toBitVec ((g i).toBitVec + 1))))) := by rfl
    rw [this]
    congr 1
    refine map8 fun i _ => ?_
    rw [byteOf_ofBytes0, byteOf_ofBytes1]; rfl
  rwa [runs_bind, vop_runs e2]

/-- Both halves. -/
def rowsW (g h : Nat → UInt8) (i : Nat) : W := if i < 8 then rowW g i else rowW h (i - 8)

theorem perm16 (g h : Nat → UInt8) : lanes evalW (.perm2i128 0x20) [(List.range 8).map (rowW g), (List.range 8).map (rowW h)] 16 0 = some ((List.range 16).map (rowsW g h)) := by rfl

theorem select16_runs (F : Nat → W) (g h : Nat → UInt8) : Runs (select16 ((List.range 16).map F) ((List.range 16).map (rowsW g h)))
    (fun l => l = (List.range 16).map fun i => if i < 8 then selW F g i else selW (fun j => F (8 + j)) h (i - 8)) := by
  unfold select16
  rw [runs_bind, vop_runs (l := (List.range 16).map fun i => ofBytes (byteOf 0 (rowsW g h i) + byteOf 0 (ofBytes 1 1)) (byteOf 1 (rowsW g h i) + byteOf 1 (ofBytes 1 1))) (by rfl)]
  rw [byteOf_ofBytes0, byteOf_ofBytes1]
  have e : lanes evalW .unpcklbw [(List.range 16).map (rowsW g h), (List.range 16).map fun i => ofBytes (byteOf 0 (rowsW g h i) + 1) (byteOf 1 (rowsW g h i) + 1)] 16 0 =
      some ((List.range 16).map fun i => ofBytes ((if i < 8 then g else h) (i % 8)).toBitVec (((if i < 8 then g else h) (i % 8)).toBitVec + 1)) := by
    have : lanes evalW .unpcklbw [(List.range 16).map (rowsW g h), (List.range 16).map fun i => ofBytes (byteOf 0 (rowsW g h i) + 1) (byteOf 1 (rowsW g h i) + 1)] 16 0 =
      some ((List.range 16).map fun i => ofBytes (byteOf (i % 8 % 2) (wordB ((if i < 8 then g else h)) (i % 8 / 2)))
        (byteOf (i % 8 % 2) (ofBytes (byteOf 0 (wordB ((if i < 8 then g else h)) (i % 8 / 2)) + 1) (byteOf 1 (wordB ((if i < 8 then g else h)) (i % 8 / 2)) + 1)))) := by rfl
    rw [this]
    congr 1
    refine map16 fun i _ => ?_
    generalize (if i < 8 then g else h) = g
    have hb := byte_wordB g (i % 8)
    rcases Nat.mod_two_eq_zero_or_one (i % 8) with h | h
    · rw [h] at hb ⊢; rw [byteOf_ofBytes0, hb]
    · rw [h] at hb ⊢; rw [byteOf_ofBytes1, hb]
  rw [runs_bind, vop_runs e]
  generalize hR : (fun i => ((if i < 8 then g else h) (i % 8)).toBitVec) = R
  have hR' : ∀ i, ((if i < 8 then g else h) (i % 8)).toBitVec = R i := fun i => by rw [← hR]
  simp only [hR']
  have e2 : lanes evalW .pshufb [(List.range 16).map F, (List.range 16).map fun i => ofBytes (R i) (R i + 1)] 16 0 =
      some ((List.range 16).map fun i => if i < 8 then ofBytes (shufByte ((List.range 8).map F) (byteOf 0 (ofBytes (R i) (R i + 1))))
        (shufByte ((List.range 8).map F) (byteOf 1 (ofBytes (R i) (R i + 1))))
      else ofBytes (shufByte ((List.range 8).map fun j => F (8 + j)) (byteOf 0 (ofBytes (R i) (R i + 1))))
        (shufByte ((List.range 8).map fun j => F (8 + j)) (byteOf 1 (ofBytes (R i) (R i + 1))))) := by rfl
  rw [vop_runs e2]
  refine map16 fun i hi => ?_
  rw [byteOf_ofBytes0, byteOf_ofBytes1, ← hR' i]
  by_cases h8 : i < 8
  · rw [if_pos h8, if_pos h8, if_pos h8, Nat.mod_eq_of_lt h8]; rfl
  · rw [if_neg h8, if_neg h8, if_neg h8, show i % 8 = i - 8 from by omega]; rfl

theorem storeGroup {L : List Nat} {r : Mem Int16} {ctr : Nat} (h : ListR L r ctr) (b : Nat → UInt8) (hc : ctr + 8 ≤ 256) :
    Runs (storeWords r ctr ((List.range 8).map (selW (candW b) (rowB (mask8 (okc b)))))) (fun r' => ListR (L ++ grp b) r' (ctr + popcnt (mask8 (okc b)))) := by
  obtain ⟨hs, hh, rfl⟩ := h
  refine (storeWords_runs (by simp; omega)).mono fun r' hu => ?_
  rw [List.length_map, List.length_range] at hu
  refine ⟨by rw [hu.size, hs], ?_, by rw [grp_len, List.length_append]⟩
  rw [List.map_append, Mem.Holds.append]
  constructor
  · intro i hi
    rw [hu.frame _ (by rw [List.length_map] at hi; omega)]
    exact hh i hi
  · have hle := grp_le b
    rw [Nat.zero_add, List.length_map]
    have hhas : r'.Has L.length (grp b).length _ := fun i hi => hu.has i (by omega)
    refine hhas.holds_of (by simp) fun i hi => ?_
    rw [List.length_map] at hi
    have hi' : i < (posl (mask8 (okc b))).length := by rw [grp_eq, List.length_map] at hi; exact hi
    have e : ((List.range 8).map (selW (candW b) (rowB (mask8 (okc b))))).getD i 0 = selW (candW b) (rowB (mask8 (okc b))) i := by
      rw [List.getD_eq_getElem?_getD, List.getElem?_map, List.getElem?_range (by omega)]; rfl
    rw [e, selW_eq _ (mask8_lt _) hi', candW, ofBitVec_nat, List.getElem_map]
    congr 2
    simp only [grp_eq, List.getElem_map]
    rw [List.getD_eq_getElem?_getD, List.getElem?_eq_getElem hi', Option.getD_some]

theorem rejBody32Bmi_runs {X : List UInt8} {buf : Mem UInt8} (hX : buf.Holds 0 X) (hl : X.length = 504) {r : Poly} {ctr pos : Nat} (hp3 : pos % 3 = 0)
    (h : ListR (accepted (X.take pos)) r ctr) (hc : ctr ≤ 224) (hp : pos ≤ 448) :
    Runs (rejBody32Bmi r ctr pos buf) (fun s => ListR (accepted (X.take (pos + 48))) s.1 s.2.1 ∧ s.2.2 = pos + 48) := by
  have hb : ∀ o, o + 32 ≤ 504 → buf.Has o 32 fun k => X.getD (o + k) 0 := fun o ho k hk => by
    have := hX.getElem? 0 (i := o + k) (by omega); rwa [Nat.zero_add] at this
  have a1 := acc12 (X := X) hp3 (by omega)
  have a2 := acc12 (X := X) (p := pos + 12) (by omega) (by omega)
  have a3 := acc12 (X := X) (p := pos + 12 + 12) (by omega) (by omega)
  have a4 := acc12 (X := X) (p := pos + 12 + 12 + 12) (by omega) (by omega)
  generalize hb0 : (fun k => X.getD (pos + k) 0) = b0 at a1
  generalize hb1 : (fun k => X.getD (pos + 24 + k) 0) = b1
  have e2 : (fun k => X.getD (pos + 12 + k) 0) = fun k => b0 (12 + k) := by rw [← hb0]; exact funext fun k => by rw [Nat.add_assoc]
  have e3 : (fun k => X.getD (pos + 12 + 12 + k) 0) = b1 := by rw [← hb1]
  have e4 : (fun k => X.getD (pos + 12 + 12 + 12 + k) 0) = fun k => b1 (12 + k) := by rw [← hb1]; exact funext fun k => by rw [show pos + 12 + 12 + 12 + k = pos + 24 + (12 + k) from by omega]
  rw [e2] at a2
  rw [e3] at a3
  rw [e4] at a4
  unfold rejBody32Bmi
  rw [runs_bind]
  refine (words16_runs (b := b0) (by rw [← hb0]; exact hb pos (by omega))).mono ?_
  rintro _ rfl
  rw [runs_bind]
  refine (words16_runs (b := b1) (by rw [← hb1]; exact hb (pos + 24) (by omega))).mono ?_
  rintro _ rfl
  rw [runs_bind, vop_runs (cmp16 b0), runs_bind, vop_runs (cmp16 b1), runs_bind, vop_runs (pack16 _ _), runs_bind, vop_runs (mask16 _ _), okc_shift, okc_shift]
  generalize hm0 : mask8 (okc b0) = m0
  generalize hm1 : mask8 (okc b1) = m1
  generalize hm2 : mask8 (okc fun k => b0 (12 + k)) = m2
  generalize hm3 : mask8 (okc fun k => b1 (12 + k)) = m3
  have l0 : m0 < 256 := hm0 ▸ mask8_lt _
  have l1 : m1 < 256 := hm1 ▸ mask8_lt _
  have l2 : m2 < 256 := hm2 ▸ mask8_lt _
  have l3 : m3 < 256 := hm3 ▸ mask8_lt _
  have hg : (cat32 ([BitVec.ofNat 16 (m0 + 256 * m1), BitVec.ofNat 16 (m2 + 256 * m3)].getD 0 0) ([BitVec.ofNat 16 (m0 + 256 * m1), BitVec.ofNat 16 (m2 + 256 * m3)].getD 1 0)).toNat =
      m0 + 256 * m1 + 65536 * (m2 + 256 * m3) := cat32_toNat _ _ (by omega) (by omega)
  obtain ⟨g0, g1, g2, g3⟩ := byte_of_good m0 m1 m2 m3 l0 l1 l2 l3
  rw [hg]
  dsimp only
  rw [row_of 0, row_of 8, row_of 16, row_of 24, g0, g1, g2, g3, bmiRow_eq l0, bmiRow_eq l1, bmiRow_eq l2, bmiRow_eq l3]
  rw [runs_bind, vop_runs (perm16 _ _), runs_bind, vop_runs (perm16 _ _), runs_bind]
  refine (select16_runs (candW b0) (rowB m0) (rowB m2)).mono ?_
  rintro _ rfl
  rw [runs_bind]
  refine (select16_runs (candW b1) (rowB m1) (rowB m3)).mono ?_
  rintro _ rfl
  rw [runs_bind, vop_runs (low16 _ _), runs_bind]
  have hsz : ∀ b, (grp b).length ≤ 8 := grp_le
  refine Runs.mono (by have := storeGroup h b0 (by omega); rwa [hm0] at this) fun r1 h1 => ?_
  have p0 : popcnt m0 = (grp b0).length := by rw [← hm0]; exact grp_len b0
  have p1 : popcnt m1 = (grp b1).length := by rw [← hm1]; exact grp_len b1
  have p2 : popcnt m2 = (grp fun k => b0 (12 + k)).length := by rw [← hm2]; exact grp_len _
  have p3 : popcnt m3 = (grp fun k => b1 (12 + k)).length := by rw [← hm3]; exact grp_len _
  have q0 := hsz b0
  have q1 := hsz b1
  have q2 := hsz fun k => b0 (12 + k)
  rw [runs_bind, vop_runs (high16 _ _), runs_bind, candW_shift]
  refine Runs.mono (by have := storeGroup h1 (fun k => b0 (12 + k)) (by omega); rwa [hm2] at this) fun r2 h2 => ?_
  rw [runs_bind, vop_runs (low16 _ _), runs_bind]
  refine Runs.mono (by have := storeGroup h2 b1 (by omega); rwa [hm1] at this) fun r3 h3 => ?_
  rw [runs_bind, vop_runs (high16 _ _), runs_bind, candW_shift]
  refine Runs.mono (by have := storeGroup h3 (fun k => b1 (12 + k)) (by omega); rwa [hm3] at this) fun r4 h4 => ?_
  rw [runs_pure]
  rw [← a1, ← a2, ← a3, ← a4] at h4
  exact ⟨h4, rfl⟩

theorem rejBody8Bmi_runs {X : List UInt8} {buf : Mem UInt8} (hX : buf.Holds 0 X) (hl : X.length = 504) {r : Poly} {ctr pos : Nat} (hp3 : pos % 3 = 0)
    (h : ListR (accepted (X.take pos)) r ctr) (hc : ctr ≤ 248) (hp : pos ≤ 488) :
    Runs (rejBody8Bmi r ctr pos buf) (fun s => ListR (accepted (X.take (pos + 12))) s.1 s.2.1 ∧ s.2.2 = pos + 12) := by
  have a1 := acc12 (X := X) hp3 (by omega)
  have hb : buf.Has pos 16 fun k => X.getD (pos + k) 0 := fun k hk => by
    have := hX.getElem? 0 (i := pos + k) (by omega); rwa [Nat.zero_add] at this
  generalize hb0 : (fun k => X.getD (pos + k) 0) = b at a1 hb
  unfold rejBody8Bmi
  refine words8_runs hb ?_
  rw [runs_bind, vop_runs (cmp8 b), runs_bind, vop_runs (mask8_lanes _)]
  rw [show ([BitVec.ofNat 16 (maskBits ((List.range 8).map fun i => flw (okc b i)))].getD 0 0) = BitVec.ofNat 16 (maskBits ((List.range 8).map fun i => flw (okc b i))) from rfl]
  dsimp only
  rw [bmi_mask, bmi_pop, bmiRow_eq (mask8_lt _)]
  refine select8 (candW b) _ ?_
  rw [runs_bind]
  refine (storeGroup h b (by omega)).mono fun r1 h1 => ?_
  rw [runs_pure]
  rw [← a1] at h1
  exact ⟨h1, rfl⟩

/-- **The vectorised rejection sampling with `BMI`** keeps exactly the accepted candidates, in order, up to 256 of them. -/
theorem rej_uniform_avx_bmi_runs {r : Poly} {buf : Mem UInt8} {X : List UInt8} (hr : r.size = 256) (hX : buf.Holds 0 X) (hl : X.length = 504) :
    Runs (rej_uniform_avx_bmi r buf) (fun s => ListR (sampled X) s.1 s.2) := by
  unfold rej_uniform_avx_bmi
  rw [buflen]
  have hN : KYBER_N = 256 := rfl
  have t256 : ∀ {L : List Nat}, L.length ≤ 256 → L.take 256 = L := fun h => List.take_of_length_le h
  rw [runs_bind]
  refine (runs_cwhile_measure (fun (s : Poly × Nat × Nat) => s.2.2 % 3 = 0 ∧ s.2.2 ≤ 504 ∧ s.2.1 ≤ 256 ∧ ListR (accepted (X.take s.2.2)) s.1 s.2.1)
    (fun s => 504 - s.2.2) ?_ ?_ ?_).mono ?_
  · dsimp only; omega
  · exact ⟨rfl, by dsimp only; omega, by dsimp only; omega, hr, fun i hi => by simp [accepted, cands] at hi, rfl⟩
  · rintro ⟨r, ctr, pos⟩ ⟨h1, h2, h3, h4⟩ hc
    dsimp only at *
    simp only [Bool.and_eq_true, decide_eq_true_eq] at hc
    refine (rejBody32Bmi_runs hX hl h1 h4 (by omega) (by omega)).mono ?_
    rintro ⟨r', ctr', pos'⟩ ⟨h5, h6⟩
    dsimp only at *
    subst h6
    refine ⟨⟨by omega, by omega, ?_, h5⟩, by omega⟩
    have e1 := h5.2.2
    have e2 := h4.2.2
    have a : accepted (X.take (pos + 48)) = accepted (X.take pos) ++ accepted ((X.drop pos).take 48) := by
      rw [List.take_add, accepted_append (pos / 3) _ _ (by rw [List.length_take]; omega)]
    have := accepted_length ((X.drop pos).take 48)
    rw [a, List.length_append] at e1
    have : ((X.drop pos).take 48).length ≤ 48 := List.length_take_le _ _
    omega
  · rintro s ⟨hs, -⟩
    rw [runs_bind]
    refine (runs_cwhile_measure (fun (s : Poly × Nat × Nat) => s.2.2 % 3 = 0 ∧ s.2.2 ≤ 504 ∧ s.2.1 ≤ 256 ∧ ListR (accepted (X.take s.2.2)) s.1 s.2.1)
      (fun s => 504 - s.2.2) ?_ hs ?_).mono ?_
    · omega
    · rintro ⟨r, ctr, pos⟩ ⟨h1, h2, h3, h4⟩ hc
      dsimp only at *
      simp only [Bool.and_eq_true, decide_eq_true_eq] at hc
      refine (rejBody8Bmi_runs hX hl h1 h4 (by omega) (by omega)).mono ?_
      rintro ⟨r', ctr', pos'⟩ ⟨h5, h6⟩
      dsimp only at *
      subst h6
      refine ⟨⟨by omega, by omega, ?_, h5⟩, by omega⟩
      have e1 := h5.2.2
      have e2 := h4.2.2
      have a : accepted (X.take (pos + 12)) = accepted (X.take pos) ++ accepted ((X.drop pos).take 12) := by
        rw [List.take_add, accepted_append (pos / 3) _ _ (by rw [List.length_take]; omega)]
      have := accepted_length ((X.drop pos).take 12)
      rw [a, List.length_append] at e1
      have : ((X.drop pos).take 12).length ≤ 12 := List.length_take_le _ _
      omega
    · rintro s ⟨⟨g1, g2, g3, g4⟩, -⟩
      rw [runs_bind]
      refine (runs_cwhile_measure (fun (s : Poly × Nat × Nat) => s.2.2 % 3 = 0 ∧ s.2.2 ≤ 504 ∧ ListR ((accepted (X.take s.2.2)).take 256) s.1 s.2.1)
        (fun s => 504 - s.2.2) ?_ ⟨g1, g2, ?_⟩ ?_).mono ?_
      · omega
      · rwa [t256 (by rw [← g4.2.2]; exact g3)]
      · rintro ⟨r, ctr, pos⟩ ⟨h1, h2, h4⟩ hc
        dsimp only at *
        simp only [Bool.and_eq_true, decide_eq_true_eq] at hc
        refine (rejBody1_runs hX hl h1 h4 (by omega) (by omega)).mono ?_
        rintro ⟨r', ctr', pos'⟩ ⟨h5, h6⟩
        dsimp only at *
        subst h6
        exact ⟨⟨by omega, by omega, h5⟩, by omega⟩
      · rintro ⟨r, ctr, pos⟩ ⟨⟨h1, h2, h4⟩, hc⟩
        dsimp only at *
        simp only [Bool.and_eq_false_iff, decide_eq_false_iff_not] at hc
        rw [runs_pure]
        have e : sampled X = (accepted (X.take pos)).take 256 := by
          unfold sampled
          have : accepted X = accepted (X.take pos) ++ accepted (X.drop pos) := by
            conv_lhs => rw [← List.take_append_drop pos X]
            rw [accepted_append (pos / 3) _ _ (by rw [List.length_take]; omega)]
          rw [this]
          rcases hc with hc | hc
          · have := h4.2.2
            rw [List.length_take] at this
            rw [List.take_append_of_le_length (by omega)]
          · rw [accepted_short (X.drop pos) (by rw [List.length_drop]; omega), List.append_nil]
        rwa [e]

theorem rejSpec_bmi : RejSpec rej_uniform_avx_bmi := fun hr hX hl => rej_uniform_avx_bmi_runs hr hX hl

end Verif.Avx.Bmi
