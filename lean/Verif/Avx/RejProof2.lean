import Verif.Avx.RejProof

/-! # Rejection sampling with vector instructions: the loops -/

namespace Verif.Avx
open Verif.Model Verif.Spec Verif.Proof

attribute [local irreducible] rowB idxMem idxTable

/-- The array starts with the list `L`, which has length `ctr`. -/
def ListR (L : List Nat) (r : Mem Int16) (ctr : Nat) : Prop :=
  r.size = 256 ∧ r.Holds 0 (L.map fun d : Nat => i16 (d : Int)) ∧ ctr = L.length

/-- The accepted ones of eight candidates. -/
def grp (b : Nat → UInt8) : List Nat := ((List.range 8).map (cand b)).filter (· < 3329)

theorem grp_eq (b : Nat → UInt8) : grp b = (posl (mask8 (okc b))).map (cand b) := by
  unfold grp
  rw [posl_mask, List.filter_map]
  rfl

theorem grp_len (b : Nat → UInt8) : popcnt (mask8 (okc b)) = (grp b).length := by
  rw [grp_eq, List.length_map]; exact popcnt_eq ⟨_, mask8_lt _⟩

theorem grp_le (b : Nat → UInt8) : (grp b).length ≤ 8 := (List.length_filter_le _ _).trans (by simp)

theorem accepted_grp (b : Nat → UInt8) : accepted ((List.range 12).map b) = grp b := by
  unfold accepted grp
  congr 1

theorem acc12 {X : List UInt8} {p : Nat} (hp : p % 3 = 0) (h : p + 12 ≤ X.length) :
    accepted (X.take (p + 12)) = accepted (X.take p) ++ grp fun k => X.getD (p + k) 0 := by
  rw [← accepted_grp, List.take_add, accepted_append (p / 3) _ _ (by rw [List.length_take]; omega)]
  congr 2
  apply List.ext_getElem
  · simp; omega
  · intro i h1 h2
    simp at h1 h2
    simp [List.getD_eq_getElem?_getD, show p + i < X.length from by omega]

theorem ofBitVec_nat (n : Nat) : Int16.ofBitVec (BitVec.ofNat 16 n) = i16 (n : Int) := by
  unfold i16
  apply Int16.toBitVec_inj.mp
  show BitVec.ofNat 16 n = BitVec.ofInt 16 n
  rw [BitVec.ofInt_natCast]

theorem storeWords_runs {r : Mem Int16} {o : Nat} {l : List W} (h : o + l.length ≤ r.size) :
    Runs (storeWords r o l) (fun r' => r.Upd r' o l.length fun i => Int16.ofBitVec (l.getD i 0)) := by
  unfold storeWords
  refine runs_fill1 fun i m' hi hu => ?_
  exact runs_wr_upd (by rw [hu.size]; omega)

theorem storeGroup {L : List Nat} {r : Mem Int16} {ctr : Nat} (h : ListR L r ctr) (b : Nat → UInt8) (hc : ctr + 8 ≤ 256) :
    Runs (storeWords r ctr ((List.range 8).map (selW (candW b) (mask8 (okc b))))) (fun r' => ListR (L ++ grp b) r' (ctr + popcnt (mask8 (okc b)))) := by
  obtain ⟨hs, hh, rfl⟩ := h
  refine (storeWords_runs (by simp; omega)).mono fun r' hu => ?_
  rw [List.length_map, List.length_range] at hu
  refine ⟨by rw [hu.size, hs], ?_, by rw [grp_len, List.length_append]⟩
  rw [List.map_append, Mem.Holds.append]
  constructor
  · intro i hi
    rw [hu.frame _ (by rw [List.length_map] at hi; omega)]
    exact hh i hi
  · have hle := grp_le b
    rw [Nat.zero_add, List.length_map]
    have hhas : r'.Has L.length (grp b).length _ := fun i hi => hu.has i (by omega)
    refine hhas.holds_of (by simp) fun i hi => ?_
    rw [List.length_map] at hi
    have hi' : i < (posl (mask8 (okc b))).length := by rw [grp_eq, List.length_map] at hi; exact hi
    have e : ((List.range 8).map (selW (candW b) (mask8 (okc b)))).getD i 0 = selW (candW b) (mask8 (okc b)) i := by
      rw [List.getD_eq_getElem?_getD, List.getElem?_map, List.getElem?_range (by omega)]; rfl
    rw [e, selW_eq _ (mask8_lt _) hi', candW, ofBitVec_nat, List.getElem_map]
    congr 2
    simp only [grp_eq, List.getElem_map]
    rw [List.getD_eq_getElem?_getD, List.getElem?_eq_getElem hi', Option.getD_some]

theorem cand_shift (b : Nat → UInt8) (i : Nat) : cand b (8 + i) = cand (fun k => b (12 + k)) i := by
  unfold cand
  rw [show (8 + i) % 2 = i % 2 from by omega, show 3 * ((8 + i) / 2) = 12 + 3 * (i / 2) from by omega]
  rfl
theorem candW_shift (b : Nat → UInt8) : (fun j => candW b (8 + j)) = candW (fun k => b (12 + k)) := funext fun j => by unfold candW; rw [cand_shift]
theorem okc_shift (b : Nat → UInt8) : (fun j => okc b (8 + j)) = okc (fun k => b (12 + k)) := funext fun j => by unfold okc; rw [cand_shift]

theorem cat32_toNat (a b : Nat) (ha : a < 65536) (hb : b < 65536) : (cat32 (BitVec.ofNat 16 a) (BitVec.ofNat 16 b)).toNat = a + 65536 * b := by
  unfold cat32
  rw [BitVec.toNat_append, BitVec.toNat_ofNat, BitVec.toNat_ofNat, Nat.mod_eq_of_lt ha, Nat.mod_eq_of_lt hb, ← Nat.shiftLeft_add_eq_or_of_lt (by omega), Nat.shiftLeft_eq]
  omega

theorem byte_of_good (a b c d : Nat) (ha : a < 256) (hb : b < 256) (hc : c < 256) (hd : d < 256) :
    (a + 256 * b + 65536 * (c + 256 * d)) >>> 0 &&& 0xFF = a ∧ (a + 256 * b + 65536 * (c + 256 * d)) >>> 8 &&& 0xFF = b ∧
    (a + 256 * b + 65536 * (c + 256 * d)) >>> 16 &&& 0xFF = c ∧ (a + 256 * b + 65536 * (c + 256 * d)) >>> 24 &&& 0xFF = d := by
  simp only [show 0xFF = 2 ^ 8 - 1 from rfl, Nat.and_two_pow_sub_one_eq_mod, Nat.shiftRight_eq_div_pow]
  omega

theorem low16 (F G : Nat → W) : lanes evalW .lowhalf [(List.range 16).map fun i => if i < 8 then F i else G (i - 8)] 8 0 = some ((List.range 8).map F) := by rfl
theorem high16 (F G : Nat → W) : lanes evalW .highhalf [(List.range 16).map fun i => if i < 8 then F i else G (i - 8)] 8 0 = some ((List.range 8).map G) := by rfl

theorem rejBody32_runs {X : List UInt8} {buf : Mem UInt8} (hX : buf.Holds 0 X) (hl : X.length = 504) {r : Poly} {ctr pos : Nat} (hp3 : pos % 3 = 0)
    (h : ListR (accepted (X.take pos)) r ctr) (hc : ctr ≤ 224) (hp : pos ≤ 448) :
    Runs (rejBody32 r ctr pos buf) (fun s => ListR (accepted (X.take (pos + 48))) s.1 s.2.1 ∧ s.2.2 = pos + 48) := by
  have hb : ∀ o, o + 32 ≤ 504 → buf.Has o 32 fun k => X.getD (o + k) 0 := fun o ho k hk => by
    have := hX.getElem? 0 (i := o + k) (by omega); rwa [Nat.zero_add] at this
  have a1 := acc12 (X := X) hp3 (by omega)
  have a2 := acc12 (X := X) (p := pos + 12) (by omega) (by omega)
  have a3 := acc12 (X := X) (p := pos + 12 + 12) (by omega) (by omega)
  have a4 := acc12 (X := X) (p := pos + 12 + 12 + 12) (by omega) (by omega)
  generalize hb0 : (fun k => X.getD (pos + k) 0) = b0 at a1
  generalize hb1 : (fun k => X.getD (pos + 24 + k) 0) = b1
  have e2 : (fun k => X.getD (pos + 12 + k) 0) = fun k => b0 (12 + k) := by rw [← hb0]; exact funext fun k => by rw [Nat.add_assoc]
  have e3 : (fun k => X.getD (pos + 12 + 12 + k) 0) = b1 := by rw [← hb1]
  have e4 : (fun k => X.getD (pos + 12 + 12 + 12 + k) 0) = fun k => b1 (12 + k) := by rw [← hb1]; exact funext fun k => by rw [show pos + 12 + 12 + 12 + k = pos + 24 + (12 + k) from by omega]
  rw [e2] at a2
  rw [e3] at a3
  rw [e4] at a4
  unfold rejBody32
  rw [runs_bind]
  refine (words16_runs (b := b0) (by rw [← hb0]; exact hb pos (by omega))).mono ?_
  rintro _ rfl
  rw [runs_bind]
  refine (words16_runs (b := b1) (by rw [← hb1]; exact hb (pos + 24) (by omega))).mono ?_
  rintro _ rfl
  rw [runs_bind, vop_runs (cmp16 b0), runs_bind, vop_runs (cmp16 b1), runs_bind, vop_runs (pack16 _ _), runs_bind, vop_runs (mask16 _ _), okc_shift, okc_shift]
  generalize hm0 : mask8 (okc b0) = m0
  generalize hm1 : mask8 (okc b1) = m1
  generalize hm2 : mask8 (okc fun k => b0 (12 + k)) = m2
  generalize hm3 : mask8 (okc fun k => b1 (12 + k)) = m3
  have l0 : m0 < 256 := hm0 ▸ mask8_lt _
  have l1 : m1 < 256 := hm1 ▸ mask8_lt _
  have l2 : m2 < 256 := hm2 ▸ mask8_lt _
  have l3 : m3 < 256 := hm3 ▸ mask8_lt _
  have hg : (cat32 ([BitVec.ofNat 16 (m0 + 256 * m1), BitVec.ofNat 16 (m2 + 256 * m3)].getD 0 0) ([BitVec.ofNat 16 (m0 + 256 * m1), BitVec.ofNat 16 (m2 + 256 * m3)].getD 1 0)).toNat =
      m0 + 256 * m1 + 65536 * (m2 + 256 * m3) := cat32_toNat _ _ (by omega) (by omega)
  obtain ⟨g0, g1, g2, g3⟩ := byte_of_good m0 m1 m2 m3 l0 l1 l2 l3
  rw [hg]
  dsimp only
  rw [g0, g1, g2, g3]
  rw [runs_bind]
  refine (idxRow_runs l0).mono ?_
  rintro _ rfl
  rw [runs_bind]
  refine (idxRow_runs l1).mono ?_
  rintro _ rfl
  rw [runs_bind]
  refine (idxRow_runs l2).mono ?_
  rintro _ rfl
  rw [runs_bind, vop_runs (perm16 _ _), runs_bind]
  refine (idxRow_runs l3).mono ?_
  rintro _ rfl
  rw [runs_bind, vop_runs (perm16 _ _), runs_bind]
  refine (select16_runs (candW b0) m0 m2).mono ?_
  rintro _ rfl
  rw [runs_bind]
  refine (select16_runs (candW b1) m1 m3).mono ?_
  rintro _ rfl
  rw [runs_bind, vop_runs (low16 _ _), runs_bind]
  have hsz : ∀ b, (grp b).length ≤ 8 := grp_le
  refine Runs.mono (by have := storeGroup h b0 (by omega); rwa [hm0] at this) fun r1 h1 => ?_
  have p0 : popcnt m0 = (grp b0).length := by rw [← hm0]; exact grp_len b0
  have p1 : popcnt m1 = (grp b1).length := by rw [← hm1]; exact grp_len b1
  have p2 : popcnt m2 = (grp fun k => b0 (12 + k)).length := by rw [← hm2]; exact grp_len _
  have p3 : popcnt m3 = (grp fun k => b1 (12 + k)).length := by rw [← hm3]; exact grp_len _
  have q0 := hsz b0
  have q1 := hsz b1
  have q2 := hsz fun k => b0 (12 + k)
  rw [runs_bind, vop_runs (high16 _ _), runs_bind, candW_shift]
  refine Runs.mono (by have := storeGroup h1 (fun k => b0 (12 + k)) (by omega); rwa [hm2] at this) fun r2 h2 => ?_
  rw [runs_bind, vop_runs (low16 _ _), runs_bind]
  refine Runs.mono (by have := storeGroup h2 b1 (by omega); rwa [hm1] at this) fun r3 h3 => ?_
  rw [runs_bind, vop_runs (high16 _ _), runs_bind, candW_shift]
  refine Runs.mono (by have := storeGroup h3 (fun k => b1 (12 + k)) (by omega); rwa [hm3] at this) fun r4 h4 => ?_
  rw [runs_pure]
  rw [← a1, ← a2, ← a3, ← a4] at h4
  exact ⟨h4, rfl⟩

theorem rejBody8_runs {X : List UInt8} {buf : Mem UInt8} (hX : buf.Holds 0 X) (hl : X.length = 504) {r : Poly} {ctr pos : Nat} (hp3 : pos % 3 = 0)
    (h : ListR (accepted (X.take pos)) r ctr) (hc : ctr ≤ 248) (hp : pos ≤ 488) :
    Runs (rejBody8 r ctr pos buf) (fun s => ListR (accepted (X.take (pos + 12))) s.1 s.2.1 ∧ s.2.2 = pos + 12) := by
  have a1 := acc12 (X := X) hp3 (by omega)
  have hb : buf.Has pos 16 fun k => X.getD (pos + k) 0 := fun k hk => by
    have := hX.getElem? 0 (i := pos + k) (by omega); rwa [Nat.zero_add] at this
  generalize hb0 : (fun k => X.getD (pos + k) 0) = b at a1 hb
  unfold rejBody8
  refine words8_runs hb ?_
  rw [runs_bind, vop_runs (cmp8 b), runs_bind, vop_runs (mask8_lanes _)]
  rw [show ([BitVec.ofNat 16 (maskBits ((List.range 8).map fun i => flw (okc b i)))].getD 0 0) = BitVec.ofNat 16 (maskBits ((List.range 8).map fun i => flw (okc b i))) from rfl,
    pext_mask]
  rw [runs_bind]
  refine (idxRow_runs (mask8_lt _)).mono ?_
  rintro _ rfl
  refine select8 (candW b) _ ?_
  rw [runs_bind]
  refine (storeGroup h b (by omega)).mono fun r1 h1 => ?_
  rw [runs_pure]
  rw [← a1] at h1
  exact ⟨h1, rfl⟩

/-- One candidate of the scalar loop. -/
theorem accept1_runs {r : Poly} {ctr d : Nat} {L : List Nat} (h : ListR (L.take 256) r ctr) (c : Bool) (hc : c = true ↔ ctr < 256 ∧ d < 3329) :
    Runs (cif c (do let r ← wr r ctr (i16 (d : Int)); pure (r, ctr + 1)) (pure (r, ctr)))
      (fun s => ListR ((L ++ if d < 3329 then [d] else []).take 256) s.1 s.2) := by
  obtain ⟨hs, hh, hct⟩ := h
  subst hct
  have hw : r.Wrote r 0 ((L.take 256).map fun d : Nat => i16 (d : Int)) := ⟨rfl, hh, fun _ _ => rfl⟩
  have := accept_runs (ro := 0) (len := 256) (d := d) (L := L) (by rw [hs]) hw c hc
  rw [Nat.zero_add] at this
  refine this.mono fun s hs' => ⟨by rw [hs'.1.size, hs], hs'.1.holds, hs'.2⟩

theorem cand1' (b c : UInt8) : ((b.toNat >>> 4) ||| (c.toNat <<< 4)) = b.toNat / 16 + 16 * c.toNat := by
  have h1 := b.toNat_lt
  rw [Nat.shiftRight_eq_div_pow, Nat.or_comm, ← Nat.shiftLeft_add_eq_or_of_lt (by omega), Nat.shiftLeft_eq]
  omega

theorem rejBody1_runs {X : List UInt8} {buf : Mem UInt8} (hX : buf.Holds 0 X) (hl : X.length = 504) {r : Poly} {ctr pos : Nat} (hp3 : pos % 3 = 0)
    (h : ListR ((accepted (X.take pos)).take 256) r ctr) (hc : ctr < 256) (hp : pos ≤ 501) :
    Runs (rejBody1 r ctr pos buf) (fun s => ListR ((accepted (X.take (pos + 3))).take 256) s.1 s.2.1 ∧ s.2.2 = pos + 3) := by
  obtain ⟨t, rfl⟩ : ∃ t, pos = 3 * t := ⟨pos / 3, by omega⟩
  unfold rejBody1
  have g0 : buf[3 * t + 0]? = some (some (X.getD (3 * t) 0)) := by have := hX.getElem? 0 (i := 3 * t) (by omega); rwa [Nat.zero_add] at this
  have g1 : buf[3 * t + 1]? = some (some (X.getD (3 * t + 1) 0)) := by have := hX.getElem? 0 (i := 3 * t + 1) (by omega); rwa [Nat.zero_add] at this
  have g2 : buf[3 * t + 2]? = some (some (X.getD (3 * t + 2) 0)) := by have := hX.getElem? 0 (i := 3 * t + 2) (by omega); rwa [Nat.zero_add] at this
  have hacc : accepted (X.take (3 * t + 3)) = accepted (X.take (3 * t)) ++ accepted [X.getD (3 * t) 0, X.getD (3 * t + 1) 0, X.getD (3 * t + 2) 0] := by
    rw [← accepted_append t _ _ (by rw [List.length_take]; omega)]
    congr 1
    rw [List.take_add, drop3 (by omega)]
    rfl
  rw [accepted_three, ← List.append_assoc] at hacc
  rw [runs_bind, runs_rd_of g0, runs_bind, runs_rd_of g1, runs_bind, runs_rd_of g1, runs_bind, runs_rd_of g2, runs_bind]
  rw [cand0, cand1', u16_toNat (cand0_lt ..), u16_toNat (cand1_lt ..)]
  generalize X.getD (3 * t) 0 = a at *
  generalize X.getD (3 * t + 1) 0 = b at *
  generalize X.getD (3 * t + 2) 0 = c at *
  generalize a.toNat + 256 * (b.toNat % 16) = d0 at *
  generalize b.toNat / 16 + 16 * c.toNat = d1 at *
  refine (accept1_runs h _ (by rw [decide_eq_true_eq]; exact ⟨fun h => ⟨hc, h⟩, fun h => h.2⟩)).mono ?_
  rintro ⟨r1, c1⟩ h1
  dsimp only at h1 ⊢
  rw [runs_bind]
  refine (accept1_runs h1 _ (by rw [Bool.and_eq_true, decide_eq_true_eq, decide_eq_true_eq]; exact And.comm)).mono ?_
  rintro ⟨r2, c2⟩ h2
  dsimp only at h2 ⊢
  rw [runs_pure]
  rw [← hacc] at h2
  exact ⟨h2, rfl⟩

theorem buflen : REJ_UNIFORM_AVX_BUFLEN = 504 := by decide

/-- **The vectorised rejection sampling** keeps exactly the accepted candidates, in order, up to 256 of them. -/
theorem rej_uniform_avx_runs {r : Poly} {buf : Mem UInt8} {X : List UInt8} (hr : r.size = 256) (hX : buf.Holds 0 X) (hl : X.length = 504) :
    Runs (rej_uniform_avx r buf) (fun s => ListR (sampled X) s.1 s.2) := by
  unfold rej_uniform_avx
  rw [buflen]
  have hN : KYBER_N = 256 := rfl
  have t256 : ∀ {L : List Nat}, L.length ≤ 256 → L.take 256 = L := fun h => List.take_of_length_le h
  rw [runs_bind]
  refine (runs_cwhile_measure (fun (s : Poly × Nat × Nat) => s.2.2 % 3 = 0 ∧ s.2.2 ≤ 504 ∧ s.2.1 ≤ 256 ∧ ListR (accepted (X.take s.2.2)) s.1 s.2.1)
    (fun s => 504 - s.2.2) ?_ ?_ ?_).mono ?_
  · dsimp only; omega
  · exact ⟨rfl, by dsimp only; omega, by dsimp only; omega, hr, fun i hi => by simp [accepted, cands] at hi, rfl⟩
  · rintro ⟨r, ctr, pos⟩ ⟨h1, h2, h3, h4⟩ hc
    dsimp only at *
    simp only [Bool.and_eq_true, decide_eq_true_eq] at hc
    refine (rejBody32_runs hX hl h1 h4 (by omega) (by omega)).mono ?_
    rintro ⟨r', ctr', pos'⟩ ⟨h5, h6⟩
    dsimp only at *
    subst h6
    refine ⟨⟨by omega, by omega, ?_, h5⟩, by omega⟩
    have e1 := h5.2.2
    have e2 := h4.2.2
    have a : accepted (X.take (pos + 48)) = accepted (X.take pos) ++ accepted ((X.drop pos).take 48) := by
      rw [List.take_add, accepted_append (pos / 3) _ _ (by rw [List.length_take]; omega)]
    have := accepted_length ((X.drop pos).take 48)
    rw [a, List.length_append] at e1
    have : ((X.drop pos).take 48).length ≤ 48 := List.length_take_le _ _
    omega
  · rintro s ⟨hs, -⟩
    rw [runs_bind]
    refine (runs_cwhile_measure (fun (s : Poly × Nat × Nat) => s.2.2 % 3 = 0 ∧ s.2.2 ≤ 504 ∧ s.2.1 ≤ 256 ∧ ListR (accepted (X.take s.2.2)) s.1 s.2.1)
      (fun s => 504 - s.2.2) ?_ hs ?_).mono ?_
    · omega
    · rintro ⟨r, ctr, pos⟩ ⟨h1, h2, h3, h4⟩ hc
      dsimp only at *
      simp only [Bool.and_eq_true, decide_eq_true_eq] at hc
      refine (rejBody8_runs hX hl h1 h4 (by omega) (by omega)).mono ?_
      rintro ⟨r', ctr', pos'⟩ ⟨h5, h6⟩
      dsimp only at *
      subst h6
      refine ⟨⟨by omega, by omega, ?_, h5⟩, by omega⟩
      have e1 := h5.2.2
      have e2 := h4.2.2
      have a : accepted (X.take (pos + 12)) = accepted (X.take pos) ++ accepted ((X.drop pos).take 12) := by
        rw [List.take_add, accepted_append (pos / 3) _ _ (by rw [List.length_take]; omega)]
      have := accepted_length ((X.drop pos).take 12)
      rw [a, List.length_append] at e1
      have : ((X.drop pos).take 12).length ≤ 12 := List.length_take_le _ _
      omega
    · rintro s ⟨⟨g1, g2, g3, g4⟩, -⟩
      rw [runs_bind]
      refine (runs_cwhile_measure (fun (s : Poly × Nat × Nat) => s.2.2 % 3 = 0 ∧ s.2.2 ≤ 504 ∧ ListR ((accepted (X.take s.2.2)).take 256) s.1 s.2.1)
        (fun s => 504 - s.2.2) ?_ ⟨g1, g2, ?_⟩ ?_).mono ?_
      · omega
      · rwa [t256 (by rw [← g4.2.2]; exact g3)]
      · rintro ⟨r, ctr, pos⟩ ⟨h1, h2, h4⟩ hc
        dsimp only at *
        simp only [Bool.and_eq_true, decide_eq_true_eq] at hc
        refine (rejBody1_runs hX hl h1 h4 (by omega) (by omega)).mono ?_
        rintro ⟨r', ctr', pos'⟩ ⟨h5, h6⟩
        dsimp only at *
        subst h6
        exact ⟨⟨by omega, by omega, h5⟩, by omega⟩
      · rintro ⟨r, ctr, pos⟩ ⟨⟨h1, h2, h4⟩, hc⟩
        dsimp only at *
        simp only [Bool.and_eq_false_iff, decide_eq_false_iff_not] at hc
        rw [runs_pure]
        have e : sampled X = (accepted (X.take pos)).take 256 := by
          unfold sampled
          have : accepted X = accepted (X.take pos) ++ accepted (X.drop pos) := by
            conv_lhs => rw [← List.take_append_drop pos X]
            rw [accepted_append (pos / 3) _ _ (by rw [List.length_take]; omega)]
          rw [this]
          rcases hc with hc | hc
          · have := h4.2.2
            rw [List.length_take] at this
            rw [List.take_append_of_le_length (by omega)]
          · rw [accepted_short (X.drop pos) (by rw [List.length_drop]; omega), List.append_nil]
        rwa [e]

end Verif.Avx
