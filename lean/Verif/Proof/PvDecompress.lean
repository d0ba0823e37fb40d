import Verif.Proof.Polyvec

/-! # polyvec_decompress -/

namespace Verif.Proof
open Verif.Model Verif.Spec

theorem arr_set_same {α : Type} {v : Array α} {n : Nat} {r : α} (h : v[n]? = some r) : v.setIfInBounds n r = v := by
  apply Array.ext_getElem?
  intro i
  by_cases hi : n = i
  · subst hi
    rw [Array.getElem?_setIfInBounds_self]
    split
    · rw [h]
    · rw [Array.getElem?_eq_none (by omega)] 
  · rw [Array.getElem?_setIfInBounds_ne hi]

theorem runs_vecloop2 {τ : Type} {k : Nat} {r : Polyvec} {t0 : τ} {P : τ → Prop} {g : Nat → Rq} {B : Int} {body : Nat → Polyvec × τ → C (Polyvec × τ)}
    (hr : r.size = k) (h0 : P t0)
    (h : ∀ i m t, i < k → m.size = k → (∀ j, i ≤ j → m[j]? = r[j]?) → P t →
      Runs (body i (m, t)) (fun s => (∃ q, s.1 = m.setIfInBounds i q ∧ PolyR q (g i) B) ∧ P s.2)) :
    Runs (cfor 0 k (r, t0) body) (fun s => VecR k s.1 g B ∧ P s.2) := by
  refine (runs_cfor (fun i (s : Polyvec × τ) => (s.1.size = k ∧ (∀ j, i ≤ j → s.1[j]? = r[j]?) ∧ ∀ j, j < i → ∃ q, s.1[j]? = some q ∧ PolyR q (g j) B) ∧ P s.2)
    (Nat.zero_le _) ⟨⟨hr, fun _ _ => rfl, fun j hj => by omega⟩, h0⟩ ?_).mono fun m ⟨⟨h1, _, h2⟩, h3⟩ => ⟨⟨h1, h2⟩, h3⟩
  rintro i ⟨m, t⟩ _ hi ⟨⟨hs, hf, hc⟩, ht⟩
  refine (h i m t hi hs hf ht).mono ?_
  rintro ⟨m', t'⟩ ⟨⟨q, h', h1⟩, ht'⟩
  have hs : m.size = k := hs
  have h' : m' = m.setIfInBounds i q := h'
  subst h'
  refine ⟨⟨by simp [hs], fun j hj => ?_, fun j hj => ?_⟩, ht'⟩
  · exact (Array.getElem?_setIfInBounds_ne (by omega)).trans (hf j (by omega))
  · by_cases hji : j = i
    · subst hji; exact ⟨q, arr_set_self (by omega), h1⟩
    · obtain ⟨q', h2, h3⟩ := hc j (by omega)
      exact ⟨q', (Array.getElem?_setIfInBounds_ne (by omega)).trans h2, h3⟩

theorem poly_decompress_352_block {v : Polyvec} {n : Nat} {r : Mem Int16} {a : Mem UInt8} {ao : Nat} {B : List UInt8} (hv : v[n]? = some r)
    (hr : r.size = 256) (ha : a.Holds ao B) (hB : B.length = 352) {t0 : Mem UInt16} (ht0 : t0.size = 8) (off : Nat → Nat) (hoff : ∀ j, off j = ao + 11 * j) :
    Runs (cfor 0 32 (v, t0) fun j (v, t) => do
      let o := off j
      let t ← wr t 0 (UInt16.ofNat (((← rd a (o + 0)).toNat >>> 0) ||| ((← rd a (o + 1)).toNat <<< 8)))
      let t ← wr t 1 (UInt16.ofNat (((← rd a (o + 1)).toNat >>> 3) ||| ((← rd a (o + 2)).toNat <<< 5)))
      let t ← wr t 2 (UInt16.ofNat (((← rd a (o + 2)).toNat >>> 6) ||| ((← rd a (o + 3)).toNat <<< 2) ||| ((← rd a (o + 4)).toNat <<< 10)))
      let t ← wr t 3 (UInt16.ofNat (((← rd a (o + 4)).toNat >>> 1) ||| ((← rd a (o + 5)).toNat <<< 7)))
      let t ← wr t 4 (UInt16.ofNat (((← rd a (o + 5)).toNat >>> 4) ||| ((← rd a (o + 6)).toNat <<< 4)))
      let t ← wr t 5 (UInt16.ofNat (((← rd a (o + 6)).toNat >>> 7) ||| ((← rd a (o + 7)).toNat <<< 1) ||| ((← rd a (o + 8)).toNat <<< 9)))
      let t ← wr t 6 (UInt16.ofNat (((← rd a (o + 8)).toNat >>> 2) ||| ((← rd a (o + 9)).toNat <<< 6)))
      let t ← wr t 7 (UInt16.ofNat (((← rd a (o + 9)).toNat >>> 5) ||| ((← rd a (o + 10)).toNat <<< 3)))
      let v ← cfor 0 8 v fun k v => do
        let x ← rd t k
        let ri ← at' v n
        let ri ← wr ri (8 * j + k) (i16 (((UInt32.ofNat (x.toNat &&& 0x7ff) * 3329 + 1024) >>> 11).toNat))
        put' v n ri
      pure (v, t))
    (fun s => (∃ q, s.1 = v.setIfInBounds n q ∧ PolyR q (fun i => Decompress 11 (ByteDecode 11 B i)) 3328) ∧ s.2.size = 8) := by
  have hn : n < v.size := by
    by_contra h
    rw [Array.getElem?_eq_none (by omega)] at hv
    cases hv
  refine Runs.mono (runs_cfor (fun i (s : Polyvec × Mem UInt16) => (∃ q, s.1 = v.setIfInBounds n q ∧
      r.Upd q 0 (8 * i) (fun i => i16 ((dval 11 (decNum 11 (fun k => B.getD k 0) i) : Nat) : Int))) ∧ s.2.size = 8) (Nat.zero_le _)
      ⟨⟨r, ?_, Mem.Upd.refl _ _ _⟩, ht0⟩ ?_) ?_
  · exact (arr_set_same hv).symm
  · rintro i ⟨m, t⟩ _ hi ⟨⟨q, hm, hu⟩, ht⟩
    have ht : t.size = 8 := ht
    have hm : m = v.setIfInBounds n q := hm
    subst hm
    have g : ∀ j, j < 11 → a[ao + 11 * i + j]? = some (some (B.getD (11 * i + j) 0)) := fun j hj => by
      have := ha.getElem? 0 (i := 11 * i + j) (by omega)
      rwa [← Nat.add_assoc] at this
    have key : ∀ (e : Nat → Nat), (∀ c, c < 8 → ∀ j, j < 11 → (e c).testBit j =
        (B.getD (11 * i + (c * 11 + j) / 8) 0).toNat.testBit ((c * 11 + j) % 8)) →
        ∀ t', t.Upd t' 0 8 (fun c => UInt16.ofNat (e c)) →
        Runs (cfor 0 8 (v.setIfInBounds n q) fun k v => do
            let x ← rd t' k
            let ri ← at' v n
            let ri ← wr ri (8 * i + k) (i16 (((UInt32.ofNat (x.toNat &&& 0x7ff) * 3329 + 1024) >>> 11).toNat))
            put' v n ri)
          (fun m' => ∃ q', m' = v.setIfInBounds n q' ∧ r.Upd q' 0 (8 * i + 8) (fun i => i16 ((dval 11 (decNum 11 (fun k => B.getD k 0) i) : Nat) : Int))) := by
      intro e he t' ht'
      refine runs_cfor (fun c (m : Polyvec) => ∃ q', m = v.setIfInBounds n q' ∧ r.Upd q' 0 (8 * i + c) (fun i => i16 ((dval 11 (decNum 11 (fun k => B.getD k 0) i) : Nat) : Int)))
        (Nat.zero_le _) ⟨q, rfl, hu⟩ ?_
      rintro c m _ hc ⟨q', rfl, hq'⟩
      have hm : (UInt16.ofNat (e c)).toNat &&& 0x7ff = e c % 2 ^ 11 := toNat_ofNat16_and (k := 11) (by omega)
      simp only [runs_bind]
      rw [runs_rd_of (ht'.has.get0 hc), hm, dec_block (d := 11) (w := 11) (v := 8) (by rfl) (fun k => B.getD k 0) i c]
      · rw [dword 10 _ (by omega) (bitsVal_lt 11 _) 11 1024 rfl rfl, runs_at]
        refine ⟨q', arr_set_self hn, ?_⟩
        refine runs_wr_next hq' (by omega) (by omega) ?_ fun q'' hq'' => ?_
        · rfl
        · rw [runs_put]
          refine ⟨by simpa using hn, q'', ?_, hq''⟩
          simp
      · exact he c hc
    simp only [runs_bind]
    rw [hoff]
    have h0 := Mem.Upd.refl t 0 (fun c => UInt16.ofNat ([
      ((B.getD (11 * i + 0) 0).toNat >>> 0) ||| ((B.getD (11 * i + 1) 0).toNat <<< 8),
      ((B.getD (11 * i + 1) 0).toNat >>> 3) ||| ((B.getD (11 * i + 2) 0).toNat <<< 5),
      ((B.getD (11 * i + 2) 0).toNat >>> 6) ||| ((B.getD (11 * i + 3) 0).toNat <<< 2) ||| ((B.getD (11 * i + 4) 0).toNat <<< 10),
      ((B.getD (11 * i + 4) 0).toNat >>> 1) ||| ((B.getD (11 * i + 5) 0).toNat <<< 7),
      ((B.getD (11 * i + 5) 0).toNat >>> 4) ||| ((B.getD (11 * i + 6) 0).toNat <<< 4),
      ((B.getD (11 * i + 6) 0).toNat >>> 7) ||| ((B.getD (11 * i + 7) 0).toNat <<< 1) ||| ((B.getD (11 * i + 8) 0).toNat <<< 9),
      ((B.getD (11 * i + 8) 0).toNat >>> 2) ||| ((B.getD (11 * i + 9) 0).toNat <<< 6),
      ((B.getD (11 * i + 9) 0).toNat >>> 5) ||| ((B.getD (11 * i + 10) 0).toNat <<< 3)].getD c 0))
    rw [runs_rd_of (g 0 (by omega)), runs_rd_of (g 1 (by omega))]
    refine runs_wr_next h0 rfl (by omega) rfl fun t1 h1 => ?_
    rw [runs_rd_of (g 1 (by omega)), runs_rd_of (g 2 (by omega))]
    refine runs_wr_next h1 rfl (by omega) rfl fun t2 h2 => ?_
    rw [runs_rd_of (g 2 (by omega)), runs_rd_of (g 3 (by omega)), runs_rd_of (g 4 (by omega))]
    refine runs_wr_next h2 rfl (by omega) rfl fun t3 h3 => ?_
    rw [runs_rd_of (g 4 (by omega)), runs_rd_of (g 5 (by omega))]
    refine runs_wr_next h3 rfl (by omega) rfl fun t4 h4 => ?_
    rw [runs_rd_of (g 5 (by omega)), runs_rd_of (g 6 (by omega))]
    refine runs_wr_next h4 rfl (by omega) rfl fun t5 h5 => ?_
    rw [runs_rd_of (g 6 (by omega)), runs_rd_of (g 7 (by omega)), runs_rd_of (g 8 (by omega))]
    refine runs_wr_next h5 rfl (by omega) rfl fun t6 h6 => ?_
    rw [runs_rd_of (g 8 (by omega)), runs_rd_of (g 9 (by omega))]
    refine runs_wr_next h6 rfl (by omega) rfl fun t7 h7 => ?_
    rw [runs_rd_of (g 9 (by omega)), runs_rd_of (g 10 (by omega))]
    refine runs_wr_next h7 rfl (by omega) rfl fun t8 h8 => ?_
    refine (key _ ?_ t8 h8).mono fun m' hm' => ?_
    · intro c hc j hj
      interval_cases c <;> interval_cases j <;> simp [testBit_u8_ge]
    · rw [runs_pure]
      exact ⟨hm', by rw [h8.size, ht]⟩
  · rintro ⟨m, t⟩ ⟨⟨q, hm, hu⟩, ht⟩
    exact ⟨⟨q, hm, PolyR.of_dval (d := 10) (by omega) hr hu (by rfl)⟩, ht⟩

theorem polyvec_decompress_352_runs {p : ParamSet} {r : Polyvec} {a : Mem UInt8} {ao : Nat} {B : List UInt8} (hr : VecSz (KYBER_K p) r)
    (ha : a.Holds ao B) (hB : B.length = 352 * KYBER_K p) :
    Runs (polyvec_decompress_352 p r a ao) (fun r' => VecR (KYBER_K p) r'
      (fun i j => Decompress 11 (ByteDecode 11 (slice B (352 * i) 352) j)) 3328) := by
  unfold polyvec_decompress_352
  generalize KYBER_K p = k at *
  rw [runs_bind]
  refine Runs.mono (runs_vecloop2 (P := fun t : Mem UInt16 => t.size = 8) (B := 3328)
    (g := fun i j => Decompress 11 (ByteDecode 11 (slice B (352 * i) 352) j)) hr.size (by simp) fun i m t hi hm hfr ht => ?_) ?_
  · obtain ⟨q, hq, hqs⟩ := hr.get i hi
    have hle : 352 * i + 352 ≤ B.length := by omega
    exact poly_decompress_352_block (by rw [hfr i (Nat.le_refl _), hq]) hqs (ha.slice (352 * i) 352 hle) (length_slice hle) ht _
      (fun j => by unfold KYBER_N; omega)
  · rintro ⟨r', t⟩ ⟨h, _⟩
    rw [runs_pure]
    exact h

theorem poly_decompress_320_block {v : Polyvec} {n : Nat} {r : Mem Int16} {a : Mem UInt8} {ao : Nat} {B : List UInt8} (hv : v[n]? = some r)
    (hr : r.size = 256) (ha : a.Holds ao B) (hB : B.length = 320) {t0 : Mem UInt16} (ht0 : t0.size = 4) (off : Nat → Nat) (hoff : ∀ j, off j = ao + 5 * j) :
    Runs (cfor 0 64 (v, t0) fun j (v, t) => do
      let o := off j
      let t ← wr t 0 (UInt16.ofNat (((← rd a (o + 0)).toNat >>> 0) ||| ((← rd a (o + 1)).toNat <<< 8)))
      let t ← wr t 1 (UInt16.ofNat (((← rd a (o + 1)).toNat >>> 2) ||| ((← rd a (o + 2)).toNat <<< 6)))
      let t ← wr t 2 (UInt16.ofNat (((← rd a (o + 2)).toNat >>> 4) ||| ((← rd a (o + 3)).toNat <<< 4)))
      let t ← wr t 3 (UInt16.ofNat (((← rd a (o + 3)).toNat >>> 6) ||| ((← rd a (o + 4)).toNat <<< 2)))
      let v ← cfor 0 4 v fun k v => do
        let x ← rd t k
        let ri ← at' v n
        let ri ← wr ri (4 * j + k) (i16 (((UInt32.ofNat (x.toNat &&& 0x3ff) * 3329 + 512) >>> 10).toNat))
        put' v n ri
      pure (v, t))
    (fun s => (∃ q, s.1 = v.setIfInBounds n q ∧ PolyR q (fun i => Decompress 10 (ByteDecode 10 B i)) 3328) ∧ s.2.size = 4) := by
  have hn : n < v.size := by
    by_contra h
    rw [Array.getElem?_eq_none (by omega)] at hv
    cases hv
  refine Runs.mono (runs_cfor (fun i (s : Polyvec × Mem UInt16) => (∃ q, s.1 = v.setIfInBounds n q ∧
      r.Upd q 0 (4 * i) (fun i => i16 ((dval 10 (decNum 10 (fun k => B.getD k 0) i) : Nat) : Int))) ∧ s.2.size = 4) (Nat.zero_le _)
      ⟨⟨r, ?_, Mem.Upd.refl _ _ _⟩, ht0⟩ ?_) ?_
  · exact (arr_set_same hv).symm
  · rintro i ⟨m, t⟩ _ hi ⟨⟨q, hm, hu⟩, ht⟩
    have ht : t.size = 4 := ht
    have hm : m = v.setIfInBounds n q := hm
    subst hm
    have g : ∀ j, j < 5 → a[ao + 5 * i + j]? = some (some (B.getD (5 * i + j) 0)) := fun j hj => by
      have := ha.getElem? 0 (i := 5 * i + j) (by omega)
      rwa [← Nat.add_assoc] at this
    have key : ∀ (e : Nat → Nat), (∀ c, c < 4 → ∀ j, j < 10 → (e c).testBit j =
        (B.getD (5 * i + (c * 10 + j) / 8) 0).toNat.testBit ((c * 10 + j) % 8)) →
        ∀ t', t.Upd t' 0 4 (fun c => UInt16.ofNat (e c)) →
        Runs (cfor 0 4 (v.setIfInBounds n q) fun k v => do
            let x ← rd t' k
            let ri ← at' v n
            let ri ← wr ri (4 * i + k) (i16 (((UInt32.ofNat (x.toNat &&& 0x3ff) * 3329 + 512) >>> 10).toNat))
            put' v n ri)
          (fun m' => ∃ q', m' = v.setIfInBounds n q' ∧ r.Upd q' 0 (4 * i + 4) (fun i => i16 ((dval 10 (decNum 10 (fun k => B.getD k 0) i) : Nat) : Int))) := by
      intro e he t' ht'
      refine runs_cfor (fun c (m : Polyvec) => ∃ q', m = v.setIfInBounds n q' ∧ r.Upd q' 0 (4 * i + c) (fun i => i16 ((dval 10 (decNum 10 (fun k => B.getD k 0) i) : Nat) : Int)))
        (Nat.zero_le _) ⟨q, rfl, hu⟩ ?_
      rintro c m _ hc ⟨q', rfl, hq'⟩
      have hm : (UInt16.ofNat (e c)).toNat &&& 0x3ff = e c % 2 ^ 10 := toNat_ofNat16_and (k := 10) (by omega)
      simp only [runs_bind]
      rw [runs_rd_of (ht'.has.get0 hc), hm, dec_block (d := 10) (w := 5) (v := 4) (by rfl) (fun k => B.getD k 0) i c]
      · rw [dword 9 _ (by omega) (bitsVal_lt 10 _) 10 512 rfl rfl, runs_at]
        refine ⟨q', arr_set_self hn, ?_⟩
        refine runs_wr_next hq' (by omega) (by omega) ?_ fun q'' hq'' => ?_
        · rfl
        · rw [runs_put]
          refine ⟨by simpa using hn, q'', ?_, hq''⟩
          simp
      · exact he c hc
    simp only [runs_bind]
    rw [hoff]
    have h0 := Mem.Upd.refl t 0 (fun c => UInt16.ofNat ([
      ((B.getD (5 * i + 0) 0).toNat >>> 0) ||| ((B.getD (5 * i + 1) 0).toNat <<< 8),
      ((B.getD (5 * i + 1) 0).toNat >>> 2) ||| ((B.getD (5 * i + 2) 0).toNat <<< 6),
      ((B.getD (5 * i + 2) 0).toNat >>> 4) ||| ((B.getD (5 * i + 3) 0).toNat <<< 4),
      ((B.getD (5 * i + 3) 0).toNat >>> 6) ||| ((B.getD (5 * i + 4) 0).toNat <<< 2)].getD c 0))
    rw [runs_rd_of (g 0 (by omega)), runs_rd_of (g 1 (by omega))]
    refine runs_wr_next h0 rfl (by omega) rfl fun t1 h1 => ?_
    rw [runs_rd_of (g 1 (by omega)), runs_rd_of (g 2 (by omega))]
    refine runs_wr_next h1 rfl (by omega) rfl fun t2 h2 => ?_
    rw [runs_rd_of (g 2 (by omega)), runs_rd_of (g 3 (by omega))]
    refine runs_wr_next h2 rfl (by omega) rfl fun t3 h3 => ?_
    rw [runs_rd_of (g 3 (by omega)), runs_rd_of (g 4 (by omega))]
    refine runs_wr_next h3 rfl (by omega) rfl fun t4 h4 => ?_
    refine (key _ ?_ t4 h4).mono fun m' hm' => ?_
    · intro c hc j hj
      interval_cases c <;> interval_cases j <;> simp [testBit_u8_ge]
    · rw [runs_pure]
      exact ⟨hm', by rw [h4.size, ht]⟩
  · rintro ⟨m, t⟩ ⟨⟨q, hm, hu⟩, ht⟩
    exact ⟨⟨q, hm, PolyR.of_dval (d := 9) (by omega) hr hu (by rfl)⟩, ht⟩

theorem polyvec_decompress_320_runs {p : ParamSet} {r : Polyvec} {a : Mem UInt8} {ao : Nat} {B : List UInt8} (hr : VecSz (KYBER_K p) r)
    (ha : a.Holds ao B) (hB : B.length = 320 * KYBER_K p) :
    Runs (polyvec_decompress_320 p r a ao) (fun r' => VecR (KYBER_K p) r'
      (fun i j => Decompress 10 (ByteDecode 10 (slice B (320 * i) 320) j)) 3328) := by
  unfold polyvec_decompress_320
  generalize KYBER_K p = k at *
  rw [runs_bind]
  refine Runs.mono (runs_vecloop2 (P := fun t : Mem UInt16 => t.size = 4) (B := 3328)
    (g := fun i j => Decompress 10 (ByteDecode 10 (slice B (320 * i) 320) j)) hr.size (by simp) fun i m t hi hm hfr ht => ?_) ?_
  · obtain ⟨q, hq, hqs⟩ := hr.get i hi
    have hle : 320 * i + 320 ≤ B.length := by omega
    exact poly_decompress_320_block (by rw [hfr i (Nat.le_refl _), hq]) hqs (ha.slice (320 * i) 320 hle) (length_slice hle) ht _
      (fun j => by unfold KYBER_N; omega)
  · rintro ⟨r', t⟩ ⟨h, _⟩
    rw [runs_pure]
    exact h

end Verif.Proof
