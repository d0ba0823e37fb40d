import Verif.Avx.Keccak4Proof
import Verif.Avx.Fips202x4
import Verif.Proof.Shake

/-! # The four-way SHAKE functions -/

namespace Verif.Avx
open Verif.Model Verif.Spec Verif.Proof

theorem runs_rdJunk {junk : Nat → UInt8} {m : Mem UInt8} {i : Nat} (h : i < m.size) :
    Runs (rdJunk junk m i) (fun b => ∀ v, m[i]? = some (some v) → b = v) := by
  unfold rdJunk
  rw [Array.getElem?_eq_getElem h]
  cases m[i] with
  | none => rw [runs_bind, runs_leak, runs_pure]; intro v hv; simp at hv
  | some w => rw [runs_bind, runs_leak, runs_pure]; intro v hv; simpa using hv

theorem gather64_runs {junk : Nat → UInt8} {x : Mem UInt8} {o : Nat} {L : List UInt8} (h : x.Holds o L) (hs : o + 8 ≤ x.size) (hl : L.length ≤ 8) :
    Runs (gather64 junk x o) (fun w => ∀ z : Fin 64, z.val < 8 * L.length → bit w z = BytesToBits L z.val) := by
  unfold gather64
  refine (runs_cfor (fun i (w : UInt64) => ∀ z : Fin 64, z.val < 8 * L.length → bit w z = (decide (z.val < 8 * i) && BytesToBits L z.val)) (by omega) ?_ ?_).mono ?_
  · intro z _; simp [bit]
  · intro i w _ hi hw
    rw [runs_bind]
    refine (runs_rdJunk (by omega)).mono fun b hb => ?_
    rw [runs_pure]
    intro z hz
    rw [bit_or, hw z hz, bit_byteAt _ _ hi]
    by_cases h1 : z.val < 8 * i
    · simp [h1, show z.val < 8 * (i + 1) from by omega, show ¬ 8 * i ≤ z.val from by omega]
    · rw [if_pos (by omega)]
      by_cases h2 : z.val < 8 * (i + 1)
      · have hiL : i < L.length := by omega
        rw [hb _ (h i hiL), bytesToBits, show z.val / 8 = i from by omega, show z.val % 8 = z.val - 8 * i from by omega]
        simp [h1, h2, List.getD_eq_getElem?_getD, hiL]
      · rw [testBit_u8_ge _ _ (by omega)]; simp [h1, h2]
  · intro w hw z hz
    rw [hw z hz]; simp

theorem gather_runs {junk : Fin 4 → Nat → UInt8} {x : M4} {o n : Nat} {L : Fin 4 → List UInt8} (h : ∀ j, (x j).Holds o (L j)) (hs : ∀ j, o + 8 ≤ (x j).size)
    (hl : ∀ j, (L j).length = n) (hn : n ≤ 8) :
    Runs (gather junk x o) (fun w => ∀ j, ∀ z : Fin 64, z.val < 8 * n → bit (w j) z = BytesToBits (L j) z.val) := by
  unfold gather
  have g := fun j => gather64_runs (junk := junk j) (h j) (hs j) (by rw [hl j]; exact hn)
  rw [runs_bind]; refine (g 0).mono fun w0 h0 => ?_
  rw [runs_bind]; refine (g 1).mono fun w1 h1 => ?_
  rw [runs_bind]; refine (g 2).mono fun w2 h2 => ?_
  rw [runs_bind]; refine (g 3).mono fun w3 h3 => ?_
  rw [runs_pure]
  intro j z hz
  rw [← hl j] at hz
  match j with
  | 0 => exact h0 z hz
  | 1 => exact h1 z hz
  | 2 => exact h2 z hz
  | 3 => exact h3 z hz

theorem projM_set (j : Fin 4) (s : Mem V4) (i : Nat) (v : V4) : projM j (s.setIfInBounds i (some v)) = (projM j s).setIfInBounds i (some (v j)) := by
  unfold projM
  rw [Array.map_setIfInBounds]; rfl

theorem RB4.size {s : Mem V4} {B : Fin 4 → List UInt8} (h : RB4 s B) : s.size = 25 := by rw [← projM_size 0]; exact (h 0).1

theorem RB4.get {s : Mem V4} {B : Fin 4 → List UInt8} (h : RB4 s B) {i : Nat} (hi : i < 25) : ∃ v, s[i]? = some (some v) := by
  obtain ⟨v, hv, _⟩ := (h 0).2.2 i hi
  obtain ⟨w, hw, _⟩ := projM_some hv
  exact ⟨w, hw⟩

theorem projM_of {s : Mem V4} {i : Nat} {v : V4} (h : s[i]? = some (some v)) (j : Fin 4) : (projM j s)[i]? = some (some (v j)) := by
  rw [projM_get, h]; rfl

/-- Xor of a string of at most 8 bytes into the four states at byte `8 i`. -/
theorem RB4.xorLane {s : Mem V4} {B L : Fin 4 → List UInt8} {i : Nat} {v t : V4} (h : RB4 s B) (hi : i < 25) (hv : s[i]? = some (some v))
    (hl : ∀ j, (L j).length ≤ 8) (ht : ∀ j (z : Fin 64), bit (t j) z = BytesToBits (L j) z.val) :
    RB4 (s.setIfInBounds i (some (XOR256 v t))) (fun j => xorBytes (B j) (8 * i) (L j)) := by
  intro j
  have hB := (h j).length
  have hlj := hl j
  rw [projM_set]
  refine (h j).xorLane hi (projM_of hv j) (by rw [xorBytes_length, hB]) (fun z => ?_) (fun k hk hne => ?_)
  · rw [xorBytes_bits _ _ _ (by omega), ht, if_pos (by omega)]
    congr 2; omega
  · rw [xorBytes_bits _ _ _ (by omega)]
    by_cases h1 : 8 * (8 * i) ≤ k
    · rw [if_pos h1, bytesToBits_ge (L j) _ (by omega), Bool.xor_false]
    · rw [if_neg h1, Bool.xor_false]

/-- Xor of one byte into the four states. -/
theorem RB4.xorByte {s : Mem V4} {B : Fin 4 → List UInt8} {i : Nat} {v : V4} (h : RB4 s B) (hi : i < 200) (b : UInt8) (hv : s[i / 8]? = some (some v)) :
    RB4 (s.setIfInBounds (i / 8) (some (XOR256 v (set1_epi64x (byteAt b (i % 8)))))) (fun j => xorBytes (B j) i [b]) := by
  intro j
  have := xorByte_runs (h j) hi b
  unfold Model.xorByte at this
  rw [runs_bind, runs_rd_of (projM_of hv j), runs_wr] at this
  rw [projM_set]
  exact this.2

theorem xorLanes4_runs {junk : Fin 4 → Nat → UInt8} {s : Mem V4} {B : Fin 4 → List UInt8} (h : RB4 s B) {x : M4} {pos n : Nat} {L : Fin 4 → List UInt8}
    (hL : ∀ j, (x j).Holds pos (L j)) (hl : ∀ j, (L j).length = 8 * n) (hs : ∀ j, pos + 8 * n ≤ (x j).size) (hn : n ≤ 25) :
    Runs (xorLanes4 junk s x pos n) (fun s' => RB4 s' (fun j => xorBytes (B j) 0 (L j))) := by
  unfold xorLanes4
  refine (runs_cfor (fun i s => RB4 s (fun j => xorBytes (B j) 0 ((L j).take (8 * i)))) (by omega) ?_ ?_).mono ?_
  · simpa [xorBytes_nil] using h
  · intro i s _ hi hs'
    rw [runs_bind]
    have hsl : ∀ j, (slice (L j) (8 * i) 8).length = 8 := fun j => length_slice (by rw [hl j]; omega)
    refine (gather_runs (fun j => (hL j).slice (8 * i) 8 (by rw [hl j]; omega)) (fun j => by have := hs j; omega) hsl (by omega)).mono fun t ht => ?_
    obtain ⟨v, hv⟩ := hs'.get (i := i) (by omega)
    rw [runs_bind, runs_rd_of hv, runs_wr]
    refine ⟨by rw [hs'.size]; omega, ?_⟩
    have := hs'.xorLane (L := fun j => slice (L j) (8 * i) 8) (i := i) (t := t) (by omega) hv (fun j => by rw [hsl j]) (fun j z => ht j z (by omega))
    intro j
    have e := xorBytes_append (B j) 0 ((L j).take (8 * i)) (slice (L j) (8 * i) 8)
    rw [List.length_take, hl j, show 0 + min (8 * i) (8 * n) = 8 * i from by omega] at e
    have t := this j
    dsimp only at t
    rw [e] at t
    dsimp only
    rw [show 8 * (i + 1) = 8 * i + 8 from by omega, List.take_add]
    exact t
  · intro s hs' j
    have := hs' j
    dsimp only at this ⊢
    rwa [← hl j, List.take_length] at this

theorem bit_and (a b : UInt64) (z : Fin 64) : bit (a &&& b) z = (bit a z && bit b z) := by simp [bit]

theorem bit_mask : ∀ n : Fin 8, ∀ z : Fin 64, bit (((1 : UInt64) <<< UInt64.ofNat (8 * n.val)) - 1) z = decide (z.val < 8 * n.val) := by decide +kernel

/-- The number of bytes that absorbing an input of `n` bytes reads: `n` rounded up to whole words. -/
def gathered (n : Nat) : Nat := (n + 7) / 8 * 8

theorem keccakx4_absorb_once_runs {junk : Fin 4 → Nat → UInt8} {s : Mem V4} {r : Nat} {x : M4} {inlen : Nat} {M : Fin 4 → List UInt8} (p : UInt8)
    (h : s.size = 25) (hr0 : 0 < r) (hr : r ≤ 200) (h8 : r % 8 = 0) (hM : ∀ j, (x j).Holds 0 (M j)) (hn : ∀ j, (M j).length = inlen)
    (hx : ∀ j, gathered inlen ≤ (x j).size) :
    Runs (keccakx4_absorb_once junk s r x inlen p) (fun s' => RB4 s' (fun j => padded r p (M j))) := by
  unfold keccakx4_absorb_once
  unfold gathered at hx
  rw [runs_bind]
  have hinit : Runs (cfor 0 25 s fun i s => wr s i (set1_epi64x 0)) (fun s' => RB4 s' fun _ => List.replicate 200 0) := by
    refine (runs_fill1 (o := 0) (n := 25) (f := fun _ => set1_epi64x 0) fun i m' hi hu => ?_).mono fun s' hs' j => ?_
    · rw [Nat.zero_add]; exact runs_wr_upd (by rw [hu.size, h]; exact hi)
    · refine ⟨by rw [projM_size, hs'.size, h], List.length_replicate, fun i hi => ⟨0, projM_of (hs'.has.get0 hi) j, fun z => ?_⟩⟩
      rw [← h2b_getD, h2b_zero, List.getD_eq_getElem?_getD, List.getElem?_replicate]
      have : bit 0 z = false := by simp [bit]
      rw [this]
      split <;> rfl
  refine hinit.mono fun s0 hs0 => ?_
  rw [runs_bind]
  generalize hZ : List.replicate 200 (0 : UInt8) = Z at hs0
  refine (runs_cwhile_measure (fun (st : Mem V4 × Nat × Nat) => ∃ k, k ≤ inlen ∧ k % 8 = 0 ∧ st.2.1 = k ∧ st.2.2 = inlen - k ∧
      RB4 st.1 (fun j => (absorbS r (Z, 0) ((M j).take k)).1) ∧ ∀ j, 0 = (absorbS r (Z, 0) ((M j).take k)).2)
    (fun st => st.2.2) (by dsimp only; omega) ?_ ?_).mono ?_
  · exact ⟨0, by omega, rfl, rfl, rfl, hs0, fun _ => rfl⟩
  · rintro ⟨s, o, n⟩ ⟨k, hk, hk8, ho, hnn, hs, hpos⟩ hc
    dsimp only at *
    subst ho hnn
    rw [decide_eq_true_eq] at hc
    rw [runs_bind]
    have hw : ∀ j, (slice (M j) o r).length = r := fun j => length_slice (by rw [hn j]; omega)
    have := xorLanes4_runs (junk := junk) hs (x := x) (pos := o) (n := r / 8) (L := fun j => slice (M j) o r)
      (fun j => by have := (hM j).slice o r (by rw [hn j]; omega); rwa [Nat.zero_add] at this) (fun j => by rw [hw j]; omega) (fun j => by have := hx j; omega) (by omega)
    refine this.mono fun s1 hs1 => ?_
    rw [runs_bind]
    refine (permute4_runs hs1).mono fun s2 hs2 => ?_
    have e2 : ∀ j, absorbS r (Z, 0) ((M j).take (o + r)) = (KF (xorBytes (absorbS r (Z, 0) ((M j).take o)).1 0 (slice (M j) o r)), 0) := by
      intro j
      have e : (M j).take (o + r) = (M j).take o ++ slice (M j) o r := by unfold slice; rw [← List.take_add]
      rw [e, absorbS_append]
      have := absorbS_full r (slice (M j) o r) (absorbS r (Z, 0) ((M j).take o)).1 0 (by rw [hw]; omega) hr0
      rw [show absorbS r (Z, 0) ((M j).take o) = ((absorbS r (Z, 0) ((M j).take o)).1, 0) from Prod.ext rfl (hpos j).symm]
      exact this
    rw [runs_pure]
    refine ⟨⟨o + r, by omega, by omega, by dsimp only; omega, by dsimp only; omega, ?_, ?_⟩, by dsimp only; omega⟩
    · intro j; dsimp only; rw [e2]; exact hs2 j
    · intro j; rw [e2]
  · rintro ⟨s, o, n⟩ ⟨⟨k, hk, hk8, ho, hnn, hs, hpos⟩, hc⟩
    dsimp only at *
    subst ho hnn
    rw [decide_eq_false_iff_not] at hc
    generalize hq : (inlen - o) / 8 = q
    have e2 : ∀ j, absorbS r (Z, 0) (M j) = (xorBytes (absorbS r (Z, 0) ((M j).take o)).1 0 ((M j).drop o), inlen - o) := by
      intro j
      have hw : ((M j).drop o).length = inlen - o := by simp [hn j]
      conv => lhs; rw [← List.take_append_drop o (M j), absorbS_append]
      have := absorbS_lt r ((M j).drop o) (absorbS r (Z, 0) ((M j).take o)).1 0 (by omega)
      rw [show absorbS r (Z, 0) ((M j).take o) = ((absorbS r (Z, 0) ((M j).take o)).1, 0) from Prod.ext rfl (hpos j).symm]
      rw [hw, Nat.zero_add] at this
      exact this
    generalize hBB : (fun j => (absorbS r (Z, 0) ((M j).take o)).1) = BB at hs
    have e3 : ∀ j, absorbS r (Z, 0) (M j) = (xorBytes (BB j) 0 ((M j).drop o), inlen - o) := fun j => by rw [e2 j, ← hBB]
    rw [runs_bind]
    have hw1 : ∀ j, (slice (M j) o (8 * q)).length = 8 * q := fun j => length_slice (by rw [hn j]; omega)
    refine (xorLanes4_runs (junk := junk) hs (x := x) (pos := o) (n := q) (L := fun j => slice (M j) o (8 * q))
      (fun j => by have := (hM j).slice o (8 * q) (by rw [hn j]; omega); rwa [Nat.zero_add] at this) hw1 (fun j => by have := hx j; omega) (by omega)).mono fun s1 hs1 => ?_
    rw [runs_bind]
    generalize hm : inlen - o - 8 * q = m
    have hw2 : ∀ j, (slice (M j) (o + 8 * q) m).length = m := fun j => length_slice (by rw [hn j]; omega)
    have e4 : ∀ j, xorBytes (xorBytes (BB j) 0 (slice (M j) o (8 * q))) (8 * q) (slice (M j) (o + 8 * q) m) = xorBytes (BB j) 0 ((M j).drop o) := by
      intro j
      have := xorBytes_append (BB j) 0 (slice (M j) o (8 * q)) (slice (M j) (o + 8 * q) m)
      rw [hw1 j, Nat.zero_add] at this
      rw [this]
      congr 1
      unfold slice
      rw [← List.drop_drop, ← List.take_add, List.take_of_length_le (by simp [hn j]; omega)]
    have key : Runs (cif (decide (m ≠ 0))
        (do
          let t ← gather junk x (o + 8 * q)
          let v ← rd s1 q
          wr s1 q (XOR256 v (AND256 t (set1_epi64x (((1 : UInt64) <<< UInt64.ofNat (8 * m)) - 1)))))
        (pure s1)) (fun s2 => RB4 s2 (fun j => xorBytes (BB j) 0 ((M j).drop o))) := by
      rw [runs_cif]
      constructor
      · intro hm0
        rw [decide_eq_true_eq] at hm0
        rw [runs_bind]
        refine (gather_runs (n := m) (L := fun j => slice (M j) (o + 8 * q) m)
          (fun j => by have := (hM j).slice (o + 8 * q) m (by rw [hn j]; omega); rwa [Nat.zero_add] at this)
          (fun j => by have := hx j; omega) hw2 (by omega)).mono fun t ht => ?_
        obtain ⟨v, hv⟩ := hs1.get (i := q) (by omega)
        rw [runs_bind, runs_rd_of hv, runs_wr]
        refine ⟨by rw [hs1.size]; omega, ?_⟩
        have := hs1.xorLane (L := fun j => slice (M j) (o + 8 * q) m) (i := q)
          (t := AND256 t (set1_epi64x (((1 : UInt64) <<< UInt64.ofNat (8 * m)) - 1))) (by omega) hv (fun j => by rw [hw2 j]; omega) ?_
        · intro j
          have t := this j
          dsimp only at t
          rwa [e4 j] at t
        · intro j z
          show bit (t j &&& _) z = _
          rw [bit_and]
          have := bit_mask ⟨m, by omega⟩ z
          dsimp only at this
          rw [set1_epi64x, this]
          by_cases hz : z.val < 8 * m
          · rw [ht j z hz]; simp [hz]
          · rw [bytesToBits_ge _ _ (by rw [hw2 j]; omega)]; simp [hz]
      · intro hm0
        rw [decide_eq_false_iff_not] at hm0
        rw [runs_pure]
        intro j
        have hz : m = 0 := by omega
        have := e4 j
        rw [show slice (M j) (o + 8 * q) m = [] from by rw [hz]; simp [slice], xorBytes_nil] at this
        dsimp only
        rw [← this]
        exact hs1 j
    refine key.mono fun s2 hs2 => ?_
    have hiq : (inlen - o) / 8 = q := hq
    have him : (inlen - o) % 8 = m := by omega
    obtain ⟨v, hv⟩ := hs2.get (i := q) (by omega)
    rw [runs_bind, runs_rd_of hv, runs_bind, runs_wr]
    refine ⟨by rw [hs2.size]; omega, ?_⟩
    have hs3 := hs2.xorByte (i := inlen - o) (v := v) (by omega) p (by rw [hiq]; exact hv)
    rw [hiq, him] at hs3
    obtain ⟨v', hv'⟩ := hs3.get (i := r / 8 - 1) (by omega)
    rw [runs_bind, runs_rd_of hv', runs_wr]
    refine ⟨by rw [hs3.size]; omega, ?_⟩
    have hs4 := hs3.xorByte (i := r - 1) (v := v') (by omega) 0x80 (by rw [show (r - 1) / 8 = r / 8 - 1 from by omega]; exact hv')
    rw [show (r - 1) / 8 = r / 8 - 1 from by omega, show (r - 1) % 8 = 7 from by omega, ← top_bit] at hs4
    intro j
    have t := hs4 j
    dsimp only at t
    rw [pad_eq _ _ _ _ (by omega)] at t
    dsimp only
    unfold padded
    rw [hZ, e3]
    exact t

/-! ## Squeezing -/

theorem M4.set_self (out : M4) (k : Fin 4) (m : Mem UInt8) : out.set k m k = m := if_pos rfl
theorem M4.set_ne (out : M4) {k j : Fin 4} (m : Mem UInt8) (h : j ≠ k) : out.set k m j = out j := if_neg h

/-- The bytes of lane `j` of a vector of the state. -/
theorem RB4.bytes {s : Mem V4} {B : Fin 4 → List UInt8} (h : RB4 s B) {i : Nat} {v : V4} (hi : i < 25) (hv : s[i]? = some (some v)) (j : Fin 4) {t : Nat} (ht : t < 8) :
    byteOf (v j) t = (B j).getD (8 * i + t) 0 := by
  obtain ⟨v', hv', hb⟩ := (h j).byte (i := 8 * i + t) (by omega)
  rw [show (8 * i + t) / 8 = i from by omega, projM_of hv j] at hv'
  rw [show (8 * i + t) % 8 = t from by omega] at hb
  rw [← hb]
  congr 1
  simpa using hv'

theorem storeLanes4_runs {s : Mem V4} {B : Fin 4 → List UInt8} (h : RB4 s B) {out : M4} {oo n : Nat} (hn : n ≤ 25) (ho : ∀ j, oo + 8 * n ≤ (out j).size) :
    Runs (cfor 0 n out fun i out => do
        let v ← rd s i
        let o0 ← store64 (out 0) (oo + 8 * i) (v 0)
        let out := out.set 0 o0
        let o1 ← store64 (out 1) (oo + 8 * i) (v 1)
        let out := out.set 1 o1
        let o2 ← store64 (out 2) (oo + 8 * i) (v 2)
        let out := out.set 2 o2
        let o3 ← store64 (out 3) (oo + 8 * i) (v 3)
        pure (out.set 3 o3)) (fun out' => ∀ j, (out j).Wrote (out' j) oo ((B j).take (8 * n))) := by
  refine (runs_cfor (fun i (o : M4) => ∀ j, (out j).Upd (o j) oo (8 * i) (fun t => (B j).getD t 0)) (by omega) ?_ ?_).mono ?_
  · intro j; exact Mem.Upd.refl _ _ _
  · intro i o _ hi ho'
    obtain ⟨v, hv⟩ := h.get (i := i) (by omega)
    rw [runs_bind, runs_rd_of hv]
    have st : ∀ j, ∀ m, m = o j → Runs (store64 m (oo + 8 * i) (v j)) (fun m' => (out j).Upd m' oo (8 * (i + 1)) (fun t => (B j).getD t 0)) := by
      intro j m hm
      subst hm
      refine (store64_runs (v j) (by rw [(ho' j).size]; have := ho j; omega)).mono fun m' hm' => ?_
      have := (ho' j).append (hm'.congr fun t ht => h.bytes (by omega) hv j ht)
      rwa [show 8 * i + 8 = 8 * (i + 1) from by omega] at this
    rw [runs_bind]; refine (st 0 _ rfl).mono fun o0 h0 => ?_
    rw [runs_bind]; refine (st 1 _ (by simp [M4.set])).mono fun o1 h1 => ?_
    rw [runs_bind]; refine (st 2 _ (by simp [M4.set])).mono fun o2 h2 => ?_
    rw [runs_bind]; refine (st 3 _ (by simp [M4.set])).mono fun o3 h3 => ?_
    rw [runs_pure]
    intro j
    match j with
    | 0 => exact h0
    | 1 => exact h1
    | 2 => exact h2
    | 3 => exact h3
  · intro o ho' j
    have hl := (h j).length
    refine (ho' j).wrote_of (by simp; omega) fun i hi => ?_
    simp at hi
    simp [List.getD_eq_getElem?_getD, hi.2]

/-- The four states after `m` permutations. -/
def Sq4 (B0 : Fin 4 → List UInt8) (m : Nat) (s : Mem V4) : Prop := RB4 s (fun j => KF^[m] (B0 j))

theorem keccakx4_squeezeblocks_runs {out : M4} {oo nblocks : Nat} {s : Mem V4} {r m : Nat} {B0 : Fin 4 → List UInt8}
    (h : Sq4 B0 m s) (hr0 : 0 < r) (hr : r ≤ 200) (h8 : r % 8 = 0) (ho : ∀ j, oo + nblocks * r ≤ (out j).size) :
    Runs (keccakx4_squeezeblocks out oo nblocks r s)
      (fun v => (∀ j, (out j).Wrote (v.1 j) oo (kout r (B0 j) (m * r) (nblocks * r))) ∧ Sq4 B0 (m + nblocks) v.2) := by
  unfold keccakx4_squeezeblocks
  rw [runs_bind]
  refine (runs_cwhile (fun k (st : M4 × Nat × Nat × Mem V4) => k ≤ nblocks ∧ st.2.1 = oo + k * r ∧ st.2.2.1 = nblocks - k ∧
      (∀ j, (out j).Wrote (st.1 j) oo (kout r (B0 j) (m * r) (k * r))) ∧ Sq4 B0 (m + k) st.2.2.2) nblocks (by omega) ?_ ?_ ?_).mono ?_
  · refine ⟨by omega, by simp, by simp, fun j => ?_, by simpa using h⟩
    rw [Nat.zero_mul]; exact Mem.Wrote.nil (out j) oo
  · rintro k ⟨o, p, l, s⟩ hk ⟨hk', hp, hl, hw, hs⟩
    dsimp only at *
    subst hp hl
    refine ⟨by simp; omega, ?_⟩
    rw [runs_bind]
    refine (permute4_runs hs).mono fun s' hs' => ?_
    have hs2 : RB4 s' (fun j => KF^[m + k + 1] (B0 j)) := fun j => by have := hs' j; dsimp only at this; rwa [← Function.iterate_succ_apply' KF] at this
    have hb : k * r + r ≤ nblocks * r := by rw [← Nat.succ_mul]; exact Nat.mul_le_mul_right r hk
    rw [runs_bind]
    refine (storeLanes4_runs hs2 (n := r / 8) (oo := oo + k * r) (by omega) (fun j => by rw [(hw j).size]; have := ho j; omega)).mono fun o' ho' => ?_
    rw [runs_pure]
    have e : ∀ j, (KF^[m + k + 1] (B0 j)).take (8 * (r / 8)) = kout r (B0 j) (m * r + k * r) r := by
      intro j
      rw [show 8 * (r / 8) = r from by omega]
      apply ext_getD
      · have := (hs2 j).length
        dsimp only at this
        rw [kout_length, List.length_take, this]; omega
      · intro t ht
        rw [List.length_take] at ht
        obtain ⟨d3, d4⟩ := div_of (n := m * r + k * r + t) (r := r) (m := m + k + 1) (p := t) (by rw [Nat.succ_mul, Nat.add_mul]; omega) (by omega)
        have : (kout r (B0 j) (m * r + k * r) r).getD t 0 = kstream r (B0 j) (m * r + k * r + t) := by simp [kout, show t < r from by omega]
        rw [this, kstream, d3, d4]
        simp [List.getD_eq_getElem?_getD, show t < r from by omega]
    refine ⟨by omega, by dsimp only; rw [Nat.succ_mul]; omega, by dsimp only; omega, fun j => ?_, hs2⟩
    rw [Nat.succ_mul, kout_add]
    refine (hw j).append ?_
    rw [kout_length, ← e]; exact ho' j
  · rintro ⟨o, p, l, s⟩ ⟨_, _, hl, _⟩
    dsimp only at *
    simp [hl]
  · rintro ⟨o, p, l, s⟩ ⟨_, _, _, hw, hs⟩
    exact ⟨hw, hs⟩

theorem shake128x4_absorb_once_runs {junk : Fin 4 → Nat → UInt8} {s : Mem V4} {x : M4} {inlen : Nat} {M : Fin 4 → List UInt8}
    (h : s.size = 25) (hM : ∀ j, (x j).Holds 0 (M j)) (hn : ∀ j, (M j).length = inlen) (hx : ∀ j, gathered inlen ≤ (x j).size) :
    Runs (shake128x4_absorb_once junk s x inlen) (Sq4 (fun j => padded 168 0x1F (M j)) 0) :=
  keccakx4_absorb_once_runs 0x1F h (by decide) (by decide) (by decide) hM hn hx
theorem shake256x4_absorb_once_runs {junk : Fin 4 → Nat → UInt8} {s : Mem V4} {x : M4} {inlen : Nat} {M : Fin 4 → List UInt8}
    (h : s.size = 25) (hM : ∀ j, (x j).Holds 0 (M j)) (hn : ∀ j, (M j).length = inlen) (hx : ∀ j, gathered inlen ≤ (x j).size) :
    Runs (shake256x4_absorb_once junk s x inlen) (Sq4 (fun j => padded 136 0x1F (M j)) 0) :=
  keccakx4_absorb_once_runs 0x1F h (by decide) (by decide) (by decide) hM hn hx

theorem shake128x4_squeezeblocks_runs {out : M4} {oo nblocks : Nat} {s : Mem V4} {m : Nat} {B0 : Fin 4 → List UInt8} (h : Sq4 B0 m s)
    (ho : ∀ j, oo + nblocks * 168 ≤ (out j).size) : Runs (shake128x4_squeezeblocks out oo nblocks s)
      (fun v => (∀ j, (out j).Wrote (v.1 j) oo (kout 168 (B0 j) (m * 168) (nblocks * 168))) ∧ Sq4 B0 (m + nblocks) v.2) :=
  keccakx4_squeezeblocks_runs h (by decide) (by decide) (by decide) ho
theorem shake256x4_squeezeblocks_runs {out : M4} {oo nblocks : Nat} {s : Mem V4} {m : Nat} {B0 : Fin 4 → List UInt8} (h : Sq4 B0 m s)
    (ho : ∀ j, oo + nblocks * 136 ≤ (out j).size) : Runs (shake256x4_squeezeblocks out oo nblocks s)
      (fun v => (∀ j, (out j).Wrote (v.1 j) oo (kout 136 (B0 j) (m * 136) (nblocks * 136))) ∧ Sq4 B0 (m + nblocks) v.2) :=
  keccakx4_squeezeblocks_runs h (by decide) (by decide) (by decide) ho

/-! ## One call -/

theorem copy4_runs {out t : M4} {oo n : Nat} {L : Fin 4 → List UInt8} (ht : ∀ j, (t j).Holds 0 (L j)) (hl : ∀ j, n ≤ (L j).length) (ho : ∀ j, oo + n ≤ (out j).size) :
    Runs (copy4 out oo t n) (fun o => ∀ j, (out j).Wrote (o j) oo ((L j).take n)) := by
  unfold copy4
  refine (runs_cfor (fun i (o : M4) => ∀ j, (out j).Wrote (o j) oo ((L j).take i)) (by omega) ?_ ?_).mono ?_
  · intro j; rw [List.take_zero]; exact Mem.Wrote.nil _ _
  · intro i o _ hi ho'
    have hL : ∀ j, i < (L j).length := fun j => by have := hl j; omega
    have hr : ∀ j, (t j)[i]? = some (some ((L j)[i]'(hL j))) := fun j => by have := ht j i (hL j); rwa [Nat.zero_add] at this
    have st : ∀ j, ∀ m, m = o j → Runs (wr m (oo + i) ((L j)[i]'(hL j))) (fun m' => (out j).Wrote m' oo ((L j).take (i + 1))) := by
      intro j m hm
      subst hm
      refine (runs_wr_str _ (by rw [(ho' j).size]; have := ho j; omega)).mono fun m' hm' => ?_
      have hlen : ((L j).take i).length = i := by have := hL j; simp; omega
      rw [← List.take_append_getElem (hL j)]
      refine (ho' j).append ?_
      rwa [hlen]
    rw [runs_bind, runs_rd_of (hr 0), runs_bind]; refine (st 0 _ rfl).mono fun o0 h0 => ?_
    rw [runs_bind, runs_rd_of (hr 1), runs_bind]; refine (st 1 _ (by simp [M4.set])).mono fun o1 h1 => ?_
    rw [runs_bind, runs_rd_of (hr 2), runs_bind]; refine (st 2 _ (by simp [M4.set])).mono fun o2 h2 => ?_
    rw [runs_bind, runs_rd_of (hr 3), runs_bind]; refine (st 3 _ (by simp [M4.set])).mono fun o3 h3 => ?_
    rw [runs_pure]
    intro j
    match j with
    | 0 => exact h0
    | 1 => exact h1
    | 2 => exact h2
    | 3 => exact h3
  · intro o ho'; exact ho'

theorem shake128x4_runs {junk : Fin 4 → Nat → UInt8} {out x : M4} {oo outlen inlen : Nat} {M : Fin 4 → List UInt8}
    (hM : ∀ j, (x j).Holds 0 (M j)) (hn : ∀ j, (M j).length = inlen) (hx : ∀ j, gathered inlen ≤ (x j).size) (ho : ∀ j, oo + outlen ≤ (out j).size) :
    Runs (shake128x4 junk out oo outlen x inlen) (fun o => ∀ j, (out j).Wrote (o j) oo (SHAKE128 (M j) outlen)) := by
  have hd : outlen / SHAKE128_RATE * SHAKE128_RATE ≤ outlen := Nat.div_mul_le_self _ _
  have hd2 : outlen - outlen / SHAKE128_RATE * SHAKE128_RATE < 168 := by unfold SHAKE128_RATE; omega
  unfold shake128x4
  dsimp only
  generalize outlen / SHAKE128_RATE = nb at *
  unfold SHAKE128_RATE at *
  rw [runs_bind]
  refine (shake128x4_absorb_once_runs (by simp) hM hn hx).mono fun s hs => ?_
  rw [runs_bind]
  refine (shake128x4_squeezeblocks_runs hs (fun j => by have := ho j; omega)).mono ?_
  rintro ⟨o1, s1⟩ ⟨hw1, hs1⟩
  dsimp only at *
  rw [runs_cif]
  constructor
  · intro hc
    rw [runs_bind]
    refine (shake128x4_squeezeblocks_runs hs1 (fun j => by simp)).mono ?_
    rintro ⟨t, s2⟩ ⟨hw2, _⟩
    dsimp only at *
    refine (copy4_runs (n := outlen - nb * 168) (fun j => (hw2 j).holds) (fun j => by rw [kout_length]; omega)
      (fun j => by rw [(hw1 j).size]; have := ho j; omega)).mono fun o hw3 j => ?_
    rw [SHAKE128_eq, show outlen = nb * 168 + (outlen - nb * 168) from by omega, kout_add]
    rw [Nat.zero_mul] at hw1
    refine (hw1 j).append ?_
    rw [kout_length]
    have e : (kout 168 (padded 168 0x1F (M j)) ((0 + nb) * 168) (1 * 168)).take (outlen - nb * 168) = kout 168 (padded 168 0x1F (M j)) (nb * 168) (outlen - nb * 168) := by
      rw [Nat.zero_add]
      rw [show 1 * 168 = (outlen - nb * 168) + (168 - (outlen - nb * 168)) from by omega, kout_add, List.take_append_of_le_length (by rw [kout_length]), List.take_of_length_le (by rw [kout_length])]
    have := hw3 j
    rw [e] at this
    rw [Nat.zero_add]
    exact this
  · intro hc j
    simp only [ne_eq, decide_not, Bool.not_eq_false', decide_eq_true_eq] at hc
    have e : nb * 168 = outlen := by omega
    have := hw1 j
    rwa [Nat.zero_mul, e, ← SHAKE128_eq] at this

theorem shake256x4_runs {junk : Fin 4 → Nat → UInt8} {out x : M4} {oo outlen inlen : Nat} {M : Fin 4 → List UInt8}
    (hM : ∀ j, (x j).Holds 0 (M j)) (hn : ∀ j, (M j).length = inlen) (hx : ∀ j, gathered inlen ≤ (x j).size) (ho : ∀ j, oo + outlen ≤ (out j).size) :
    Runs (shake256x4 junk out oo outlen x inlen) (fun o => ∀ j, (out j).Wrote (o j) oo (SHAKE256 (M j) outlen)) := by
  have hd : outlen / SHAKE256_RATE * SHAKE256_RATE ≤ outlen := Nat.div_mul_le_self _ _
  have hd2 : outlen - outlen / SHAKE256_RATE * SHAKE256_RATE < 136 := by unfold SHAKE256_RATE; omega
  unfold shake256x4
  dsimp only
  generalize outlen / SHAKE256_RATE = nb at *
  unfold SHAKE256_RATE at *
  rw [runs_bind]
  refine (shake256x4_absorb_once_runs (by simp) hM hn hx).mono fun s hs => ?_
  rw [runs_bind]
  refine (shake256x4_squeezeblocks_runs hs (fun j => by have := ho j; omega)).mono ?_
  rintro ⟨o1, s1⟩ ⟨hw1, hs1⟩
  dsimp only at *
  rw [runs_cif]
  constructor
  · intro hc
    rw [runs_bind]
    refine (shake256x4_squeezeblocks_runs hs1 (fun j => by simp)).mono ?_
    rintro ⟨t, s2⟩ ⟨hw2, _⟩
    dsimp only at *
    refine (copy4_runs (n := outlen - nb * 136) (fun j => (hw2 j).holds) (fun j => by rw [kout_length]; omega)
      (fun j => by rw [(hw1 j).size]; have := ho j; omega)).mono fun o hw3 j => ?_
    rw [SHAKE256_eq, show outlen = nb * 136 + (outlen - nb * 136) from by omega, kout_add]
    rw [Nat.zero_mul] at hw1
    refine (hw1 j).append ?_
    rw [kout_length]
    have e : (kout 136 (padded 136 0x1F (M j)) ((0 + nb) * 136) (1 * 136)).take (outlen - nb * 136) = kout 136 (padded 136 0x1F (M j)) (nb * 136) (outlen - nb * 136) := by
      rw [Nat.zero_add]
      rw [show 1 * 136 = (outlen - nb * 136) + (136 - (outlen - nb * 136)) from by omega, kout_add, List.take_append_of_le_length (by rw [kout_length]), List.take_of_length_le (by rw [kout_length])]
    have := hw3 j
    rw [e] at this
    rw [Nat.zero_add]
    exact this
  · intro hc j
    simp only [ne_eq, decide_not, Bool.not_eq_false', decide_eq_true_eq] at hc
    have e : nb * 136 = outlen := by omega
    have := hw1 j
    rwa [Nat.zero_mul, e, ← SHAKE256_eq] at this

end Verif.Avx
