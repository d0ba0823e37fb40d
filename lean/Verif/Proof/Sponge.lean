import Verif.Proof.KBits

/-! # Absorbing and squeezing bytes -/

namespace Verif.Proof
open Verif.Model Verif.Spec

/-- The bytes `L` xored into `B` from position `pos` on. -/
def xorBytes (B : List UInt8) (pos : Nat) (L : List UInt8) : List UInt8 :=
  (List.range B.length).map fun j => B.getD j 0 ^^^ (if pos ≤ j then L.getD (j - pos) 0 else 0)

theorem xorBytes_length (B : List UInt8) (pos : Nat) (L : List UInt8) : (xorBytes B pos L).length = B.length := by simp [xorBytes]

theorem xorBytes_getD (B : List UInt8) (pos : Nat) (L : List UInt8) {j : Nat} (h : j < B.length) :
    (xorBytes B pos L).getD j 0 = B.getD j 0 ^^^ (if pos ≤ j then L.getD (j - pos) 0 else 0) := by simp [xorBytes, h]

theorem ext_getD {B B' : List UInt8} (hl : B.length = B'.length) (h : ∀ j, j < B.length → B.getD j 0 = B'.getD j 0) : B = B' := by
  apply List.ext_getElem hl
  intro i h1 h2
  simpa [List.getD_eq_getElem?_getD, h1, h2] using h i h1

theorem xorBytes_nil (B : List UInt8) (pos : Nat) : xorBytes B pos [] = B := by
  apply ext_getD (xorBytes_length _ _ _)
  intro j hj
  rw [xorBytes_length] at hj
  rw [xorBytes_getD _ _ _ hj]; simp

theorem xorBytes_append (B : List UInt8) (pos : Nat) (L L' : List UInt8) :
    xorBytes (xorBytes B pos L) (pos + L.length) L' = xorBytes B pos (L ++ L') := by
  apply ext_getD (by simp only [xorBytes_length])
  intro j hj
  rw [xorBytes_length, xorBytes_length] at hj
  rw [xorBytes_getD _ _ _ (by rw [xorBytes_length]; exact hj), xorBytes_getD _ _ _ hj, xorBytes_getD _ _ _ hj, UInt8.xor_assoc]
  congr 1
  by_cases h1 : pos ≤ j
  · by_cases h2 : pos + L.length ≤ j
    · rw [if_pos h1, if_pos h2, if_pos h1, getD_ge (by omega), getD_app_right (by omega), UInt8.zero_xor]
      congr 1; omega
    · rw [if_pos h1, if_neg h2, if_pos h1, getD_app_left (by omega), UInt8.xor_zero]
  · rw [if_neg h1, if_neg (by omega), if_neg h1, UInt8.xor_zero]

theorem xorBytes_bits (B : List UInt8) (pos : Nat) (L : List UInt8) {k : Nat} (h : k < 8 * B.length) :
    BytesToBits (xorBytes B pos L) k = xor (BytesToBits B k) (if 8 * pos ≤ k then BytesToBits L (k - 8 * pos) else false) := by
  simp only [bytesToBits]
  rw [xorBytes_getD _ _ _ (by omega), UInt8.toNat_xor, Nat.testBit_xor]
  congr 1
  by_cases hp : pos ≤ k / 8
  · rw [if_pos hp, if_pos (by omega), show (k - 8 * pos) / 8 = k / 8 - pos from by omega, show (k - 8 * pos) % 8 = k % 8 from by omega]
  · rw [if_neg hp, if_neg (by omega)]; simp

theorem bit_byteAt (b : UInt8) (k : Nat) (hk : k < 8) (z : Fin 64) :
    bit (byteAt b k) z = if 8 * k ≤ z.val then b.toNat.testBit (z.val - 8 * k) else false := by
  unfold bit byteAt
  have e : ((UInt64.ofNat (8 * k)).toBitVec % 64).toNat = 8 * k := by
    have : (UInt64.ofNat (8 * k) % 64).toNat = 8 * k := by simp; omega
    exact this
  rw [UInt64.toBitVec_shiftLeft]
  simp only [BitVec.shiftLeft_eq', BitVec.getLsbD_shiftLeft]
  rw [e]
  have hz := z.isLt
  by_cases h : 8 * k ≤ z.val
  · rw [if_pos h]
    have : b.toUInt64.toBitVec.getLsbD (z.val - 8 * k) = b.toUInt64.toNat.testBit (z.val - 8 * k) := rfl
    rw [this, UInt8.toNat_toUInt64]
    simp [show ¬ z.val < 8 * k from by omega]
  · simp [h]

theorem testBit_byteOf (u : UInt64) (k : Nat) (hk : k < 8) (j : Nat) (hj : j < 8) :
    (byteOf u k).toNat.testBit j = bit u ⟨8 * k + j, by omega⟩ := by
  unfold bit byteOf
  have e : (UInt64.ofNat (8 * k)).toNat % 64 = 8 * k := by simp; omega
  rw [UInt64.toNat_toUInt8, UInt64.toNat_shiftRight, e, Nat.testBit_mod_two_pow, Nat.testBit_shiftRight]
  simp [hj]
  rfl

theorem RB.length {s : Mem UInt64} {B : List UInt8} (h : RB s B) : B.length = 200 := h.2.1

/-- Xor of a word into one lane. -/
theorem RB.xorLane {s : Mem UInt64} {B B' : List UInt8} {i : Nat} {v w : UInt64} (h : RB s B) (hi : i < 25)
    (hv : s[i]? = some (some v)) (hB' : B'.length = 200)
    (hb : ∀ z : Fin 64, BytesToBits B' (64 * i + z.val) = xor (BytesToBits B (64 * i + z.val)) (bit w z))
    (hf : ∀ k, k < 1600 → k / 64 ≠ i → BytesToBits B' k = BytesToBits B k) :
    RB (s.setIfInBounds i (some (v ^^^ w))) B' := by
  refine ⟨by simp [h.1], hB', fun j hj => ?_⟩
  rw [Mem.get?_set (by rw [h.1]; exact hi)]
  by_cases e : i = j
  · subst e
    refine ⟨v ^^^ w, by simp, fun z => ?_⟩
    obtain ⟨v', hv', hb'⟩ := h.2.2 i hi
    rw [hv] at hv'
    obtain rfl : v = v' := by simpa using hv'
    rw [bit_xor, hb', hb]
  · obtain ⟨v', hv', hb'⟩ := h.2.2 j hj
    refine ⟨v', by rw [if_neg e, hv'], fun z => ?_⟩
    rw [hb', hf _ (by omega) (by omega)]

theorem bytesToBits_single (b : UInt8) (k : Nat) : BytesToBits [b] k = if k < 8 then b.toNat.testBit k else false := by
  rw [bytesToBits]
  by_cases h : k < 8
  · rw [if_pos h, show k / 8 = 0 from by omega, show k % 8 = k from by omega]; rfl
  · rw [if_neg h, getD_ge (by simp; omega)]; simp

theorem xorByte_runs {s : Mem UInt64} {B : List UInt8} (h : RB s B) {i : Nat} (hi : i < 200) (b : UInt8) :
    Runs (xorByte s i b) (fun s' => RB s' (xorBytes B i [b])) := by
  have hl := h.length
  unfold xorByte
  obtain ⟨v, hv, hb⟩ := h.2.2 (i / 8) (by omega)
  rw [runs_bind, runs_rd_of hv, runs_wr]
  refine ⟨by rw [h.1]; omega, h.xorLane (by omega) hv (by rw [xorBytes_length, hl]) (fun z => ?_) (fun k hk hne => ?_)⟩
  · rw [xorBytes_bits _ _ _ (by omega), bit_byteAt _ _ (by omega)]
    congr 1
    by_cases h1 : 8 * i ≤ 64 * (i / 8) + z.val
    · rw [if_pos h1, if_pos (by omega), bytesToBits_single, show 64 * (i / 8) + z.val - 8 * i = z.val - 8 * (i % 8) from by omega]
      split
      · rfl
      · rw [testBit_u8_ge _ _ (by omega)]
    · rw [if_neg h1, if_neg (by omega)]
  · rw [xorBytes_bits _ _ _ (by omega)]
    by_cases h1 : 8 * i ≤ k
    · rw [if_pos h1, bytesToBits_single, if_neg (by omega), Bool.xor_false]
    · rw [if_neg h1, Bool.xor_false]

/-- The byte loop `for(i = lo; i < hi; i++) s[i/8] ^= in[...] << 8*(i%8)`. -/
theorem xorLoop_runs {s : Mem UInt64} {B : List UInt8} (h : RB s B) {inp : Mem UInt8} {io pos : Nat} {L : List UInt8}
    (hin : inp.Holds io L) (hp : pos + L.length ≤ 200) {body : Nat → Mem UInt64 → C (Mem UInt64)}
    (hbody : ∀ i s, body i s = (do let b ← rd inp (io + (i - pos)); xorByte s i b)) :
    Runs (cfor pos (pos + L.length) s body) (fun s' => RB s' (xorBytes B pos L)) := by
  refine (runs_cfor (fun i s => RB s (xorBytes B pos (L.take (i - pos)))) (by omega) ?_ ?_).mono ?_
  · simpa [xorBytes_nil] using h
  · intro i s h1 h2 hs
    rw [hbody, runs_bind, runs_rd_of (hin (i - pos) (by omega))]
    refine (xorByte_runs hs (i := i) (by omega) _).mono fun s' hs' => ?_
    have := xorBytes_append B pos (L.take (i - pos)) [L[i - pos]'(by omega)]
    rw [List.length_take, show pos + min (i - pos) L.length = i from by omega] at this
    rw [this, List.take_append_getElem, show i - pos + 1 = i + 1 - pos from by omega] at hs'
    exact hs'
  · intro s hs
    rwa [show pos + L.length - pos = L.length from by omega, List.take_length] at hs

theorem keccak_init_runs {s : Mem UInt64} (h : s.size = 25) : Runs (keccak_init s) (fun s' => RB s' (List.replicate 200 0)) := by
  unfold keccak_init
  refine (runs_fill1 (o := 0) (n := 25) (f := fun _ => (0 : UInt64)) fun i m' hi hu => ?_).mono fun s' hs' => ?_
  · rw [Nat.zero_add]; exact runs_wr_upd (by rw [hu.size, h]; exact hi)
  · refine ⟨by rw [hs'.size, h], List.length_replicate, fun i hi => ⟨0, hs'.has.get0 hi, fun z => ?_⟩⟩
    rw [← h2b_getD, h2b_zero, List.getD_eq_getElem?_getD, List.getElem?_replicate]
    have : bit 0 z = false := by simp [bit]
    rw [this]
    split <;> rfl

/-! ## Absorbing as a byte stream -/

/-- Absorb one byte: xor it in at the current position; when the block is full, permute. -/
def absStep (r : Nat) (st : List UInt8 × Nat) (b : UInt8) : List UInt8 × Nat :=
  if st.2 + 1 = r then (KF (xorBytes st.1 st.2 [b]), 0) else (xorBytes st.1 st.2 [b], st.2 + 1)

/-- Absorb a byte string. -/
def absorbS (r : Nat) (st : List UInt8 × Nat) (M : List UInt8) : List UInt8 × Nat := M.foldl (absStep r) st

theorem absorbS_append (r : Nat) (st : List UInt8 × Nat) (M N : List UInt8) : absorbS r st (M ++ N) = absorbS r (absorbS r st M) N := by
  unfold absorbS; rw [List.foldl_append]

theorem absorbS_lt (r : Nat) : ∀ (M : List UInt8) (B : List UInt8) (pos : Nat), pos + M.length < r →
    absorbS r (B, pos) M = (xorBytes B pos M, pos + M.length)
  | [], B, pos, _ => by simp [absorbS, xorBytes_nil]
  | b :: M, B, pos, h => by
    simp only [List.length_cons] at h
    have := absorbS_lt r M (xorBytes B pos [b]) (pos + 1) (by omega)
    have e := xorBytes_append B pos [b] M
    unfold absorbS at this ⊢
    rw [List.foldl_cons, absStep, if_neg (by dsimp only; omega)]
    dsimp only
    rw [this, show pos + 1 = pos + [b].length from rfl, e]
    simp; omega

theorem absorbS_full (r : Nat) (M : List UInt8) (B : List UInt8) (pos : Nat) (h : pos + M.length = r) (hp : pos < r) :
    absorbS r (B, pos) M = (KF (xorBytes B pos M), 0) := by
  have hM : M ≠ [] := by rintro rfl; simp at h; omega
  obtain ⟨N, b, rfl⟩ : ∃ N b, M = N ++ [b] := ⟨M.dropLast, M.getLast hM, (List.dropLast_append_getLast hM).symm⟩
  simp only [List.length_append, List.length_cons, List.length_nil] at h
  rw [absorbS_append, absorbS_lt r N B pos (by omega)]
  unfold absorbS
  rw [List.foldl_cons, List.foldl_nil, absStep, if_pos (by dsimp only; omega)]
  dsimp only
  rw [xorBytes_append]

theorem absorbS_pos_lt (r : Nat) (hr : 0 < r) (M : List UInt8) (st : List UInt8 × Nat) (h : st.2 < r) : (absorbS r st M).2 < r := by
  induction M generalizing st with
  | nil => exact h
  | cons b M ih =>
    unfold absorbS; rw [List.foldl_cons]
    apply ih
    unfold absStep
    split
    · exact hr
    · dsimp only; omega

theorem keccak_absorb_runs {s : Mem UInt64} {B : List UInt8} {pos r : Nat} {inp : Mem UInt8} {io inlen : Nat} {M : List UInt8}
    (h : RB s B) (hp : pos < r) (hr : r ≤ 200) (hM : inp.Holds io M) (hn : M.length = inlen) (hlt : inlen + r < 2 ^ 64) :
    Runs (keccak_absorb s pos r inp io inlen) (fun v => RB v.1 (absorbS r (B, pos) M).1 ∧ v.2 = (absorbS r (B, pos) M).2) := by
  subst hn
  unfold keccak_absorb
  rw [runs_bind]
  refine (runs_cwhile_measure (fun (st : Mem UInt64 × Nat × Nat × Nat) => ∃ k, k ≤ M.length ∧ st.2.2.1 = io + k ∧ st.2.2.2 = M.length - k ∧
      st.2.1 < r ∧ RB st.1 (absorbS r (B, pos) (M.take k)).1 ∧ st.2.1 = (absorbS r (B, pos) (M.take k)).2)
    (fun st => st.2.2.2) (by dsimp only; omega) ?_ ?_).mono ?_
  · exact ⟨0, by omega, rfl, rfl, hp, h, rfl⟩
  · rintro ⟨s, p, o, n⟩ ⟨k, hk, ho, hnn, hpr, hs, hpos⟩ hc
    dsimp only at *
    subst ho hnn
    rw [decide_eq_true_eq, Nat.mod_eq_of_lt (by omega)] at hc
    rw [runs_bind]
    have hw : (slice M k (r - p)).length = r - p := length_slice (by omega)
    have := xorLoop_runs hs (inp := inp) (io := io + k) (pos := p) (L := slice M k (r - p)) (hM.slice _ _ (by omega)) (by omega)
      (body := fun i s => do let b ← rd inp (io + k + (i - p)); xorByte s i b) (fun _ _ => rfl)
    rw [hw, show p + (r - p) = r from by omega] at this
    refine this.mono fun s1 hs1 => ?_
    rw [runs_bind]
    refine (permute_runs hs1).mono fun s2 hs2 => ?_
    have e : M.take (k + (r - p)) = M.take k ++ slice M k (r - p) := by unfold slice; rw [← List.take_add]
    have e2 : absorbS r (B, pos) (M.take (k + (r - p))) = (KF (xorBytes (absorbS r (B, pos) (M.take k)).1 p (slice M k (r - p))), 0) := by
      rw [e, absorbS_append]
      have := absorbS_full r (slice M k (r - p)) (absorbS r (B, pos) (M.take k)).1 (absorbS r (B, pos) (M.take k)).2 (by rw [hw]; omega) (by omega)
      rw [← hpos] at this
      rw [show absorbS r (B, pos) (M.take k) = ((absorbS r (B, pos) (M.take k)).1, p) from by rw [hpos]]
      exact this
    rw [runs_pure]
    refine ⟨⟨k + (r - p), by omega, by dsimp only; omega, by dsimp only; omega, by dsimp only; omega, ?_, ?_⟩, by dsimp only; omega⟩
    · rw [e2]; exact hs2
    · rw [e2]
  · rintro ⟨s, p, o, n⟩ ⟨⟨k, hk, ho, hnn, hpr, hs, hpos⟩, hc⟩
    dsimp only at *
    subst ho hnn
    rw [decide_eq_false_iff_not, Nat.mod_eq_of_lt (by omega)] at hc
    have hw : (M.drop k).length = M.length - k := by simp
    have hd : inp.Holds (io + k) (M.drop k) := by
      have := hM.slice k (M.length - k) (by omega)
      unfold slice at this
      rwa [List.take_of_length_le (by simp)] at this
    have := xorLoop_runs hs (inp := inp) (io := io + k) (pos := p) (L := M.drop k) hd (by omega)
      (body := fun i s => do let b ← rd inp (io + k + (i - p)); xorByte s i b) (fun _ _ => rfl)
    rw [hw] at this
    rw [runs_bind]
    refine this.mono fun s1 hs1 => ?_
    have e2 : absorbS r (B, pos) M = (xorBytes (absorbS r (B, pos) (M.take k)).1 p (M.drop k), p + (M.drop k).length) := by
      conv => lhs; rw [← List.take_append_drop k M, absorbS_append]
      have := absorbS_lt r (M.drop k) (absorbS r (B, pos) (M.take k)).1 p (by omega)
      rw [show absorbS r (B, pos) (M.take k) = ((absorbS r (B, pos) (M.take k)).1, p) from by rw [hpos]]
      exact this
    rw [runs_pure, e2]
    exact ⟨hs1, by rw [hw]⟩

end Verif.Proof
