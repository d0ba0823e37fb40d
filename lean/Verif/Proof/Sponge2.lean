import Verif.Proof.Sponge

/-! # Finalising, one-shot absorbing, squeezing -/

namespace Verif.Proof
open Verif.Model Verif.Spec

/-- The padding bytes that complete a block of `r` bytes from position `pos`. -/
def padB (r pos : Nat) (p : UInt8) : List UInt8 := xorBytes (p :: List.replicate (r - pos - 1) 0) (r - pos - 1) [0x80]

theorem padB_length (r pos : Nat) (p : UInt8) (h : pos < r) : (padB r pos p).length = r - pos := by
  rw [padB, xorBytes_length]; simp; omega

theorem getD_single (b : UInt8) (j : Nat) : [b].getD j 0 = if j = 0 then b else 0 := by
  by_cases h : j = 0
  · subst h; rfl
  · rw [if_neg h, getD_ge (by simp; omega)]

theorem getD_padB (r pos : Nat) (p : UInt8) (h : pos < r) (j : Nat) :
    (padB r pos p).getD j 0 = (if j = 0 then p else 0) ^^^ (if j = r - pos - 1 then 0x80 else 0) := by
  by_cases hj : j < r - pos
  · rw [padB, xorBytes_getD _ _ _ (by simp; omega), getD_single]
    congr 1
    · cases j with
      | zero => rfl
      | succ j => simp [List.getD_eq_getElem?_getD, List.getElem?_replicate]; split <;> rfl
    · by_cases h1 : r - pos - 1 ≤ j
      · rw [if_pos h1, if_pos (by omega), if_pos (by omega)]
      · rw [if_neg h1, if_neg (by omega)]
  · rw [getD_ge (by rw [padB_length _ _ _ h]; omega), if_neg (by omega), if_neg (by omega)]; rfl

theorem pad_eq (B : List UInt8) (r pos : Nat) (p : UInt8) (h : pos < r) :
    xorBytes (xorBytes B pos [p]) (r - 1) [0x80] = xorBytes B pos (padB r pos p) := by
  apply ext_getD (by simp only [xorBytes_length])
  intro j hj
  rw [xorBytes_length, xorBytes_length] at hj
  rw [xorBytes_getD _ _ _ (by rw [xorBytes_length]; exact hj), xorBytes_getD _ _ _ hj, xorBytes_getD _ _ _ hj, UInt8.xor_assoc,
    getD_padB _ _ _ h, getD_single, getD_single]
  congr 1
  by_cases h1 : pos ≤ j
  · rw [if_pos h1, if_pos h1]
    congr 1
    · by_cases h2 : r - 1 ≤ j
      · rw [if_pos h2]
        by_cases h3 : j = r - 1
        · rw [if_pos (by omega), if_pos (by omega)]
        · rw [if_neg (by omega), if_neg (by omega)]
      · rw [if_neg h2, if_neg (by omega)]
  · rw [if_neg h1, if_neg h1, if_neg (by omega)]; rfl

theorem top_bit : ((1 : UInt64) <<< 63) = byteAt 0x80 7 := by decide

theorem keccak_finalize_runs {s : Mem UInt64} {B : List UInt8} {pos r : Nat} (p : UInt8) (h : RB s B) (hp : pos < r) (hr : r ≤ 200) (h8 : r % 8 = 0) :
    Runs (keccak_finalize s pos r p) (fun s' => RB s' (xorBytes B pos (padB r pos p))) := by
  unfold keccak_finalize
  rw [runs_bind]
  refine (xorByte_runs h (i := pos) (by omega) p).mono fun s1 hs1 => ?_
  have := xorByte_runs hs1 (i := r - 1) (by omega) 0x80
  rw [pad_eq _ _ _ _ hp] at this
  unfold xorByte at this
  rwa [show (r - 1) / 8 = r / 8 - 1 from by omega, show (r - 1) % 8 = 7 from by omega, ← top_bit] at this

theorem bit_or (a b : UInt64) (z : Fin 64) : bit (a ||| b) z = (bit a z || bit b z) := by simp [bit]

theorem load64_runs {inp : Mem UInt8} {o : Nat} {L : List UInt8} (h : inp.Holds o L) (hl : L.length = 8) :
    Runs (load64 inp o) (fun w => ∀ z : Fin 64, bit w z = BytesToBits L z.val) := by
  unfold load64
  refine (runs_cfor (fun i (w : UInt64) => ∀ z : Fin 64, bit w z = (decide (z.val < 8 * i) && BytesToBits L z.val)) (by omega) ?_ ?_).mono ?_
  · intro z; simp [bit]
  · intro i w _ hi hw
    rw [runs_bind, runs_rd_of (h i (by omega)), runs_pure]
    intro z
    rw [bit_or, hw, bit_byteAt _ _ hi]
    by_cases h1 : z.val < 8 * i
    · simp [h1, show z.val < 8 * (i + 1) from by omega, show ¬ 8 * i ≤ z.val from by omega]
    · rw [if_pos (by omega)]
      by_cases h2 : z.val < 8 * (i + 1)
      · rw [bytesToBits, show z.val / 8 = i from by omega, show z.val % 8 = z.val - 8 * i from by omega]
        simp [h1, h2, List.getD_eq_getElem?_getD, hl, hi]
      · rw [testBit_u8_ge _ _ (by omega)]; simp [h1, h2]
  · intro w hw z
    rw [hw]; simp

theorem RB.byte {s : Mem UInt64} {B : List UInt8} (h : RB s B) {i : Nat} (hi : i < 200) :
    ∃ v, s[i / 8]? = some (some v) ∧ byteOf v (i % 8) = B.getD i 0 := by
  obtain ⟨v, hv, hb⟩ := h.2.2 (i / 8) (by omega)
  refine ⟨v, hv, ?_⟩
  apply UInt8.toNat_inj.mp
  apply Nat.eq_of_testBit_eq
  intro j
  by_cases hj : j < 8
  · rw [testBit_byteOf _ _ (by omega) _ hj, hb, bytesToBits]
    dsimp only
    rw [show (64 * (i / 8) + (8 * (i % 8) + j)) / 8 = i from by omega, show (64 * (i / 8) + (8 * (i % 8) + j)) % 8 = j from by omega]
  · rw [testBit_u8_ge _ _ (by omega), testBit_u8_ge _ _ (by omega)]

theorem store64_runs {x : Mem UInt8} {o : Nat} (u : UInt64) (h : o + 8 ≤ x.size) :
    Runs (store64 x o u) (fun x' => x.Upd x' o 8 (byteOf u)) := by
  unfold store64
  refine runs_fill1 fun i m' hi hu => ?_
  exact runs_wr_upd (by rw [hu.size]; omega)

/-- Writing out whole lanes: `for(i = 0; i < n; i++) store64(out+8*i, s[i])`. -/
theorem storeLanes_runs {s : Mem UInt64} {B : List UInt8} (h : RB s B) {out : Mem UInt8} {oo n : Nat} (hn : n ≤ 25) (ho : oo + 8 * n ≤ out.size) :
    Runs (cfor 0 n out fun i out => do let x ← rd s i; store64 out (oo + 8 * i) x) (fun out' => out.Wrote out' oo (B.take (8 * n))) := by
  refine (runs_fill (o := oo) (w := 8) (f := fun j => B.getD j 0) fun i m' hi hu => ?_).mono fun m' hu => ?_
  · obtain ⟨v, hv, _⟩ := h.2.2 i (by omega)
    rw [runs_bind, runs_rd_of hv]
    refine (store64_runs v (by rw [hu.size]; omega)).mono fun m'' h'' => h''.congr fun j hj => ?_
    obtain ⟨v', hv', hb'⟩ := h.byte (i := 8 * i + j) (by omega)
    rw [show (8 * i + j) / 8 = i from by omega, hv] at hv'
    obtain rfl : v = v' := by simpa using hv'
    rwa [show (8 * i + j) % 8 = j from by omega] at hb'
  · have hl := h.length
    refine hu.wrote_of (by simp; omega) fun i hi => ?_
    simp at hi
    simp [List.getD_eq_getElem?_getD, hi.2]

theorem xorLanes_runs {s : Mem UInt64} {B : List UInt8} (h : RB s B) {inp : Mem UInt8} {io n : Nat} {L : List UInt8} (hL : inp.Holds io L)
    (hl : L.length = 8 * n) (hn : n ≤ 25) :
    Runs (cfor 0 n s fun i s => do let w ← load64 inp (io + 8 * i); let x ← rd s i; wr s i (x ^^^ w)) (fun s' => RB s' (xorBytes B 0 L)) := by
  refine (runs_cfor (fun i s => RB s (xorBytes B 0 (L.take (8 * i)))) (by omega) ?_ ?_).mono ?_
  · simpa [xorBytes_nil] using h
  · intro i s _ hi hs
    have hB := h.length
    rw [runs_bind]
    have hsl : (slice L (8 * i) 8).length = 8 := length_slice (by omega)
    refine (load64_runs (hL.slice (8 * i) 8 (by omega)) hsl).mono fun w hw => ?_
    obtain ⟨v, hv, _⟩ := hs.2.2 i (by omega)
    rw [runs_bind, runs_rd_of hv, runs_wr]
    have e : xorBytes B 0 (L.take (8 * (i + 1))) = xorBytes (xorBytes B 0 (L.take (8 * i))) (8 * i) (slice L (8 * i) 8) := by
      have := xorBytes_append B 0 (L.take (8 * i)) (slice L (8 * i) 8)
      rw [List.length_take, show 0 + min (8 * i) L.length = 8 * i from by omega] at this
      rw [this, show 8 * (i + 1) = 8 * i + 8 from by omega, List.take_add]; rfl
    refine ⟨by rw [hs.1]; omega, ?_⟩
    rw [e]
    refine hs.xorLane (by omega) hv (by rw [xorBytes_length, xorBytes_length, hB]) (fun z => ?_) (fun k hk hne => ?_)
    · rw [xorBytes_bits _ _ _ (by rw [xorBytes_length]; omega), hw, if_pos (by omega)]
      congr 2; omega
    · rw [xorBytes_bits _ _ _ (by rw [xorBytes_length]; omega)]
      by_cases h1 : 8 * (8 * i) ≤ k
      · rw [if_pos h1, bytesToBits_ge (slice L (8 * i) 8) _ (by rw [hsl]; omega), Bool.xor_false]
      · rw [if_neg h1, Bool.xor_false]
  · intro s hs
    rwa [← hl, List.take_length] at hs

/-- The state after absorbing `M` and the padding, before the permutation of the last block. -/
def padded (r : Nat) (p : UInt8) (M : List UInt8) : List UInt8 :=
  let st := absorbS r (List.replicate 200 0, 0) M
  xorBytes st.1 st.2 (padB r st.2 p)

theorem keccak_absorb_once_runs {s : Mem UInt64} {r : Nat} {inp : Mem UInt8} {io inlen : Nat} {M : List UInt8} (p : UInt8)
    (h : s.size = 25) (hr0 : 0 < r) (hr : r ≤ 200) (h8 : r % 8 = 0) (hM : inp.Holds io M) (hn : M.length = inlen) :
    Runs (keccak_absorb_once s r inp io inlen p) (fun s' => RB s' (padded r p M)) := by
  subst hn
  unfold keccak_absorb_once
  rw [runs_bind]
  refine (keccak_init_runs h).mono fun s0 hs0 => ?_
  rw [runs_bind]
  generalize hZ : List.replicate 200 (0 : UInt8) = Z at hs0
  refine (runs_cwhile_measure (fun (st : Mem UInt64 × Nat × Nat) => ∃ k, k ≤ M.length ∧ st.2.1 = io + k ∧ st.2.2 = M.length - k ∧
      RB st.1 (absorbS r (Z, 0) (M.take k)).1 ∧ 0 = (absorbS r (Z, 0) (M.take k)).2)
    (fun st => st.2.2) (by dsimp only; omega) ?_ ?_).mono ?_
  · exact ⟨0, by omega, rfl, rfl, hs0, rfl⟩
  · rintro ⟨s, o, n⟩ ⟨k, hk, ho, hnn, hs, hpos⟩ hc
    dsimp only at *
    subst ho hnn
    rw [decide_eq_true_eq] at hc
    rw [runs_bind]
    have hw : (slice M k r).length = r := length_slice (by omega)
    have := xorLanes_runs hs (inp := inp) (io := io + k) (n := r / 8) (L := slice M k r) (hM.slice _ _ (by omega)) (by omega) (by omega)
    refine this.mono fun s1 hs1 => ?_
    rw [runs_bind]
    refine (permute_runs hs1).mono fun s2 hs2 => ?_
    have e : M.take (k + r) = M.take k ++ slice M k r := by unfold slice; rw [← List.take_add]
    have e2 : absorbS r (Z, 0) (M.take (k + r)) = (KF (xorBytes (absorbS r (Z, 0) (M.take k)).1 0 (slice M k r)), 0) := by
      rw [e, absorbS_append]
      have := absorbS_full r (slice M k r) (absorbS r (Z, 0) (M.take k)).1 0 (by rw [hw]; omega) hr0
      rw [show absorbS r (Z, 0) (M.take k) = ((absorbS r (Z, 0) (M.take k)).1, 0) from Prod.ext rfl hpos.symm]
      exact this
    rw [runs_pure]
    refine ⟨⟨k + r, by omega, by dsimp only; omega, by dsimp only; omega, ?_, ?_⟩, by dsimp only; omega⟩
    · rw [e2]; exact hs2
    · rw [e2]
  · rintro ⟨s, o, n⟩ ⟨⟨k, hk, ho, hnn, hs, hpos⟩, hc⟩
    dsimp only at *
    subst ho hnn
    rw [decide_eq_false_iff_not] at hc
    have hw : (M.drop k).length = M.length - k := by simp
    have hd : inp.Holds (io + k) (M.drop k) := by
      have := hM.slice k (M.length - k) (by omega)
      unfold slice at this
      rwa [List.take_of_length_le (by simp)] at this
    have := xorLoop_runs hs (inp := inp) (io := io + k) (pos := 0) (L := M.drop k) hd (by omega)
      (body := fun i s => do let b ← rd inp (io + k + i); xorByte s i b) (fun _ _ => rfl)
    rw [hw, Nat.zero_add] at this
    rw [runs_bind]
    refine this.mono fun s1 hs1 => ?_
    have e2 : absorbS r (Z, 0) M = (xorBytes (absorbS r (Z, 0) (M.take k)).1 0 (M.drop k), M.length - k) := by
      conv => lhs; rw [← List.take_append_drop k M, absorbS_append]
      have := absorbS_lt r (M.drop k) (absorbS r (Z, 0) (M.take k)).1 0 (by omega)
      rw [show absorbS r (Z, 0) (M.take k) = ((absorbS r (Z, 0) (M.take k)).1, 0) from Prod.ext rfl hpos.symm]
      rw [hw, Nat.zero_add] at this
      exact this
    rw [runs_bind]
    refine (xorByte_runs hs1 (i := M.length - k) (by omega) p).mono fun s2 hs2 => ?_
    have := xorByte_runs hs2 (i := r - 1) (by omega) 0x80
    rw [pad_eq _ _ _ _ (by omega)] at this
    unfold padded
    rw [hZ, e2]
    unfold xorByte at this
    rwa [show (r - 1) % 8 = 7 from by omega, ← top_bit] at this

/-! ## Squeezing -/

/-- Byte `i` of the output stream that starts from the padded state `B0`. -/
def kstream (r : Nat) (B0 : List UInt8) (i : Nat) : UInt8 := (KF^[i / r + 1] B0).getD (i % r) 0

/-- Bytes `n .. n+len` of the output stream. -/
def kout (r : Nat) (B0 : List UInt8) (n len : Nat) : List UInt8 := (List.range len).map fun i => kstream r B0 (n + i)

theorem kout_length (r : Nat) (B0 : List UInt8) (n len : Nat) : (kout r B0 n len).length = len := by simp [kout]

theorem kout_add (r : Nat) (B0 : List UInt8) (n a b : Nat) : kout r B0 n (a + b) = kout r B0 n a ++ kout r B0 (n + a) b := by
  unfold kout
  rw [List.range_add, List.map_append, List.map_map]
  simp [Function.comp_def, Nat.add_assoc]

/-- A squeezing state after `n` bytes of output. -/
def SqR (r : Nat) (B0 : List UInt8) (n : Nat) (s : Mem UInt64) (pos : Nat) : Prop :=
  ∃ m, RB s (KF^[m] B0) ∧ 1 ≤ pos ∧ pos ≤ r ∧ n + r = m * r + pos

theorem SqR.start {r : Nat} {B0 : List UInt8} {s : Mem UInt64} (h : RB s B0) (hr : 0 < r) : SqR r B0 0 s r :=
  ⟨0, h, hr, Nat.le_refl _, by omega⟩

theorem div_of {n r m p : Nat} (h : n + r = m * r + p) (hp : p < r) : n / r + 1 = m ∧ n % r = p := by
  obtain ⟨m, rfl⟩ : ∃ m', m = m' + 1 := by
    cases m with
    | zero => omega
    | succ m => exact ⟨m, rfl⟩
  have e : n = p + r * m := by rw [Nat.succ_mul, Nat.mul_comm] at h; omega
  subst e
  exact ⟨by rw [Nat.add_mul_div_left _ _ (by omega), Nat.div_eq_of_lt hp, Nat.zero_add], by rw [Nat.add_mul_mod_self_left, Nat.mod_eq_of_lt hp]⟩

theorem keccak_squeeze_runs {out : Mem UInt8} {oo outlen : Nat} {s : Mem UInt64} {pos r n : Nat} {B0 : List UInt8}
    (h : SqR r B0 n s pos) (hr : r ≤ 200) (ho : oo + outlen ≤ out.size) (hlt : outlen + r < 2 ^ 64) :
    Runs (keccak_squeeze out oo outlen s pos r) (fun v => out.Wrote v.1 oo (kout r B0 n outlen) ∧ SqR r B0 (n + outlen) v.2.1 v.2.2) := by
  unfold keccak_squeeze
  rw [runs_bind]
  refine (runs_cwhile_measure (fun (st : Mem UInt8 × Nat × Nat × Mem UInt64 × Nat) => ∃ k, k ≤ outlen ∧ st.2.1 = oo + k ∧ st.2.2.1 = outlen - k ∧
      out.Wrote st.1 oo (kout r B0 n k) ∧ SqR r B0 (n + k) st.2.2.2.1 st.2.2.2.2) (fun st => st.2.2.1) (by dsimp only; omega) ?_ ?_).mono ?_
  · exact ⟨0, by omega, rfl, rfl, Mem.Wrote.nil out oo, h⟩
  · rintro ⟨o, p, l, s, pos⟩ ⟨k, hk, hp, hl, hw, hs⟩ hc
    dsimp only at *
    subst hp hl
    simp only [ne_eq, decide_not, Bool.not_eq_true', decide_eq_false_iff_not] at hc
    rw [runs_bind]
    have key : Runs (cif (decide (pos = r)) (do let s ← KeccakF1600_StatePermute s; pure (s, 0)) (pure (s, pos)))
        (fun (v : Mem UInt64 × Nat) => ∃ m, RB v.1 (KF^[m] B0) ∧ v.2 < r ∧ n + k + r = m * r + v.2) := by
      obtain ⟨m, hm, h1, h2, h3⟩ := hs
      rw [runs_cif]
      constructor
      · intro e
        rw [decide_eq_true_eq] at e
        rw [runs_bind]
        refine (permute_runs hm).mono fun s' hs' => ?_
        rw [runs_pure]
        refine ⟨m + 1, ?_, by dsimp only; omega, by dsimp only; rw [Nat.succ_mul]; omega⟩
        rw [Function.iterate_succ_apply']; exact hs'
      · intro e
        rw [decide_eq_false_iff_not] at e
        exact ⟨m, hm, by dsimp only; omega, h3⟩
    refine key.mono ?_
    rintro ⟨s', pos'⟩ ⟨m, hm, hp', he⟩
    dsimp only at *
    obtain ⟨d1, d2⟩ := div_of he hp'
    rw [Nat.mod_eq_of_lt (show pos' + (outlen - k) < 2 ^ 64 by omega)]
    generalize hhi : min r (pos' + (outlen - k)) = hi
    have hsz : o.size = out.size := hw.size
    rw [runs_bind]
    refine (runs_cfor (fun i o' => o.Wrote o' (oo + k) (kout r B0 (n + k) (i - pos'))) (by omega) ?_ ?_).mono ?_
    · rw [Nat.sub_self]; exact Mem.Wrote.nil o _
    · intro i o' h1 h2 ho'
      obtain ⟨v, hv, hb⟩ := hm.byte (i := i) (by omega)
      rw [runs_bind, runs_rd_of hv]
      refine (runs_wr_upd (by rw [ho'.size]; omega)).mono fun o'' ho'' => ?_
      have w1 : o'.Wrote o'' (oo + k + (i - pos')) [B0 |> KF^[m] |>.getD i 0] := by
        refine ho''.wrote_of (by simp) fun j hj => ?_
        simp at hj; subst hj
        simpa using hb
      have hlen := kout_length r B0 (n + k) (i - pos')
      rw [← hlen] at w1
      have := ho'.append w1
      have e : kout r B0 (n + k) (i + 1 - pos') = kout r B0 (n + k) (i - pos') ++ [(KF^[m] B0).getD i 0] := by
        rw [show i + 1 - pos' = (i - pos') + 1 from by omega, kout_add]
        congr 1
        obtain ⟨d3, d4⟩ := div_of (n := n + k + (i - pos')) (r := r) (m := m) (p := i) (by omega) (by omega)
        simp only [kout, kstream, List.range_one, List.map_cons, List.map_nil, Nat.add_zero]
        rw [d3, d4]
      rw [e]
      exact this
    · intro o' ho'
      rw [runs_pure]
      rw [show max pos' hi = hi from by omega]
      refine ⟨⟨k + (hi - pos'), by omega, by dsimp only; omega, by dsimp only; omega, ?_, ?_⟩, by dsimp only; omega⟩
      · rw [kout_add]
        refine hw.append ?_
        rw [kout_length]; exact ho'
      · exact ⟨m, hm, by dsimp only; omega, by dsimp only; omega, by dsimp only; omega⟩
  · rintro ⟨o, p, l, s, pos⟩ ⟨⟨k, hk, hp, hl, hw, hs⟩, hc⟩
    dsimp only at *
    simp at hc
    obtain rfl : k = outlen := by omega
    exact ⟨hw, hs⟩

theorem keccak_squeezeblocks_runs {out : Mem UInt8} {oo nblocks : Nat} {s : Mem UInt64} {r n : Nat} {B0 : List UInt8}
    (h : SqR r B0 n s r) (hr0 : 0 < r) (hr : r ≤ 200) (h8 : r % 8 = 0) (ho : oo + nblocks * r ≤ out.size) :
    Runs (keccak_squeezeblocks out oo nblocks s r)
      (fun v => out.Wrote v.1 oo (kout r B0 n (nblocks * r)) ∧ SqR r B0 (n + nblocks * r) v.2 r) := by
  unfold keccak_squeezeblocks
  rw [runs_bind]
  refine (runs_cwhile (fun k (st : Mem UInt8 × Nat × Nat × Mem UInt64) => k ≤ nblocks ∧ st.2.1 = oo + k * r ∧ st.2.2.1 = nblocks - k ∧
      out.Wrote st.1 oo (kout r B0 n (k * r)) ∧ SqR r B0 (n + k * r) st.2.2.2 r) nblocks (by omega) ?_ ?_ ?_).mono ?_
  · refine ⟨by omega, by simp, by simp, ?_, by simpa using h⟩
    rw [Nat.zero_mul]; exact Mem.Wrote.nil out oo
  · rintro k ⟨o, p, l, s⟩ hk ⟨hk', hp, hl, hw, hs⟩
    dsimp only at *
    subst hp hl
    refine ⟨by simp; omega, ?_⟩
    obtain ⟨m, hm, h1, h2, h3⟩ := hs
    rw [runs_bind]
    refine (permute_runs hm).mono fun s' hs' => ?_
    rw [← Function.iterate_succ_apply' KF] at hs'
    have hb : k * r + r ≤ nblocks * r := by rw [← Nat.succ_mul]; exact Nat.mul_le_mul_right r hk
    rw [runs_bind]
    refine (storeLanes_runs hs' (n := r / 8) (oo := oo + k * r) (by omega) (by rw [hw.size]; omega)).mono fun o' ho' => ?_
    rw [runs_pure]
    have e : (KF^[m + 1] B0).take (8 * (r / 8)) = kout r B0 (n + k * r) r := by
      rw [show 8 * (r / 8) = r from by omega]
      apply ext_getD
      · rw [kout_length, List.length_take, hs'.length]; omega
      · intro j hj
        rw [List.length_take] at hj
        obtain ⟨d3, d4⟩ := div_of (n := n + k * r + j) (r := r) (m := m + 1) (p := j) (by rw [Nat.succ_mul]; omega) (by omega)
        have : (kout r B0 (n + k * r) r).getD j 0 = kstream r B0 (n + k * r + j) := by simp [kout, show j < r from by omega]
        rw [this, kstream, d3, d4]
        simp [List.getD_eq_getElem?_getD, show j < r from by omega]
    refine ⟨by omega, by dsimp only; rw [Nat.succ_mul]; omega, by dsimp only; omega, ?_, ?_⟩
    · rw [Nat.succ_mul, kout_add]
      refine hw.append ?_
      rw [kout_length, ← e]; exact ho'
    · exact ⟨m + 1, hs', hr0, Nat.le_refl _, by rw [Nat.succ_mul, Nat.succ_mul]; omega⟩
  · rintro ⟨o, p, l, s⟩ ⟨_, _, hl, _⟩
    dsimp only at *
    simp [hl]
  · rintro ⟨o, p, l, s⟩ ⟨_, _, _, hw, hs⟩
    exact ⟨hw, hs⟩

end Verif.Proof
