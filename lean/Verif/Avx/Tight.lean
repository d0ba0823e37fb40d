import Verif.Avx.NttProof

/-!
# Exact ranges of Montgomery products

`fqW a z` for `|a| ≤ A` and a constant `z`: the value `r` satisfies `r 2^16 = a z - q c` with a 16-bit `c`, so `|r|` is at most
`(A |z| + q 2^15) / 2^16`. Whether a particular `r` occurs is decided by trying the few `a` in the residue class `r 2^16 z^-1` modulo q.
This gives the bounds stated in the comments of the code.
-/

namespace Verif.Avx
open Verif.Spec Verif.Proof Verif.Model

/-- No `a = s + 3329 k` (`k < n`) with `a ≤ A` gives the product `r`. -/
def noneIn (A z r : Int) : Nat → Int → Bool
  | 0, _ => true
  | n + 1, s => (decide (A < s) || decide (s * z - r * 65536 < -32768 * 3329) || decide (32767 * 3329 < s * z - r * 65536)) && noneIn A z r n (s + 3329)

/-- The value `r` does not occur for `|a| ≤ A`; `zi` the inverse of `z`. -/
def never (A z zi r : Int) : Bool := noneIn A z r (2 * A / 3329 + 1).toNat (-A + (r * 65536 * zi + A) % 3329)

theorem noneIn_out {A z r : Int} {n : Nat} {s : Int} (h : noneIn A z r n s = true) {k : Nat} (hk : k < n) (ha : s + 3329 * k ≤ A) :
    (s + 3329 * k) * z - r * 65536 < -32768 * 3329 ∨ 32767 * 3329 < (s + 3329 * k) * z - r * 65536 := by
  induction n generalizing s k with
  | zero => omega
  | succ n ih =>
    unfold noneIn at h
    rw [Bool.and_eq_true, Bool.or_eq_true, Bool.or_eq_true, decide_eq_true_eq, decide_eq_true_eq, decide_eq_true_eq] at h
    cases k with
    | zero =>
      simp only [Nat.cast_zero, mul_zero, add_zero] at ha ⊢
      omega
    | succ k =>
      have := ih h.2 (k := k) (by omega) (by push_cast at ha ⊢; omega)
      rw [show s + 3329 * ((k + 1 : Nat) : Int) = s + 3329 + 3329 * k from by push_cast; ring]
      exact this

theorem never_out {A z zi r a c : Int} (h : never A z zi r = true) (hz : (z * zi) % 3329 = 1) (ha : -A ≤ a) (ha' : a ≤ A) (hc : -32768 ≤ c) (hc' : c ≤ 32767)
    (he : r * 65536 = a * z - 3329 * c) : False := by
  unfold never at h
  have hd : (a - (r * 65536 * zi)) % 3329 = 0 := by
    obtain ⟨t, ht⟩ : ∃ t, z * zi = 1 + 3329 * t := ⟨z * zi / 3329, by omega⟩
    have : a - r * 65536 * zi = 3329 * (c * zi - a * t) := by rw [he]; linear_combination -a * ht
    rw [this]; exact Int.mul_emod_right _ _
  generalize r * 65536 * zi = u at *
  have hk : ∃ k : Nat, a = -A + (u + A) % 3329 + 3329 * k := ⟨((a - (-A + (u + A) % 3329)) / 3329).toNat, by omega⟩
  obtain ⟨k, hk⟩ := hk
  have := noneIn_out h (k := k) (by omega) (by omega)
  rw [← hk] at this
  omega

/-- Lower the bound `M` while neither `M` nor `-M` occurs. -/
def lower (A z zi : Int) : Nat → Nat → Nat
  | 0, M => M
  | n + 1, M => if never A z zi M && never A z zi (-M) then lower A z zi n (M - 1) else M

theorem lower_out {A z zi r a c : Int} (hz : (z * zi) % 3329 = 1) (ha : -A ≤ a) (ha' : a ≤ A) (hc : -32768 ≤ c) (hc' : c ≤ 32767)
    (he : r * 65536 = a * z - 3329 * c) (n M : Nat) (hM : r.natAbs ≤ M) : r.natAbs ≤ lower A z zi n M := by
  induction n generalizing M with
  | zero => exact hM
  | succ n ih =>
    unfold lower
    split
    · rename_i h
      rw [Bool.and_eq_true] at h
      apply ih
      have h1 : r ≠ M := fun e => never_out h.1 hz ha ha' hc hc' (e ▸ he)
      have h2 : r ≠ -M := fun e => never_out h.2 hz ha ha' hc hc' (e ▸ he)
      omega
    · exact hM

/-- Bound of `|fqW a z|` for `|a| ≤ A`. -/
def fqB (A : Nat) (z : Int) : Nat :=
  let zi := ((z % 3329).toNat ^ 3327 % 3329 : Nat)
  let M := (A * z.natAbs + 3329 * 32768) / 65536
  if (z * zi) % 3329 = 1 then lower A z zi 64 M else M

theorem fqB_bound {a b : W} {A : Nat} (ha : -(A : Int) ≤ a.toInt ∧ a.toInt ≤ A) :
    -(fqB A b.toInt : Int) ≤ (fqW a b).toInt ∧ (fqW a b).toInt ≤ fqB A b.toInt := by
  obtain ⟨c, hc, hc', h⟩ := fqW_spec a b
  have hb := fqW_bound (a := a) (b := b) (A := A) (B := b.toInt.natAbs) ha (by omega)
  suffices hs : (fqW a b).toInt.natAbs ≤ fqB A b.toInt by omega
  have h0 : (fqW a b).toInt.natAbs ≤ (A * b.toInt.natAbs + 3329 * 32768) / 65536 := by
    have e : ((A : Int) * (b.toInt.natAbs : Int) + 3329 * 32768) / 65536 = (((A * b.toInt.natAbs + 3329 * 32768) / 65536 : Nat) : Int) := by push_cast; rfl
    rw [e] at hb
    omega
  unfold fqB
  dsimp only
  split
  · rename_i hz
    exact lower_out hz ha.1 ha.2 hc hc' h _ _ h0
  · exact h0

/-! ## The forward NTT -/

/-- Bounds of the values that enter the node `k` (1, 2..3, 4..7, ...) of the forward network, for input bounded by q. -/
def nbTab : List Nat := [0, 3329, 5031, 5031, 6710, 6710, 6798, 6798, 8520, 8520, 8514, 8514, 8489, 8489, 8479, 8479, 10202, 10202, 10261, 10261, 10374, 10374, 10197, 10197,
  10267, 10267, 10292, 10292, 10322, 10322, 10333, 10333, 11950, 11950, 12062, 12062, 11963, 11963, 11979, 11979, 12168, 12168, 12265, 12265, 12108, 12108, 11880, 11880,
  12030, 12030, 12086, 12086, 12070, 12070, 12045, 12045, 12219, 12219, 12045, 12045, 12025, 12025, 12234, 12234, 13832, 13832, 13731, 13731, 13820, 13820, 13906, 13906,
  13851, 13851, 13886, 13886, 13689, 13689, 13919, 13919, 13922, 13922, 13833, 13833, 13987, 13987, 14049, 14049, 14064, 14064, 13979, 13979, 13564, 13564, 13800, 13800,
  13844, 13844, 13708, 13708, 13790, 13790, 13898, 13898, 13753, 13753, 13989, 13989, 13750, 13750, 13876, 13876, 13955, 13955, 14053, 14053, 13982, 13982, 13832, 13832,
  13770, 13770, 13883, 13883, 14019, 14019, 14130, 14130, 15727, 15727, 15581, 15581, 15506, 15506, 15561, 15561, 15742, 15742, 15662, 15662, 15886, 15886, 15590, 15590,
  15598, 15598, 15636, 15636, 15586, 15586, 15599, 15599, 15412, 15412, 15441, 15441, 15900, 15900, 15930, 15930, 15638, 15638, 15747, 15747, 15737, 15737, 15527, 15527,
  15808, 15808, 15964, 15964, 15835, 15835, 15943, 15943, 16043, 16043, 15862, 15862, 15822, 15822, 15711, 15711, 15307, 15307, 15293, 15293, 15495, 15495, 15479, 15479,
  15672, 15672, 15731, 15731, 15497, 15497, 15497, 15497, 15729, 15729, 15719, 15719, 15867, 15867, 15642, 15642, 15671, 15671, 15444, 15444, 15905, 15905, 15925, 15925,
  15585, 15585, 15458, 15458, 15769, 15769, 15878, 15878, 15863, 15863, 15936, 15936, 15988, 15988, 15884, 15884, 15956, 15956, 15806, 15806, 15678, 15678, 15592, 15592,
  15456, 15456, 15494, 15494, 15752, 15752, 15740, 15740, 15885, 15885, 15990, 15990, 16118, 16118, 16114, 16114]

theorem nbTab_ok : ∀ k, k < 128 → 0 < k → nbTab.getD (2 * k) 0 = nbTab.getD k 0 + fqB (nbTab.getD k 0) (zetasList.getD k 0).toInt ∧
    nbTab.getD (2 * k + 1) 0 = nbTab.getD (2 * k) 0 := by decide +kernel

theorem nbTab_out : ∀ k, k < 256 → nbTab.getD k 0 ≤ 16118 := by decide +kernel

/-- The bound in force at level `l`, position `i`. -/
def nb (l i : Nat) : Nat := nbTab.getD (2 ^ l + i / 2 ^ (8 - l)) 0

theorem bf_tight {x : Nat → W} (hx : ∀ i, i < 256 → -3329 ≤ (x i).toInt ∧ (x i).toInt ≤ 3329)
    (l : Nat) (hl : l ≤ 7) : ∀ i, i < 256 → -(nb l i : Int) ≤ (bf x l i).toInt ∧ (bf x l i).toInt ≤ nb l i := by
  induction l with
  | zero =>
    intro i hi
    have : nb 0 i = 3329 := by unfold nb; rw [show i / 2 ^ (8 - 0) = 0 from by omega]; rfl
    rw [bf, this]; exact hx i hi
  | succ l ih =>
    intro i hi
    have ih := ih (by omega)
    obtain ⟨b, o, hb, ho, hbi, hc⟩ := pos_split l i (by omega) hi
    have hL : 2 ^ l * (2 * 2 ^ (7 - l)) = 256 := by
      have : l < 7 := by omega
      clear ih hl hb ho hbi hc
      interval_cases l <;> rfl
    have hk : 2 ^ l + b < 128 := by
      have : 2 ^ l ≤ 64 := Nat.pow_le_pow_right (n := 2) (by omega) (show l ≤ 6 from by omega)
      omega
    have hk0 : 0 < 2 ^ l + b := by have := Nat.two_pow_pos l; omega
    have hbb : b * (2 * 2 ^ (7 - l)) + 2 * 2 ^ (7 - l) ≤ 256 := by
      rw [← hL]
      calc b * (2 * 2 ^ (7 - l)) + 2 * 2 ^ (7 - l) = (b + 1) * (2 * 2 ^ (7 - l)) := by ring
        _ ≤ 2 ^ l * (2 * 2 ^ (7 - l)) := Nat.mul_le_mul_right _ hb
    have hz := zeta_toInt hk
    obtain ⟨t1, t2⟩ := nbTab_ok _ hk hk0
    have hnb : ∀ y, y / 2 ^ (8 - l) = b → nb l y = nbTab.getD (2 ^ l + b) 0 := fun y hy => by unfold nb; rw [hy]
    have hp8 : 2 ^ (8 - l) = 2 * 2 ^ (7 - l) := by rw [show 8 - l = 7 - l + 1 from by omega, Nat.pow_succ, Nat.mul_comm]
    have hblk : ∀ y, y < 2 * 2 ^ (7 - l) → (b * (2 * 2 ^ (7 - l)) + y) / 2 ^ (8 - l) = b := fun y hy => by
      rw [hp8, Nat.mul_comm b, Nat.mul_add_div (by omega), Nat.div_eq_of_lt hy]; rfl
    have hnb' : nb (l + 1) i = nbTab.getD (2 ^ l + b) 0 + fqB (nbTab.getD (2 ^ l + b) 0) (zetasList.getD (2 ^ l + b) 0).toInt := by
      unfold nb
      have : i / 2 ^ (7 - l) = 2 * b + i / 2 ^ (7 - l) % 2 := by
        have h2 : i / 2 ^ (7 - l) / 2 = b := by rw [Nat.div_div_eq_div_mul, Nat.mul_comm, ← hp8]; exact hbi
        omega
      rw [show 8 - (l + 1) = 7 - l from by omega, this, Nat.pow_succ]
      rcases Nat.mod_two_eq_zero_or_one (i / 2 ^ (7 - l)) with h | h
      · rw [h, show 2 ^ l * 2 + (2 * b + 0) = 2 * (2 ^ l + b) from by ring, t1]
      · rw [h, show 2 ^ l * 2 + (2 * b + 1) = 2 * (2 ^ l + b) + 1 from by ring, t2, t1]
    have h16 := nbTab_out (2 * (2 ^ l + b)) (by omega)
    rw [t1] at h16
    rw [bf, hbi, hnb']
    rcases hc with ⟨h0, hi'⟩ | ⟨h0, hi'⟩
    · rw [if_pos h0]
      have a := ih i hi
      have c := ih (i + 2 ^ (7 - l)) (by omega)
      rw [hnb _ hbi] at a
      rw [hnb _ (by rw [hi', Nat.add_assoc]; exact hblk _ (by omega))] at c
      have hf := fqB_bound (a := bf x l (i + 2 ^ (7 - l))) (b := BitVec.ofNat 16 (zetaN (2 ^ l + b))) c
      rw [hz] at hf
      have hs : ((bf x l i) + fqW (bf x l (i + 2 ^ (7 - l))) (BitVec.ofNat 16 (zetaN (2 ^ l + b)))).toInt = _ := toInt_addW (by omega) (by omega)
      omega
    · rw [if_neg h0]
      have e1 : i - 2 ^ (7 - l) = b * (2 * 2 ^ (7 - l)) + o := by omega
      have a := ih (i - 2 ^ (7 - l)) (by omega)
      have c := ih i hi
      rw [hnb _ (by rw [e1]; exact hblk _ (by omega))] at a
      rw [hnb _ hbi] at c
      have hf := fqB_bound (a := bf x l i) (b := BitVec.ofNat 16 (zetaN (2 ^ l + b))) c
      rw [hz] at hf
      have hs : ((bf x l (i - 2 ^ (7 - l))) - fqW (bf x l i) (BitVec.ofNat 16 (zetaN (2 ^ l + b)))).toInt = _ := toInt_subW (by omega) (by omega)
      omega

/-- The bound of the comment in avx2/poly.c:390-396. -/
theorem poly_ntt_tight {r : Mem Int16} {f : Nat → Zq} (h : PolyIs r f 3329) :
    Runs (poly_ntt r) (fun r' => PolyIs r' (fun m => levI f 7 (nttIdx m)) 16118) := by
  obtain ⟨x, hx, hxf⟩ := PolyIs.has h
  refine Runs.mono (poly_ntt_exact h.size hx) ?_
  rintro r' ⟨hs, hh⟩
  refine PolyIs.of_has hs hh fun i hi => ?_
  rw [zq_ofBitVec, toInt_ofBitVec]
  have h1 := bf_spec (by norm_num) (x := fun i => (x i).toBitVec) hxf 7 (by omega) (nttIdx i) (nttIdx_lt hi)
  have h2 := bf_tight (x := fun i => (x i).toBitVec) (fun i hi => (hxf i hi).2) 7 (by omega) (nttIdx i) (nttIdx_lt hi)
  have h3 : nb 7 (nttIdx i) ≤ 16118 := nbTab_out _ (by have := nttIdx_lt hi; omega)
  exact ⟨h1.1, by omega, by omega⟩

end Verif.Avx
