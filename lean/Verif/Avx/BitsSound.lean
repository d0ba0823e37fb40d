import Verif.Avx.Bits
import Mathlib.Tactic.IntervalCases

/-! # Soundness of the operations on words given bit by bit -/

namespace Verif.Avx

section
variable {α : Nat → Bool}

theorem isZero_ok {n k : Nat} {bs : List Bit} {x : W} (h : BR α bs x) (hz : isZero n k bs = true) : ∀ i, i < n → x.getLsbD (k + i) = false := by
  intro i hi
  unfold isZero at hz
  split at hz
  · rename_i hv
    have := (natOf_ok (α := α) n (f := fun i => x.getLsbD (k + i)) (fun i _ => by rw [getB_drop]; exact h _) hv).2 i hi
    rw [← this]; simp
  · simp at hz

theorem toNat_lt_of_high {x : W} {k : Nat} (h : ∀ i, k ≤ i → x.getLsbD i = false) : x.toNat < 2 ^ k :=
  Nat.lt_pow_two_of_testBit _ fun i hi => h i hi

theorem toInt_of_lt {x : W} (h : x.toNat < 2 ^ 15) : x.toInt = x.toNat := by
  rw [BitVec.toInt_eq_toNat_cond, if_pos (by omega)]

theorem isZero8 {bs : List Bit} {x : W} (h : BR α bs x) (hz : isZero 8 8 bs = true) : satU8 x = byteOf 0 x := by
  have h1 : x.toNat < 2 ^ 8 := toNat_lt_of_high fun i hi => by
    by_cases h' : i < 16
    · have := isZero_ok h hz (i - 8) (by omega)
      rwa [show 8 + (i - 8) = i from by omega] at this
    · exact BitVec.getLsbD_of_ge _ _ (by omega)
  have h2 := toInt_of_lt (show x.toNat < 2 ^ 15 from by omega)
  unfold satU8
  rw [h2, if_neg (by omega), if_neg (by omega)]
  apply BitVec.eq_of_toNat_eq
  unfold byteOf
  rw [BitVec.extractLsb'_toNat]
  simp

theorem isZero1 {bs : List Bit} {x : W} (h : BR α bs x) (hz : isZero 1 15 bs = true) : x.toInt = x.toNat :=
  toInt_of_lt (toNat_lt_of_high fun i hi => by
    by_cases h' : i < 16
    · have := isZero_ok h hz 0 (by omega)
      rwa [show i = 15 + 0 from by omega]
    · exact BitVec.getLsbD_of_ge _ _ (by omega))

theorem byteOf_nat (p : Nat) (hp : p < 2) (v : Nat) (hv : v < 65536) : (byteOf p (BitVec.ofNat 16 v)).toNat = v / 256 ^ p % 256 := by
  unfold byteOf
  rw [BitVec.extractLsb'_toNat, BitVec.toNat_ofNat, Nat.shiftRight_eq_div_pow]
  have : p = 0 ∨ p = 1 := by omega
  rcases this with rfl | rfl <;> norm_num
  omega

theorem nat_lt {n : Nat} {bs : List Bit} {x : BitVec n} (h : BR α bs x) {v : Nat} (hv : natOf n bs = some v) : v < 2 ^ n := by
  rw [← h.nat hv]; exact x.isLt

theorem shufB_ok {ls : List (List Bit)} {l : List W} (hl : List.Forall₂ (BR α) ls l) (m : BitVec 8) :
    BR α (shufB ls m.toNat) (shufByte l m) := by
  unfold shufB shufByte
  rw [BitVec.msb_eq_getLsbD_last]
  show BR α (if m.getLsbD 7 then _ else _) _
  simp only [show (8 : Nat) - 1 = 7 from rfl]
  cases m.getLsbD 7
  · have h : BR α (ls.getD (m.toNat % 16 / 2) []) (l.getD (m.toNat % 16 / 2) 0) := by
      generalize m.toNat % 16 / 2 = j
      induction hl generalizing j with
      | nil => simpa using BR.nil
      | cons h _ ih =>
        cases j with
        | zero => simpa using h
        | succ j => simpa using ih j
    exact h.byte _
  · exact BR.nil

theorem getD_ok {ls : List (List Bit)} {l : List W} (hl : List.Forall₂ (BR α) ls l) (j : Nat) : BR α (ls.getD j []) (l.getD j 0) := by
  induction hl generalizing j with
  | nil => simpa using BR.nil
  | cons h _ ih =>
    cases j with
    | zero => simpa using h
    | succ j => simpa using ih j

theorem BR.setWidth {v w : Nat} (hvw : v ≤ w) {x : BitVec v} {as : List Bit} (h : BR α as x) : BR α as (x.setWidth w) := fun i => by
  rw [BitVec.getLsbD_setWidth]
  by_cases hi : i < w
  · simp only [hi, decide_true, Bool.true_and]; exact h i
  · have := h i
    rw [BitVec.getLsbD_of_ge _ _ (by omega)] at this
    simpa [hi] using this

theorem replicate_getB (n : Nat) (b : Bit) (i : Nat) : getB (List.replicate n b) i = if i < n then b else .c false := by
  unfold getB
  rw [List.getD_eq_getElem?_getD, List.getElem?_replicate]
  split <;> rfl

theorem movmask_ok {ls : List (List Bit)} {l : List W} (hl : List.Forall₂ (BR α) ls l) :
    ∀ i, (getB (movmaskB ls) i).holds α ((maskBits l).testBit i) := by
  induction hl with
  | nil => intro i; simp [movmaskB, maskBits, getB_nil, Bit.holds]
  | @cons bs x ls l h _ ih =>
    intro i
    have e0 := x.getLsbD 7 |>.toNat_lt
    have e1 := x.getLsbD 15 |>.toNat_lt
    match i with
    | 0 =>
      rw [movmaskB, getB_zero, maskBits, Nat.testBit_zero, show ((x.getLsbD 7).toNat + 2 * (x.getLsbD 15).toNat + 4 * maskBits l) % 2 = (x.getLsbD 7).toNat from by omega]
      have := h 7
      cases hx : x.getLsbD 7 <;> rw [hx] at this <;> simpa using this
    | 1 =>
      rw [movmaskB, getB_succ, getB_zero, maskBits, Nat.testBit_succ, Nat.testBit_zero,
        show ((x.getLsbD 7).toNat + 2 * (x.getLsbD 15).toNat + 4 * maskBits l) / 2 % 2 = (x.getLsbD 15).toNat from by omega]
      have := h 15
      cases hx : x.getLsbD 15 <;> rw [hx] at this <;> simpa using this
    | i + 2 =>
      rw [movmaskB, getB_succ, getB_succ, maskBits, Nat.testBit_succ, Nat.testBit_succ,
        show ((x.getLsbD 7).toNat + 2 * (x.getLsbD 15).toNat + 4 * maskBits l) / 2 / 2 = maskBits l from by omega]
      exact ih i

theorem satS8_bit7 (x : W) : (satS8 x).getLsbD 7 = x.getLsbD 15 := by
  have hx : x.getLsbD 15 = decide (x.toInt < 0) := by
    rw [← BitVec.msb_eq_toInt, BitVec.msb_eq_getLsbD_last]
  rw [hx]
  unfold satS8
  have hm : ∀ y : BitVec 8, y.getLsbD 7 = decide (y.toInt < 0) := fun y => by
    rw [← BitVec.msb_eq_toInt, BitVec.msb_eq_getLsbD_last]
  split
  · rename_i h; simp only [show x.toInt < 0 from by omega, decide_true]; decide
  · split
    · rename_i h; simp only [show ¬ x.toInt < 0 from by omega, decide_false]; decide
    · rw [hm]
      rw [BitVec.toInt_ofInt_eq_self (by omega) (by omega) (by omega)]

theorem ofBytes_7 (l h : BitVec 8) : (ofBytes l h).getLsbD 7 = l.getLsbD 7 := by unfold ofBytes; rw [BitVec.getLsbD_append]; simp
theorem ofBytes_15 (l h : BitVec 8) : (ofBytes l h).getLsbD 15 = h.getLsbD 7 := by unfold ofBytes; rw [BitVec.getLsbD_append]; simp

/-- The bits of a word operation describe its value. -/
theorem bitsApp_ok (o : Op) (as : List (List Bit)) (xs : List W) (bs : List Bit) (h : List.Forall₂ (BR α) as xs) (hb : bitsApp o as = some bs) :
    ∃ y, Op.eval o xs = some y ∧ BR α bs y := by
  unfold bitsApp at hb
  split at hb
  -- mov
  · obtain _ | ⟨ha, _ | _⟩ := h; cases hb; exact ⟨_, rfl, ha⟩
  -- add, sub
  · obtain _ | ⟨ha, _ | ⟨hc, _ | _⟩⟩ := h; cases hb; exact ⟨_, rfl, ha.add hc⟩
  · obtain _ | ⟨ha, _ | ⟨hc, _ | _⟩⟩ := h; cases hb; exact ⟨_, rfl, ha.sub hc⟩
  -- mullo
  · obtain _ | ⟨ha, _ | ⟨hc, _ | _⟩⟩ := h
    rename_i x y
    split at hb
    · rename_i v hv
      split at hb
      · rename_i k hk
        cases hb
        refine ⟨_, rfl, ?_⟩
        have hy : y = BitVec.twoPow 16 k := by
          apply BitVec.eq_of_toNat_eq
          have := nat_lt hc hv
          rw [hc.nat hv, BitVec.toNat_twoPow, ← pow2_ok hk, Nat.mod_eq_of_lt this]
        rw [hy, ← BitVec.shiftLeft_eq_mul_twoPow]
        exact ha.shl k
      · simp at hb
    · simp at hb
  -- and, or, xor, andn
  · obtain _ | ⟨ha, _ | ⟨hc, _ | _⟩⟩ := h; cases hb; exact ⟨_, rfl, ha.and hc⟩
  · obtain _ | ⟨ha, _ | ⟨hc, _ | _⟩⟩ := h; cases hb; exact ⟨_, rfl, ha.or hc⟩
  · obtain _ | ⟨ha, _ | ⟨hc, _ | _⟩⟩ := h; cases hb; exact ⟨_, rfl, ha.xor hc⟩
  · obtain _ | ⟨ha, _ | ⟨hc, _ | _⟩⟩ := h; cases hb; exact ⟨_, rfl, ha.not.and hc⟩
  -- shifts
  · obtain _ | ⟨ha, _ | _⟩ := h; cases hb; exact ⟨_, rfl, ha.shl _⟩
  · obtain _ | ⟨ha, _ | _⟩ := h; cases hb; exact ⟨_, rfl, ha.shr _⟩
  · obtain _ | ⟨ha, _ | _⟩ := h; cases hb
    refine ⟨_, rfl, fun i => ?_⟩
    rw [replicate_getB]
    split
    · rename_i hi
      rw [BitVec.getLsbD_sshiftRight]
      simp only [show ¬ 16 ≤ i from by omega, decide_false, Bool.not_false, Bool.true_and]
      split
      · rw [show 15 + i = 15 from by omega]; exact ha 15
      · rw [BitVec.msb_eq_getLsbD_last]; exact ha 15
    · rw [BitVec.getLsbD_of_ge _ _ (by omega)]; rfl
  -- bytes, lo8, hi8, add8, sub8
  · obtain _ | ⟨ha, _ | ⟨hc, _ | _⟩⟩ := h; cases hb; exact ⟨_, rfl, (ha.byte _).ofBytes (hc.byte _)⟩
  · obtain _ | ⟨ha, _ | _⟩ := h; cases hb
    refine ⟨_, rfl, ?_⟩
    show BR α _ ((0 : BitVec 8) ++ byteOf 0 _)
    rw [show ∀ x : BitVec 8, (0 : BitVec 8) ++ x = x.setWidth 16 from fun x => by decide +revert]
    exact (ha.byte 0).setWidth (by omega)
  · obtain _ | ⟨ha, _ | _⟩ := h; cases hb
    refine ⟨_, rfl, ?_⟩
    show BR α _ ((0 : BitVec 8) ++ byteOf 1 _)
    rw [show ∀ x : BitVec 8, (0 : BitVec 8) ++ x = x.setWidth 16 from fun x => by decide +revert]
    exact (ha.byte 1).setWidth (by omega)
  · obtain _ | ⟨ha, _ | ⟨hc, _ | _⟩⟩ := h; cases hb; exact ⟨_, rfl, ((ha.byte _).add (hc.byte _)).ofBytes ((ha.byte _).add (hc.byte _))⟩
  · obtain _ | ⟨ha, _ | ⟨hc, _ | _⟩⟩ := h; cases hb; exact ⟨_, rfl, ((ha.byte _).sub (hc.byte _)).ofBytes ((ha.byte _).sub (hc.byte _))⟩
  -- sext
  · rename_i p a
    obtain _ | ⟨ha, _ | _⟩ := h; cases hb
    refine ⟨_, rfl, fun i => ?_⟩
    have hy := ha.byte p
    rw [getB_padTo_append, BitVec.getLsbD_signExtend]
    split
    · rename_i hi
      simp only [show i < 16 from by omega, decide_true, Bool.true_and]
      exact hy i
    · rw [replicate_getB, BitVec.msb_eq_getLsbD_last]
      split
      · simp only [show i < 16 from by omega, decide_true, Bool.true_and]
        exact hy 7
      · simp only [show ¬ i < 16 from by omega, decide_false, Bool.false_and]; rfl
  -- packus
  · obtain _ | ⟨ha, _ | ⟨hc, _ | _⟩⟩ := h
    split at hb
    · rename_i hz
      rw [Bool.and_eq_true] at hz
      cases hb
      refine ⟨_, rfl, ?_⟩
      rw [isZero8 ha hz.1, isZero8 hc hz.2]
      exact (ha.byte _).ofBytes (hc.byte _)
    · simp at hb
  -- packs
  · obtain _ | ⟨ha, _ | ⟨hc, _ | _⟩⟩ := h
    cases hb
    refine ⟨_, rfl, fun i => ?_⟩
    by_cases hi : i < 16
    · have h7 : ∀ i, i < 16 → i ≠ 7 → i ≠ 15 → ∀ b b' : Bit, getB (List.replicate 7 .any ++ (b :: (List.replicate 7 .any ++ [b']))) i = .any := by
        intro i hi h7 h15 b b'
        interval_cases i <;> first | rfl | omega
      by_cases e7 : i = 7
      · subst e7
        show Bit.holds α (getB _ 15) _
        rw [ofBytes_7, satS8_bit7]
        exact ha 15
      by_cases e15 : i = 15
      · subst e15
        show Bit.holds α (getB _ 15) _
        rw [ofBytes_15, satS8_bit7]
        exact hc 15
      rw [h7 i hi e7 e15]; trivial
    · rw [BitVec.getLsbD_of_ge _ _ (by omega)]
      have : ∀ b b' : Bit, getB (List.replicate 7 .any ++ (b :: (List.replicate 7 .any ++ [b']))) i = .c false := by
        intro b b'
        unfold getB
        rw [List.getD_eq_getElem?_getD, List.getElem?_eq_none (by simp; omega)]; rfl
      rw [this]; rfl
  -- maddubs
  · obtain _ | ⟨ha, _ | ⟨hc, _ | _⟩⟩ := h
    rename_i x y
    split at hb
    · rename_i v hv
      split at hb
      · rename_i i j hi hj
        split at hb
        · rename_i hij
          rw [Bool.and_eq_true] at hij
          have hi6 := Nat.le_of_ble_eq_true hij.1
          have hj6 := Nat.le_of_ble_eq_true hij.2
          cases hb
          refine ⟨_, rfl, ?_⟩
          have hvl := nat_lt hc hv
          have hy : y = BitVec.ofNat 16 v := by apply BitVec.eq_of_toNat_eq; rw [hc.nat hv, BitVec.toNat_ofNat, Nat.mod_eq_of_lt hvl]
          have p6 : ∀ k, k ≤ 6 → 2 ^ k ≤ 64 := fun k hk => Nat.pow_le_pow_right (by omega) hk (n := 2)
          have hci : ∀ (z : BitVec 8) (k : Nat), z.toNat = 2 ^ k → k ≤ 6 → z.toInt = 2 ^ k := fun z k hz hk => by
            have := p6 k hk
            rw [BitVec.toInt_eq_toNat_cond, if_pos (by rw [hz]; omega), hz]; push_cast; rfl
          have b0 : (byteOf 0 y).toInt = 2 ^ i := hci _ _ (by rw [hy, byteOf_nat 0 (by omega) v hvl, ← pow2_ok hi]; simp) hi6
          have b1 : (byteOf 1 y).toInt = 2 ^ j := hci _ _ (by rw [hy, byteOf_nat 1 (by omega) v hvl, ← pow2_ok hj, pow_one, Nat.mod_eq_of_lt (by omega)]) hj6
          rw [b0, b1]
          have e : satS16 (((byteOf 0 x).toNat : Int) * 2 ^ i + ((byteOf 1 x).toNat : Int) * 2 ^ j) =
              ((byteOf 0 x).setWidth 16 <<< i) + ((byteOf 1 x).setWidth 16 <<< j) := by
            have h0 := (byteOf 0 x).isLt
            have h1 := (byteOf 1 x).isLt
            have pi := p6 i hi6
            have pj := p6 j hj6
            have m0 : (byteOf 0 x).toNat * 2 ^ i ≤ 255 * 64 := Nat.mul_le_mul (by omega) pi
            have m1 : (byteOf 1 x).toNat * 2 ^ j ≤ 255 * 64 := Nat.mul_le_mul (by omega) pj
            have ec : ((byteOf 0 x).toNat : Int) * 2 ^ i + ((byteOf 1 x).toNat : Int) * 2 ^ j = (((byteOf 0 x).toNat * 2 ^ i + (byteOf 1 x).toNat * 2 ^ j : Nat) : Int) := by
              push_cast; rfl
            unfold satS16
            rw [ec, if_neg (by omega), if_neg (by omega), BitVec.ofInt_natCast]
            apply BitVec.eq_of_toNat_eq
            simp only [BitVec.toNat_ofNat, BitVec.toNat_add, BitVec.toNat_shiftLeft, BitVec.toNat_setWidth, Nat.shiftLeft_eq]
            rw [Nat.mod_eq_of_lt (show (byteOf 0 x).toNat < 2 ^ 16 by omega), Nat.mod_eq_of_lt (show (byteOf 1 x).toNat < 2 ^ 16 by omega),
              ← Nat.add_mod]
          rw [e]
          exact (((ha.byte 0).setWidth (by omega)).shl i).add (((ha.byte 1).setWidth (by omega)).shl j)
        · simp at hb
      · simp at hb
    · simp at hb
  -- madd
  · rename_i w a0 a1 c0 c1
    obtain _ | ⟨h0, _ | ⟨h1, _ | ⟨k0, _ | ⟨k1, _ | _⟩⟩⟩⟩ := h
    rename_i x0 x1 y0 y1
    split at hb
    · rename_i v0 v1 hv0 hv1
      split at hb
      · rename_i i j hi hj
        split at hb
        · rename_i hc
          simp only [Bool.and_eq_true] at hc
          obtain ⟨⟨⟨hi14, hj14⟩, z0⟩, z1⟩ := hc
          replace hi14 := Nat.le_of_ble_eq_true hi14
          replace hj14 := Nat.le_of_ble_eq_true hj14
          cases hb
          refine ⟨_, rfl, ?_⟩
          have p14 : ∀ k, k ≤ 14 → 2 ^ k ≤ 16384 := fun k hk => Nat.pow_le_pow_right (by omega) hk (n := 2)
          have hci : ∀ (z : W) (k : Nat), z.toNat = 2 ^ k → k ≤ 14 → z.toInt = ((2 ^ k : Nat) : Int) := fun z k hz hk => by
            have := p14 k hk
            rw [toInt_of_lt (by rw [hz]; omega), hz]
          rw [isZero1 h0 z0, isZero1 h1 z1, hci y0 i (by rw [k0.nat hv0, ← pow2_ok hi]) hi14, hci y1 j (by rw [k1.nat hv1, ← pow2_ok hj]) hj14]
          have e : BitVec.ofInt 32 ((x0.toNat : Int) * ((2 ^ i : Nat) : Int) + (x1.toNat : Int) * ((2 ^ j : Nat) : Int)) =
              (x0.setWidth 32 <<< i) + (x1.setWidth 32 <<< j) := by
            rw [← Nat.cast_mul, ← Nat.cast_mul, ← Nat.cast_add, BitVec.ofInt_natCast]
            have l0 := x0.isLt
            have l1 := x1.isLt
            apply BitVec.eq_of_toNat_eq
            simp only [BitVec.toNat_ofNat, BitVec.toNat_add, BitVec.toNat_shiftLeft, BitVec.toNat_setWidth, Nat.shiftLeft_eq]
            rw [Nat.mod_eq_of_lt (show x0.toNat < 2 ^ 32 by omega), Nat.mod_eq_of_lt (show x1.toNat < 2 ^ 32 by omega), ← Nat.add_mod]
          rw [e]
          exact (((h0.setWidth (by omega)).shl i).add ((h1.setWidth (by omega)).shl j)).word w
        · simp at hb
      · simp at hb
    · simp at hb
  -- shl32, shr32
  · obtain _ | ⟨h0, _ | ⟨h1, _ | _⟩⟩ := h; cases hb; exact ⟨_, rfl, ((h0.cat32 h1).shl _).word _⟩
  · obtain _ | ⟨h0, _ | ⟨h1, _ | _⟩⟩ := h; cases hb; exact ⟨_, rfl, ((h0.cat32 h1).shr _).word _⟩
  -- sllv32, srlv32
  · obtain _ | ⟨h0, _ | ⟨h1, _ | ⟨k0, _ | ⟨k1, _ | _⟩⟩⟩⟩ := h
    split at hb
    · rename_i k hk
      split at hb
      · cases hb
        refine ⟨_, rfl, ?_⟩
        rw [(k0.cat32 k1).nat hk]
        exact ((h0.cat32 h1).shl _).word _
      · simp at hb
    · simp at hb
  · obtain _ | ⟨h0, _ | ⟨h1, _ | ⟨k0, _ | ⟨k1, _ | _⟩⟩⟩⟩ := h
    split at hb
    · rename_i k hk
      cases hb
      refine ⟨_, rfl, ?_⟩
      rw [(k0.cat32 k1).nat hk]
      exact ((h0.cat32 h1).shr _).word _
    · simp at hb
  -- add32, sub32
  · obtain _ | ⟨h0, _ | ⟨h1, _ | ⟨k0, _ | ⟨k1, _ | _⟩⟩⟩⟩ := h; cases hb; exact ⟨_, rfl, ((h0.cat32 h1).add (k0.cat32 k1)).word _⟩
  · obtain _ | ⟨h0, _ | ⟨h1, _ | ⟨k0, _ | ⟨k1, _ | _⟩⟩⟩⟩ := h; cases hb; exact ⟨_, rfl, ((h0.cat32 h1).sub (k0.cat32 k1)).word _⟩
  -- shl64, shr64
  · obtain _ | ⟨h0, _ | ⟨h1, _ | ⟨h2, _ | ⟨h3, _ | _⟩⟩⟩⟩ := h; cases hb; exact ⟨_, rfl, ((h0.cat64 h1 h2 h3).shl _).word _⟩
  · obtain _ | ⟨h0, _ | ⟨h1, _ | ⟨h2, _ | ⟨h3, _ | _⟩⟩⟩⟩ := h; cases hb; exact ⟨_, rfl, ((h0.cat64 h1 h2 h3).shr _).word _⟩
  -- srlv64
  · obtain _ | ⟨h0, _ | ⟨h1, _ | ⟨h2, _ | ⟨h3, _ | ⟨k0, _ | ⟨k1, _ | ⟨k2, _ | ⟨k3, _ | _⟩⟩⟩⟩⟩⟩⟩⟩ := h
    split at hb
    · rename_i k hk
      cases hb
      refine ⟨_, rfl, ?_⟩
      rw [(k0.cat64 k1 k2 k3).nat hk]
      exact ((h0.cat64 h1 h2 h3).shr _).word _
    · simp at hb
  -- add64
  · obtain _ | ⟨h0, _ | ⟨h1, _ | ⟨h2, _ | ⟨h3, _ | ⟨k0, _ | ⟨k1, _ | ⟨k2, _ | ⟨k3, _ | _⟩⟩⟩⟩⟩⟩⟩⟩ := h
    cases hb; exact ⟨_, rfl, ((h0.cat64 h1 h2 h3).add (k0.cat64 k1 k2 k3)).word _⟩
  -- pshufb
  · obtain _ | ⟨h0, _ | ⟨h1, _ | ⟨h2, _ | ⟨h3, _ | ⟨h4, _ | ⟨h5, _ | ⟨h6, _ | ⟨h7, _ | ⟨k, _ | _⟩⟩⟩⟩⟩⟩⟩⟩⟩ := h
    rename_i m
    split at hb
    · rename_i v hv
      cases hb
      refine ⟨_, rfl, ?_⟩
      have hvl := nat_lt k hv
      have hy : m = BitVec.ofNat 16 v := by apply BitVec.eq_of_toNat_eq; rw [k.nat hv, BitVec.toNat_ofNat, Nat.mod_eq_of_lt hvl]
      have e0 : v % 256 = (byteOf 0 m).toNat := by rw [hy, byteOf_nat 0 (by omega) v hvl]; simp
      have e1 : v / 256 = (byteOf 1 m).toNat := by rw [hy, byteOf_nat 1 (by omega) v hvl, pow_one, Nat.mod_eq_of_lt (by omega)]
      rw [e0, e1]
      have hl : List.Forall₂ (BR α) _ _ := .cons h0 (.cons h1 (.cons h2 (.cons h3 (.cons h4 (.cons h5 (.cons h6 (.cons h7 .nil)))))))
      exact (shufB_ok hl _).ofBytes (shufB_ok hl _)
    · simp at hb
  -- permd
  · obtain _ | ⟨h0, _ | ⟨h1, _ | ⟨h2, _ | ⟨h3, _ | ⟨h4, _ | ⟨h5, _ | ⟨h6, _ | ⟨h7, _ | ⟨h8, _ | ⟨h9, _ | ⟨h10, _ | ⟨h11, _ | ⟨h12, _ | ⟨h13, _ | ⟨h14, _ | ⟨h15, _ | ⟨k, _ | _⟩⟩⟩⟩⟩⟩⟩⟩⟩⟩⟩⟩⟩⟩⟩⟩⟩ := h
    split at hb
    · rename_i v hv
      cases hb
      refine ⟨_, rfl, ?_⟩
      rw [k.nat hv]
      exact getD_ok (.cons h0 (.cons h1 (.cons h2 (.cons h3 (.cons h4 (.cons h5 (.cons h6 (.cons h7 (.cons h8 (.cons h9 (.cons h10 (.cons h11 (.cons h12
        (.cons h13 (.cons h14 (.cons h15 .nil)))))))))))))))) _
    · simp at hb
  -- blendv
  · obtain _ | ⟨h0, _ | ⟨h1, _ | ⟨k, _ | _⟩⟩⟩ := h
    rename_i m
    split at hb
    · rename_i v hv
      cases hb
      refine ⟨_, rfl, ?_⟩
      have e7 : ∀ i, m.getLsbD i = v.testBit i := fun i => by rw [← k.nat hv]; rfl
      rw [e7, e7]
      refine BR.ofBytes ?_ ?_
      · cases v.testBit 7
        · exact h0.byte 0
        · exact h1.byte 0
      · cases v.testBit 15
        · exact h0.byte 1
        · exact h1.byte 1
    · simp at hb
  -- movmask
  · obtain _ | ⟨h0, _ | ⟨h1, _ | ⟨h2, _ | ⟨h3, _ | ⟨h4, _ | ⟨h5, _ | ⟨h6, _ | ⟨h7, _ | _⟩⟩⟩⟩⟩⟩⟩⟩ := h
    cases hb
    refine ⟨_, rfl, fun i => ?_⟩
    have := movmask_ok (.cons h0 (.cons h1 (.cons h2 (.cons h3 (.cons h4 (.cons h5 (.cons h6 (.cons h7 .nil)))))))) i
    rw [BitVec.getLsbD_ofNat]
    by_cases hi : i < 16
    · simp only [hi, decide_true, Bool.true_and]; exact this
    · simp only [hi, decide_false, Bool.false_and]
      rw [show getB (movmaskB _) i = .c false from by
        unfold getB
        rw [List.getD_eq_getElem?_getD, List.getElem?_eq_none (by simp [movmaskB]; omega)]; rfl]
      rfl
  · simp at hb

end

/-! ## Lanes: expressions, words given bit by bit, and rounded products of the latter -/

/-- The code's rounding multiplication. -/
def mulhrsW (a b : W) : W := BitVec.ofInt 16 ((a.toInt * b.toInt / 2 ^ 14 + 1) / 2)

inductive V where
  | ex (e : Ex)
  | w (bs : List Bit)
  /-- `mulhrsW` of a word and a constant -/
  | mh (bs : List Bit) (n : Nat)
  deriving Repr, Inhabited

/-- What is known of the lanes: `ρ` gives the variables, `τ` words numbered for the purpose of naming expressions, `num n k` is the number of the atom that
stands for bit `k` of `τ n`, `α` gives the atoms. -/
structure Env where
  ρ : Nat → Nat → W
  τ : Nat → W
  num : Nat → Nat → Nat
  α : Nat → Bool

def V.rel (E : Env) : V → W → Prop
  | .ex e, x => e.eval E.ρ = x
  | .w bs, x => BR E.α bs x
  | .mh bs n, x => ∃ y : W, BR E.α bs y ∧ x = mulhrsW y (BitVec.ofNat 16 n)

/-- The lowest `w` bits of the word numbered `n`, from bit `k` on. -/
def atoms (num : Nat → Nat → Nat) (n : Nat) : (w k : Nat) → List Bit
  | 0, _ => []
  | w + 1, k => .atom (num n k) :: atoms num n w (k + 1)

theorem getB_atoms (num : Nat → Nat → Nat) (n w k i : Nat) : getB (atoms num n w k) i = if i < w then .atom (num n (k + i)) else .c false := by
  induction w generalizing k i with
  | zero => simp [atoms, getB_nil]
  | succ w ih =>
    cases i with
    | zero => simp [atoms, getB_zero]
    | succ i => rw [atoms, getB_succ, ih, show k + 1 + i = k + (i + 1) from by omega]; simp

theorem atoms_ok (E : Env) (n w : Nat) (hα : ∀ k, k < w → E.α (E.num n k) = (E.τ n).getLsbD k) (h : (E.τ n).toNat < 2 ^ w) :
    BR E.α (atoms E.num n w 0) (E.τ n) := fun i => by
  rw [getB_atoms, Nat.zero_add]
  split
  · rename_i hi; rw [← hα i hi]; exact Bit.atom_holds _ _
  · have : (E.τ n).getLsbD i = false := Nat.testBit_lt_two_pow (Nat.lt_of_lt_of_le h (Nat.pow_le_pow_right (by omega) (by omega)))
    rw [this]; rfl

/-- The bits of an expression. -/
def exBits (name : Ex → Option (Nat × Nat)) (num : Nat → Nat → Nat) : Ex → Option (List Bit)
  | .lit n => some (litB 16 n)
  | .v l i =>
    match name (.v l i) with
    | some (n, w) => some (atoms num n w 0)
    | none => none
  | .u o a =>
    match name (.u o a) with
    | some (n, w) => some (atoms num n w 0)
    | none =>
      match exBits name num a with
      | some as => bitsApp o [as]
      | none => none
  | .b o a c =>
    match name (.b o a c) with
    | some (n, w) => some (atoms num n w 0)
    | none =>
      match exBits name num a, exBits name num c with
      | some as, some cs => bitsApp o [as, cs]
      | _, _ => none
  | _ => none

def Env.Names (E : Env) (name : Ex → Option (Nat × Nat)) : Prop :=
  ∀ e n w, name e = some (n, w) → e.eval E.ρ = E.τ n ∧ (∀ k, k < w → E.α (E.num n k) = (E.τ n).getLsbD k) ∧ (E.τ n).toNat < 2 ^ w

theorem Env.Names.ok {E : Env} {name : Ex → Option (Nat × Nat)} (hn : E.Names name) {e : Ex} {n w : Nat} (h : name e = some (n, w)) :
    BR E.α (atoms E.num n w 0) (e.eval E.ρ) := by
  obtain ⟨h1, h2, h3⟩ := hn e n w h
  rw [h1]; exact atoms_ok E n w h2 h3

theorem exBits_ok {E : Env} {name : Ex → Option (Nat × Nat)} (hn : E.Names name) : ∀ (e : Ex) (bs : List Bit), exBits name E.num e = some bs → BR E.α bs (e.eval E.ρ) := by
  intro e
  induction e with
  | lit n => intro bs h; simp only [exBits, Option.some.injEq] at h; subst h; exact litB_ok 16 n
  | v l i =>
    intro bs h
    unfold exBits at h
    split at h
    · rename_i hm; cases h; exact hn.ok hm
    · simp at h
  | u o a ih =>
    intro bs h
    unfold exBits at h
    split at h
    · rename_i hm; cases h; exact hn.ok hm
    · split at h
      · rename_i as has
        obtain ⟨y, hy, hR⟩ := bitsApp_ok o _ _ _ (.cons (ih _ has) .nil) h
        rw [Ex.eval, hy]; exact hR
      · simp at h
  | b o a c iha ihc =>
    intro bs h
    unfold exBits at h
    split at h
    · rename_i hm; cases h; exact hn.ok hm
    · split at h
      · rename_i as cs has hcs
        obtain ⟨y, hy, hR⟩ := bitsApp_ok o _ _ _ (.cons (iha _ has) (.cons (ihc _ hcs) .nil)) h
        rw [Ex.eval, hy]; exact hR
      · simp at h
  | fv => intro bs h; simp [exBits] at h
  | red => intro bs h; simp [exBits] at h

def V.bits (name : Ex → Option (Nat × Nat)) (num : Nat → Nat → Nat) : V → Option (List Bit)
  | .ex e => exBits name num e
  | .w bs => some bs
  | .mh _ _ => none

def V.bitsL (name : Ex → Option (Nat × Nat)) (num : Nat → Nat → Nat) : List V → Option (List (List Bit))
  | [] => some []
  | v :: l =>
    match v.bits name num, V.bitsL name num l with
    | some bs, some bss => some (bs :: bss)
    | _, _ => none

theorem bitsL_ok {E : Env} {name : Ex → Option (Nat × Nat)} (hn : E.Names name) {vs : List V} {xs : List W} (h : List.Forall₂ (V.rel E) vs xs)
    {bss : List (List Bit)} (hb : V.bitsL name E.num vs = some bss) : List.Forall₂ (BR E.α) bss xs := by
  induction h generalizing bss with
  | nil => simp [V.bitsL] at hb; subst hb; exact .nil
  | @cons v x vs xs hv _ ih =>
    unfold V.bitsL at hb
    split at hb
    · rename_i bs bss' h1 h2
      cases hb
      refine .cons ?_ (ih h2)
      cases v with
      | ex e => have := exBits_ok hn e bs h1; rwa [show e.eval E.ρ = x from hv] at this
      | w bs' => cases h1; exact hv
      | mh _ _ => simp [V.bits] at h1
    · simp at hb

/-- Expressions only? -/
def V.exs : List V → Option (List Ex)
  | [] => some []
  | .ex e :: l =>
    match V.exs l with
    | some es => some (e :: es)
    | none => none
  | _ :: _ => none

theorem exs_ok {E : Env} {vs : List V} {xs : List W} (h : List.Forall₂ (V.rel E) vs xs) {es : List Ex} (he : V.exs vs = some es) :
    es.map (Ex.eval E.ρ) = xs := by
  induction h generalizing es with
  | nil => simp [V.exs] at he; subst he; rfl
  | @cons v x vs xs hv _ ih =>
    cases v with
    | ex e =>
      simp only [V.exs] at he
      split at he
      · rename_i es' h'
        cases he
        rw [List.map_cons, ih h']
        exact congrArg (· :: xs) hv
      · simp at he
    | _ => simp [V.exs] at he

def exApp (o : Op) (es : List Ex) : Option Ex :=
  match foldLit o es with
  | some e => some e
  | none =>
    match es with
    | [a] => if un o then some (.u o a) else none
    | [a, c] => if bin o then some (.b o a c) else none
    | _ => none

theorem exApp_ok (ρ : Nat → Nat → W) {o : Op} {es : List Ex} {e : Ex} (h : exApp o es = some e) : Op.eval o (es.map (Ex.eval ρ)) = some (e.eval ρ) := by
  unfold exApp at h
  split at h
  · rename_i hf; cases h; exact foldLit_eval ρ _ _ _ hf
  · split at h
    · split at h
      · rename_i a _ hu
        cases h
        obtain ⟨y, hy⟩ := un_eval hu (a.eval ρ)
        simp only [List.map_cons, List.map_nil, Ex.eval, hy, Option.getD_some]
      · simp at h
    · split at h
      · rename_i a c _ hu
        cases h
        obtain ⟨y, hy⟩ := bin_eval hu (a.eval ρ) (c.eval ρ)
        simp only [List.map_cons, List.map_nil, Ex.eval, hy, Option.getD_some]
      · simp at h
    · simp at h

/-- Operations on lanes: on expressions as long as possible. -/
def V.app (name : Ex → Option (Nat × Nat)) (num : Nat → Nat → Nat) (o : Op) (vs : List V) : Option V :=
  match o, vs with
  | .mov, [a] => some a
  | .mulhrs, [.w bs, .ex (.lit n)] => some (.mh bs n)
  | o, vs =>
    match (match V.exs vs with
      | some es => exApp o es
      | none => none) with
    | some e => some (.ex e)
    | none =>
      match V.bitsL name num vs with
      | some bss =>
        match bitsApp o bss with
        | some bs => some (.w bs)
        | none => none
      | none => none

def V.sem (name : Ex → Option (Nat × Nat)) (num : Nat → Nat → Nat) : Sem V := ⟨V.app name num, fun n => .ex (.lit n)⟩

theorem V.sound {E : Env} {name : Ex → Option (Nat × Nat)} (hn : E.Names name) : Sound (V.sem name E.num) evalW (V.rel E) := by
  refine ⟨fun o vs xs v h ha => ?_, fun n => rfl⟩
  show ∃ b, Op.eval o xs = some b ∧ V.rel E v b
  replace ha : V.app name E.num o vs = some v := ha
  unfold V.app at ha
  split at ha
  · obtain _ | ⟨h1, _ | _⟩ := h; cases ha; exact ⟨_, rfl, h1⟩
  · obtain _ | ⟨h1, _ | ⟨h2, _ | _⟩⟩ := h
    cases ha
    rename_i x y
    refine ⟨_, rfl, x, h1, ?_⟩
    rw [show y = BitVec.ofNat 16 _ from h2.symm]; rfl
  · split at ha
    · rename_i e he
      cases ha
      split at he
      · rename_i es hes
        refine ⟨_, ?_, rfl⟩
        rw [← exs_ok h hes]
        exact exApp_ok E.ρ he
      · simp at he
    · split at ha
      · rename_i bss hbss
        split at ha
        · rename_i bs hbs
          cases ha
          exact bitsApp_ok o _ _ _ (bitsL_ok hn h hbss) hbs
        · simp at ha
      · simp at ha

end Verif.Avx
