import Verif.Proof.Sponge2
import Mathlib.Tactic.LinearCombination

/-! # The byte-level sponge is the sponge of FIPS 202 -/

namespace Verif.Proof
open Verif.Model Verif.Spec

/-- The domain suffix and first padding bit, as the byte `p` used by the code. -/
def Sfx (sfx : List Bool) (p : UInt8) : Prop := sfx.length ≤ 6 ∧ ∀ k, k < 8 → p.toNat.testBit k = (sfx ++ [true]).getD k false

theorem sfx_sha3 : Sfx [false, true] 0x06 := ⟨by simp, by decide⟩
theorem sfx_shake : Sfx [true, true, true, true] 0x1F := ⟨by simp, by decide⟩

theorem h2b_padB {sfx : List Bool} {p : UInt8} (hs : Sfx sfx p) (r pos : Nat) (h : pos < r) :
    h2b (padB r pos p) = sfx ++ ([true] ++ List.replicate (8 * (r - pos) - sfx.length - 2) false ++ [true]) := by
  have hl := padB_length r pos p h
  obtain ⟨h6, hp⟩ := hs
  apply List.ext_getElem
  · rw [h2b_length, hl]; simp; omega
  · intro k h1 h2
    rw [h2b_length, hl] at h1
    rw [h2b_getElem, bytesToBits, getD_padB _ _ _ h, UInt8.toNat_xor, Nat.testBit_xor]
    have e : (sfx ++ ([true] ++ List.replicate (8 * (r - pos) - sfx.length - 2) false ++ [true]))[k] =
        ((sfx ++ [true]) ++ (List.replicate (8 * (r - pos) - sfx.length - 2) false ++ [true])).getD k false := by
      have e' : (sfx ++ [true]) ++ (List.replicate (8 * (r - pos) - sfx.length - 2) false ++ [true]) =
          sfx ++ ([true] ++ List.replicate (8 * (r - pos) - sfx.length - 2) false ++ [true]) := by simp only [List.append_assoc]
      rw [List.getD_eq_getElem?_getD, e', List.getElem?_eq_getElem h2]; rfl
    rw [e]
    have a : (if k / 8 = 0 then p else 0).toNat.testBit (k % 8) = (sfx ++ [true]).getD k false := by
      by_cases hk : k < 8
      · rw [if_pos (by omega), Nat.mod_eq_of_lt hk, hp k hk]
      · rw [if_neg (by omega), getD_ge (by simp; omega)]; simp
    have b : (if k / 8 = r - pos - 1 then (0x80 : UInt8) else 0).toNat.testBit (k % 8) = decide (k = 8 * (r - pos) - 1) := by
      by_cases hk : k / 8 = r - pos - 1
      · rw [if_pos hk]
        have : ∀ j, j < 8 → (0x80 : UInt8).toNat.testBit j = decide (j = 7) := by decide
        rw [this _ (by omega)]
        simp only [decide_eq_decide]; omega
      · rw [if_neg hk]
        have : ¬ k = 8 * (r - pos) - 1 := by omega
        simp [this]
    rw [a, b]
    by_cases hk : k < sfx.length + 1
    · rw [getD_app_left (l := sfx ++ [true]) (by simp; omega)]
      have : ¬ k = 8 * (r - pos) - 1 := by omega
      simp [this]
    · rw [getD_ge (l := sfx ++ [true]) (by simp; omega), getD_app_right (l := sfx ++ [true]) (by simp; omega), Bool.false_xor]
      by_cases hk2 : k = 8 * (r - pos) - 1
      · rw [getD_app_right (by simp; omega)]
        have : k - (sfx ++ [true]).length - (List.replicate (8 * (r - pos) - sfx.length - 2) false).length = 0 := by simp; omega
        rw [this]; simp [hk2]
      · rw [getD_app_left (by simp; omega), List.getD_eq_getElem?_getD, List.getElem?_replicate, if_pos (by simp; omega)]
        simp [hk2]

theorem pad101_eq (r m l : Nat) (hr : 0 < r) (hl : l ≤ 6) :
    pad101 (8 * r) (8 * m + l) = [true] ++ List.replicate (8 * (r - m % r) - l - 2) false ++ [true] := by
  unfold pad101
  dsimp only
  congr 3
  have h1 := Nat.mod_lt m hr
  have h2 := Nat.div_add_mod m r
  have e : (-((8 * m + l : Nat) : Int) - 2) % ((8 * r : Nat) : Int) = ((8 * (r - m % r) - l - 2 : Nat) : Int) := by
    have e1 : (-((8 * m + l : Nat) : Int) - 2) = ((8 * (r - m % r) - l - 2 : Nat) : Int) + ((8 * r : Nat) : Int) * (-((m / r : Nat) : Int) - 1) := by
      have : ((8 * (r - m % r) - l - 2 : Nat) : Int) = 8 * (r : Int) - 8 * ((m % r : Nat) : Int) - l - 2 := by omega
      have h3 : (r : Int) * ((m / r : Nat) : Int) + ((m % r : Nat) : Int) = m := by exact_mod_cast h2
      rw [this]
      push_cast at h3 ⊢
      linear_combination 8 * h3
    rw [e1, Int.add_mul_emod_self_left]
    apply Int.emod_eq_of_lt <;> omega
  rw [e]; rfl

theorem absorbS_pos (r : Nat) (hr : 0 < r) (M : List UInt8) : ∀ (B : List UInt8) (pos : Nat), pos < r → (absorbS r (B, pos) M).2 = (pos + M.length) % r := by
  induction M with
  | nil => intro B pos h; simp [absorbS, Nat.mod_eq_of_lt h]
  | cons b M ih =>
    intro B pos h
    unfold absorbS
    rw [List.foldl_cons, absStep]
    dsimp only
    split
    · rename_i h1
      have := ih (KF (xorBytes B pos [b])) 0 hr
      unfold absorbS at this
      rw [this, List.length_cons, show pos + (M.length + 1) = r + (0 + M.length) from by omega, Nat.add_mod_left]
    · have := ih (xorBytes B pos [b]) (pos + 1) (by omega)
      unfold absorbS at this
      rw [this, List.length_cons, show pos + (M.length + 1) = pos + 1 + M.length from by omega]

theorem absorbS_len (r : Nat) (M : List UInt8) : ∀ st : List UInt8 × Nat, st.1.length = 200 → (absorbS r st M).1.length = 200 := by
  induction M with
  | nil => intro st h; exact h
  | cons b M ih =>
    intro st h
    unfold absorbS
    rw [List.foldl_cons]
    apply ih
    unfold absStep
    split
    · exact KF_length _
    · rw [xorBytes_length]; exact h

theorem xor_block (S L : List UInt8) (r : Nat) (hS : S.length = 200) (hL : L.length = r) (hr : r ≤ 200) :
    List.zipWith xor (h2b S) (h2b L ++ List.replicate (1600 - 8 * r) false) = h2b (xorBytes S 0 L) := by
  rw [show 1600 - 8 * r = 8 * (200 - r) from by omega, ← h2b_zero, ← h2b_append, ← h2b_xor]
  congr 1
  apply ext_getD
  · rw [xorBytes_length]; simp; omega
  · intro j hj
    simp at hj
    rw [xorBytes_getD _ _ _ (by omega), if_pos (by omega), Nat.sub_zero]
    have e : (L ++ List.replicate (200 - r) 0).getD j 0 = L.getD j 0 := by
      by_cases h : j < r
      · rw [getD_app_left (by omega)]
      · rw [getD_app_right (by omega), getD_ge (l := L) (by omega), List.getD_eq_getElem?_getD, List.getElem?_replicate]; split <;> rfl
    rw [← e]
    have h1 : j < S.length := by omega
    have h2 : j < (L ++ List.replicate (200 - r) 0).length := by simp; omega
    simp only [List.getD_eq_getElem?_getD, List.getElem?_zipWith, List.getElem?_eq_getElem h1, List.getElem?_eq_getElem h2]
    rfl

theorem absorb_blocks (r : Nat) (hr0 : 0 < r) (hr : r ≤ 200) (P : List UInt8) (Z : List UInt8) (hZ : Z.length = 200) : ∀ n, r * n ≤ P.length →
    (List.range n).foldl (fun S i => keccakP (List.zipWith xor S (block (8 * r) (h2b P) i ++ List.replicate (1600 - 8 * r) false))) (h2b Z)
      = h2b (absorbS r (Z, 0) (P.take (r * n))).1
  | 0, _ => by simp [absorbS]
  | n + 1, h => by
    rw [Nat.mul_succ] at h
    rw [List.range_succ, List.foldl_append, List.foldl_cons, List.foldl_nil, absorb_blocks r hr0 hr P Z hZ n (by omega)]
    have hb : block (8 * r) (h2b P) n = h2b (slice P (r * n) r) := by
      unfold block slice
      rw [h2b_take, h2b_drop, Nat.mul_assoc]
    have hsl : (slice P (r * n) r).length = r := length_slice (by omega)
    have hp : (absorbS r (Z, 0) (P.take (r * n))).2 = 0 := by
      rw [absorbS_pos r hr0 _ _ _ hr0, List.length_take, show min (r * n) P.length = r * n from by omega]; simp
    rw [hb, xor_block _ _ _ (absorbS_len _ _ _ hZ) hsl hr, ← h2b_KF]
    congr 1
    have e : P.take (r * (n + 1)) = P.take (r * n) ++ slice P (r * n) r := by unfold slice; rw [Nat.mul_succ, ← List.take_add]
    rw [e, absorbS_append, show absorbS r (Z, 0) (P.take (r * n)) = ((absorbS r (Z, 0) (P.take (r * n))).1, 0) from Prod.ext rfl hp,
      absorbS_full r (slice P (r * n) r) _ _ (by rw [hsl]; omega) hr0]

theorem spongeAbsorb_eq {sfx : List Bool} {p : UInt8} (hs : Sfx sfx p) (r : Nat) (hr0 : 0 < r) (hr : r ≤ 200) (M : List UInt8) :
    spongeAbsorb keccakP (8 * r) (h2b M ++ sfx) = h2b (KF (padded r p M)) := by
  have hm := Nat.mod_lt M.length hr0
  have hP : (h2b M ++ sfx) ++ pad101 (8 * r) (h2b M ++ sfx).length = h2b (M ++ padB r (M.length % r) p) := by
    rw [List.length_append, h2b_length, pad101_eq r _ _ hr0 hs.1, h2b_append, h2b_padB hs r _ hm, List.append_assoc]
  have hlen : (M ++ padB r (M.length % r) p).length = r * (M.length / r + 1) := by
    rw [List.length_append, padB_length _ _ _ hm]
    have := Nat.div_add_mod M.length r
    rw [Nat.mul_succ]; omega
  unfold spongeAbsorb
  dsimp only
  rw [hP, h2b_length, Nat.mul_div_mul_left _ _ (by omega : 0 < 8), hlen, Nat.mul_div_cancel_left _ hr0]
  have hz := h2b_zero 200
  have := absorb_blocks r hr0 hr (M ++ padB r (M.length % r) p) (List.replicate 200 0) List.length_replicate (M.length / r + 1) (by omega)
  rw [hz] at this
  refine this.trans ?_
  rw [← hlen, List.take_length, absorbS_append]
  have hp : (absorbS r (List.replicate 200 0, 0) M).2 = M.length % r := by rw [absorbS_pos r hr0 _ _ _ hr0, Nat.zero_add]
  unfold padded
  dsimp only
  rw [hp]
  generalize absorbS r (List.replicate 200 0, 0) M = st at *
  obtain ⟨S, q⟩ := st
  dsimp only at *
  subst hp
  rw [absorbS_full r _ _ _ (by rw [padB_length _ _ _ hm]; omega) hm]

theorem iterate_KF (S : List UInt8) : ∀ i, keccakP^[i] (h2b S) = h2b (KF^[i] S)
  | 0 => rfl
  | i + 1 => by rw [Function.iterate_succ_apply', Function.iterate_succ_apply', iterate_KF S i, h2b_KF]

theorem KF_iter_length (S : List UInt8) (i : Nat) : (KF^[i] (KF S)).length = 200 := by
  rw [← Function.iterate_succ_apply, Function.iterate_succ_apply']; exact KF_length _

theorem spongeSqueeze_eq (r : Nat) (hr0 : 0 < r) (hr : r ≤ 200) (B0 : List UInt8) (n : Nat) :
    spongeSqueeze keccakP (8 * r) (h2b (KF B0)) (8 * n) = h2b (kout r B0 0 n) := by
  have hlen : ∀ i, ((keccakP^[i] (h2b (KF B0))).take (8 * r)).length = 8 * r := by
    intro i
    rw [iterate_KF, List.length_take, h2b_length, KF_iter_length]; omega
  have hd : 8 * n / (8 * r) = n / r := Nat.mul_div_mul_left _ _ (by omega)
  have hN : n < r * (n / r + 1) := by
    have := Nat.div_add_mod n r; have := Nat.mod_lt n hr0
    rw [Nat.mul_succ]; omega
  unfold spongeSqueeze
  rw [hd]
  apply List.ext_getElem
  · rw [List.length_take, flatMap_len _ hlen, List.length_range, h2b_length, kout_length, Nat.mul_assoc]; omega
  · intro k h1 h2
    rw [h2b_length, kout_length] at h2
    rw [List.getElem_take, h2b_getElem]
    have hk : k / 8 < n := by omega
    have hq : k / 8 / r < n / r + 1 := Nat.lt_succ_of_le (Nat.div_le_div_right (by omega))
    have hk2 : k = 8 * r * (k / 8 / r) + (8 * (k / 8 % r) + k % 8) := by
      have := Nat.div_add_mod (k / 8) r
      rw [Nat.mul_assoc]; omega
    have hr8 : k / 8 % r < r := Nat.mod_lt _ hr0
    have := flatMap_get (w := 8 * r) _ hlen (List.range (n / r + 1)) (k / 8 / r) (8 * (k / 8 % r) + k % 8) (by omega)
    rw [← hk2] at this
    apply Option.some_inj.mp
    rw [← List.getElem?_eq_getElem, this, List.getElem?_range hq, Option.bind_some, iterate_KF, List.getElem?_take, if_pos (by omega),
      List.getElem?_eq_getElem (by rw [h2b_length, KF_iter_length]; omega), h2b_getElem, bytesToBits, bytesToBits]
    have e : (kout r B0 0 n).getD (k / 8) 0 = kstream r B0 (k / 8) := by simp [kout, hk]
    rw [e, kstream, Function.iterate_succ_apply, show (8 * (k / 8 % r) + k % 8) / 8 = k / 8 % r from by omega,
      show (8 * (k / 8 % r) + k % 8) % 8 = k % 8 from by omega]

theorem KECCAK_eq {sfx : List Bool} {p : UInt8} (hs : Sfx sfx p) (r : Nat) (hr0 : 0 < r) (hr : r ≤ 200) (M : List UInt8) (n c : Nat) (hc : 1600 - c = 8 * r) :
    b2h (KECCAK c (h2b M ++ sfx) (8 * n)) = kout r (padded r p M) 0 n := by
  unfold KECCAK
  rw [hc, spongeAbsorb_eq hs r hr0 hr, spongeSqueeze_eq r hr0 hr, b2h_h2b]

theorem SHAKE128_eq (M : List UInt8) (n : Nat) : SHAKE128 M n = kout 168 (padded 168 0x1F M) 0 n :=
  KECCAK_eq sfx_shake 168 (by omega) (by omega) M n 256 rfl
theorem SHAKE256_eq (M : List UInt8) (n : Nat) : SHAKE256 M n = kout 136 (padded 136 0x1F M) 0 n :=
  KECCAK_eq sfx_shake 136 (by omega) (by omega) M n 512 rfl
theorem SHA3_256_eq (M : List UInt8) : SHA3_256 M = kout 136 (padded 136 0x06 M) 0 32 :=
  KECCAK_eq sfx_sha3 136 (by omega) (by omega) M 32 512 rfl
theorem SHA3_512_eq (M : List UInt8) : SHA3_512 M = kout 72 (padded 72 0x06 M) 0 64 :=
  KECCAK_eq sfx_sha3 72 (by omega) (by omega) M 64 1024 rfl

end Verif.Proof
