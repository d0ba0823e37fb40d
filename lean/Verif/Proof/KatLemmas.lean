import Verif.Proof.SpongeSpec
import Verif.Proof.Sample

/-! # Keccak on literal states -/

namespace Verif.Proof
open Verif.Model Verif.Spec

def laneBytes (w : List UInt64) : List UInt8 := w.flatMap fun u => (List.range 8).map fun k => byteOf u k

theorem laneBytes_length (w : List UInt64) : (laneBytes w).length = 8 * w.length := by
  unfold laneBytes; rw [flatMap_len (w := 8) _ fun a => by simp]

theorem laneBytes_getD (w : List UInt64) {i k : Nat} (hi : i < w.length) (hk : k < 8) : (laneBytes w).getD (8 * i + k) 0 = byteOf w[i] k := by
  unfold laneBytes
  rw [List.getD_eq_getElem?_getD, flatMap_get (w := 8) _ (fun a => by simp) _ _ _ hk, List.getElem?_eq_getElem hi]
  simp [hk]

theorem rb_laneBytes {w : List UInt64} (h : w.length = 25) : RB (Mem.ofList w) (laneBytes w) := by
  refine ⟨by simp [Mem.ofList, h], by rw [laneBytes_length, h], fun i hi => ⟨w[i], by simp [Mem.ofList, h, hi], fun z => ?_⟩⟩
  have hz := z.isLt
  rw [bytesToBits, show (64 * i + z.val) / 8 = 8 * i + z.val / 8 from by omega, laneBytes_getD w (by omega) (by omega),
    testBit_byteOf _ _ (by omega) _ (by omega)]
  congr 1
  ext
  show z.val = 8 * (z.val / 8) + (64 * i + z.val) % 8
  omega

theorem RB.inj {s : Mem UInt64} {B B' : List UInt8} (h : RB s B) (h' : RB s B') : B = B' := by
  apply h2b_inj
  apply List.ext_getElem (by rw [h2b_length, h2b_length, h.2.1, h'.2.1])
  intro k h1 h2
  rw [h2b_length, h.2.1] at h1
  rw [h2b_getElem, h2b_getElem]
  obtain ⟨v, hv, hb⟩ := h.2.2 (k / 64) (by omega)
  obtain ⟨v', hv', hb'⟩ := h'.2.2 (k / 64) (by omega)
  rw [hv] at hv'
  obtain rfl : v = v' := Option.some.inj (Option.some.inj hv')
  have := (hb ⟨k % 64, by omega⟩).symm.trans (hb' ⟨k % 64, by omega⟩)
  dsimp only at this
  rwa [show 64 * (k / 64) + k % 64 = k from by omega] at this

theorem kf_lit {w w' : List UInt64} (h : w.length = 25) (h' : w'.length = 25) (hr : Runs (KeccakF1600_StatePermute (Mem.ofList w)) (· = Mem.ofList w')) :
    KF (laneBytes w) = laneBytes w' := by
  obtain ⟨s, _, _, h1, h2⟩ := ((permute_runs (rb_laneBytes h)).and hr).exists_ok
  subst h2
  exact h1.inj (rb_laneBytes h')

theorem kout_one {r n : Nat} {B : List UInt8} (h : n ≤ r) (hr : r ≤ 200 := by omega) : kout r B 0 n = (KF B).take n := by
  apply List.ext_getElem (by rw [kout_length, List.length_take, KF_length]; omega)
  intro i h1 h2
  rw [kout_length] at h1
  simp only [kout, List.getElem_map, List.getElem_range, List.getElem_take, Nat.zero_add]
  unfold kstream
  rw [Nat.div_eq_of_lt (by omega), Nat.mod_eq_of_lt (by omega)]
  show (KF B).getD i 0 = _
  rw [List.getD_eq_getElem?_getD, List.getElem?_eq_getElem (by rw [KF_length]; omega)]
  rfl

theorem padded_lt {r : Nat} {p : UInt8} {M : List UInt8} (h : M.length < r) :
    padded r p M = xorBytes (xorBytes (List.replicate 200 0) 0 M) M.length (padB r M.length p) := by
  unfold padded
  rw [absorbS_lt r M _ 0 (by omega)]
  simp only [Nat.zero_add]

theorem sample_of_blocks {M : List UInt8} {a b c d : List UInt64} (hM : M.length < 168)
    (h0 : xorBytes (xorBytes (List.replicate 200 0) 0 M) M.length (padB 168 M.length 0x1F) = laneBytes a) (h1 : KF (laneBytes a) = laneBytes b)
    (h2 : KF (laneBytes b) = laneBytes c) (h3 : KF (laneBytes c) = laneBytes d)
    (hs : (sampled ((laneBytes b).take 168 ++ ((laneBytes c).take 168 ++ (laneBytes d).take 168))).length = 256) : (SampleNTT 168 M).isSome := by
  have e : SHAKE128 M (3 * 168) = (laneBytes b).take 168 ++ ((laneBytes c).take 168 ++ (laneBytes d).take 168) := by
    rw [SHAKE128_eq, padded_lt hM, h0, ← h3, ← h2, ← h1]
    have l : ∀ B, ((KF B).take 168).length = 168 := fun B => by rw [List.length_take, KF_length]; omega
    apply List.ext_getElem (by rw [kout_length, List.length_append, List.length_append, l, l, l])
    intro i h4 h5
    rw [kout_length] at h4
    simp only [kout, List.getElem_map, List.getElem_range, Nat.zero_add]
    unfold kstream
    have g : ∀ (B : List UInt8) (j : Nat) (hj : j < 168), (KF B).getD j 0 = ((KF B).take 168)[j]'(by rw [l]; exact hj) := fun B j hj => by
      rw [List.getD_eq_getElem?_getD, List.getElem_take, List.getElem?_eq_getElem (by rw [KF_length]; omega)]
      rfl
    by_cases c1 : i < 168
    · rw [List.getElem_append_left (by rw [l]; exact c1), show i / 168 = 0 from by omega, show i % 168 = i from by omega]
      exact g _ _ c1
    · rw [List.getElem_append_right (by rw [l]; omega)]
      simp only [l]
      by_cases c2 : i < 336
      · rw [List.getElem_append_left (by rw [l]; omega), show i / 168 = 1 from by omega, show i % 168 = i - 168 from by omega]
        exact g _ _ (by omega)
      · rw [List.getElem_append_right (by rw [l]; omega)]
        simp only [l]
        rw [show i / 168 = 2 from by omega, show i % 168 = i - 168 - 168 from by omega]
        exact g _ _ (by omega)
  rw [SampleNTT_eq, e, if_pos hs]
  rfl

theorem holds_replicate {b : UInt8} {n o k : Nat} (h : o + k ≤ n) : (Mem.ofList (List.replicate n b)).Holds o (List.replicate k b) := by
  intro i hi
  have hi' : i < k := by rwa [List.length_replicate] at hi
  rw [List.getElem_replicate]
  simp only [Mem.ofList, List.getElem?_toArray, List.getElem?_map]
  rw [List.getElem?_eq_getElem (by rw [List.length_replicate]; omega), List.getElem_replicate]
  rfl

end Verif.Proof
