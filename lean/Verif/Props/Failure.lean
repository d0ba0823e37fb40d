import Verif.Proof.Failure

/-! # Properties of decryption failure (C60)

The noise of decryption when the outputs of the PRF are replaced by independent uniform byte strings. `NoiseBytes P` is the set of all choices of these strings. -/

set_option autoImplicit false

namespace Verif.Props
open Verif.Model Verif.Spec Verif.Proof Finset

/-- There are finitely many choices. -/
theorem C60_space (P : Params) : Nat.card (NoiseBytes P) = 256 ^ (64 * (3 * P.k * P.η₁ + P.k * P.η₂ + P.η₂)) := card_noiseBytes P

/-- C60. What the count means for the scheme: if the outputs of the PRF for the seed σ of a key and the coins r of an encryption are the byte strings `b`, then decryption gives the
message back if and only if the noise for `b` is within the threshold. -/
theorem C60_meaning (p : ParamSet) (N N1 N2 : Nat) (d m r ek dk c : List UInt8) (A : Nat → Nat → Rq) (b : NoiseBytes (fips p))
    (hA : ∀ i < (fips p).k, ∀ j < (fips p).k, SampleNTT N ((G (d ++ [UInt8.ofNat (fips p).k])).1 ++ [UInt8.ofNat j, UInt8.ofNat i]) = some (A i j))
    (hm : m.length = 32) (hk : K_PKE_KeyGen (fips p) N1 d = some (ek, dk)) (hc : K_PKE_Encrypt (fips p) N2 ek m r = some c)
    (hs : ∀ i, PRF (fips p).η₁ (G (d ++ [UInt8.ofNat (fips p).k])).2 (UInt8.ofNat i.val) = List.ofFn fun j => UInt8.ofNat (b.s i j).val)
    (he : ∀ i, PRF (fips p).η₁ (G (d ++ [UInt8.ofNat (fips p).k])).2 (UInt8.ofNat ((fips p).k + i.val)) = List.ofFn fun j => UInt8.ofNat (b.e i j).val)
    (hy : ∀ i, PRF (fips p).η₁ r (UInt8.ofNat i.val) = List.ofFn fun j => UInt8.ofNat (b.y i j).val)
    (he1 : ∀ i, PRF (fips p).η₂ r (UInt8.ofNat ((fips p).k + i.val)) = List.ofFn fun j => UInt8.ofNat (b.e1 i j).val)
    (he2 : PRF (fips p).η₂ r (UInt8.ofNat (2 * (fips p).k)) = List.ofFn fun j => UInt8.ofNat (b.e2 j).val) :
    K_PKE_Decrypt (fips p) dk c = m ↔ WithinThreshold m (noiseOf (fips p) A m b) := by
  have ⟨hu, hu', hv, hv'⟩ : 0 < (fips p).du ∧ (fips p).du ≤ 11 ∧ 0 < (fips p).dv ∧ (fips p).dv ≤ 11 := by cases p <;> decide
  rw [decrypt_encrypt_iff hu hu' hv hv' hA hm hk hc]
  have e : decryptionNoise (fips p) A (G (d ++ [UInt8.ofNat (fips p).k])).2 m r = noiseOf (fips p) A m b := by
    have hc : ∀ {η n : Nat} {σ : List UInt8} {o : Nat} {x : Fin (fips p).k → Fin n → Fin 256}, (∀ i, PRF η σ (UInt8.ofNat (o + i.val)) = List.ofFn fun j => UInt8.ofNat (x i j).val) →
        ∀ i < (fips p).k, noise η σ (o + i) = cbdVec η x i := fun {η n σ o x} h i hi => by
      unfold noise cbdVec
      rw [dif_pos hi, h ⟨i, hi⟩]
    have hs' := hc (o := 0) (x := b.s) (by simpa using hs)
    have hy' := hc (o := 0) (x := b.y) (by simpa using hy)
    simp only [Nat.zero_add] at hs' hy'
    unfold noiseOf
    rw [← he2]
    exact noiseTerm_congr A m hs' (hc he) hy' (hc he1) rfl
  rw [e]

/-- C60. ML-KEM-512: for every matrix and every message, decryption fails for at most a 2^-42 part of the byte strings of the noise. -/
theorem C60_512 (A : Nat → Nat → Rq) (m : List UInt8) :
    Set.ncard {b : NoiseBytes ML_KEM_512 | ¬ WithinThreshold m (noiseOf ML_KEM_512 A m b)} * 2 ^ 42 ≤ Nat.card (NoiseBytes ML_KEM_512) := by
  refine failure_count ML_KEM_512 (by decide) (by decide) (by decide) rfl A m 726 72 42 14641 14533
    (2 * 14641 ^ 9 + 12 * 14641 ^ 4 * 14533 ^ 5 + 30 * 14641 * 14533 ^ 8 + 20 * 14533 ^ 9) (2 * 14641 ^ 16 + 8 * 14641 ^ 9 * 14533 ^ 7 + 6 * 14641 ^ 4 * 14533 ^ 12)
    (14533 ^ 9) (14533 ^ 16) rfl (by decide) (by decide) (by decide) (by decide) (by decide) (by decide) (by decide) ?_ ?_ (by decide +kernel)
  · refine (sum_cbdVal3 fun v => ((14641 : Nat) / (14533 : Nat) : ℝ) ^ (v.natAbs ^ 2)).trans ?_
    norm_num
  · refine (sum_cbdVal2 fun v => ((14641 : Nat) / (14533 : Nat) : ℝ) ^ ((v.natAbs + 2) ^ 2)).trans ?_
    norm_num

/-- C60. ML-KEM-768: at most a 2^-45 part. -/
theorem C60_768 (A : Nat → Nat → Rq) (m : List UInt8) :
    Set.ncard {b : NoiseBytes ML_KEM_768 | ¬ WithinThreshold m (noiseOf ML_KEM_768 A m b)} * 2 ^ 45 ≤ Nat.card (NoiseBytes ML_KEM_768) := by
  refine failure_count ML_KEM_768 (by decide) (by decide) (by decide) rfl A m 726 76 45 131769 131047
    (2 * 131769 ^ 4 + 8 * 131769 * 131047 ^ 3 + 6 * 131047 ^ 4) (2 * 131769 ^ 16 + 8 * 131769 ^ 9 * 131047 ^ 7 + 6 * 131769 ^ 4 * 131047 ^ 12)
    (131047 ^ 4) (131047 ^ 16) rfl (by decide) (by decide) (by decide) (by decide) (by decide) (by decide) (by decide) ?_ ?_ (by decide +kernel)
  · refine (sum_cbdVal2 fun v => ((131769 : Nat) / (131047 : Nat) : ℝ) ^ (v.natAbs ^ 2)).trans ?_
    norm_num
  · refine (sum_cbdVal2 fun v => ((131769 : Nat) / (131047 : Nat) : ℝ) ^ ((v.natAbs + 2) ^ 2)).trans ?_
    norm_num

/-- C60. ML-KEM-1024: at most a 2^-83 part. -/
theorem C60_1024 (A : Nat → Nat → Rq) (m : List UInt8) :
    Set.ncard {b : NoiseBytes ML_KEM_1024 | ¬ WithinThreshold m (noiseOf ML_KEM_1024 A m b)} * 2 ^ 83 ≤ Nat.card (NoiseBytes ML_KEM_1024) := by
  refine failure_count ML_KEM_1024 (by decide) (by decide) (by decide) rfl A m 778 130 83 302642 298417
    (2 * 302642 ^ 4 + 8 * 302642 * 298417 ^ 3 + 6 * 298417 ^ 4) (2 * 302642 ^ 9 + 8 * 302642 ^ 4 * 298417 ^ 5 + 6 * 302642 * 298417 ^ 8)
    (298417 ^ 4) (298417 ^ 9) rfl (by decide) (by decide) (by decide) (by decide) (by decide) (by decide) (by decide) ?_ ?_ (by decide +kernel)
  · refine (sum_cbdVal2 fun v => ((302642 : Nat) / (298417 : Nat) : ℝ) ^ (v.natAbs ^ 2)).trans ?_
    norm_num
  · refine (sum_cbdVal2 fun v => ((302642 : Nat) / (298417 : Nat) : ℝ) ^ ((v.natAbs + 1) ^ 2)).trans ?_
    norm_num

/-- The strings of only zero bytes; and those whose coefficients are all 3 in e and y, and 0 in the others. -/
def zeroBytes : NoiseBytes ML_KEM_512 := ⟨fun _ _ => 0, fun _ _ => 0, fun _ _ => 0, fun _ _ => 0, fun _ => 0⟩
def threes (j : Fin (64 * 3)) : Fin 256 := if j.val % 3 = 0 then 199 else if j.val % 3 = 1 then 113 else 28
def maxBytes : NoiseBytes ML_KEM_512 := ⟨fun _ _ => 0, fun _ => threes, fun _ => threes, fun _ _ => 0, fun _ => 0⟩

theorem cbd_zero : ∀ i : Fin 256, cbdInt 3 (bytesOf fun _ : Fin (64 * 3) => 0) i.val = 0 := by decide +kernel
theorem cbd_threes : ∀ i : Fin 256, cbdInt 3 (bytesOf threes) i.val = 3 := by decide +kernel

/-- Cases: for every matrix and message, zero bytes are decrypted correctly and the largest ones are not. -/
theorem zero_max_bytes (A : Nat → Nat → Rq) (m : List UInt8) : WithinThreshold m (noiseOf ML_KEM_512 A m zeroBytes) ∧ ¬ WithinThreshold m (noiseOf ML_KEM_512 A m maxBytes) := by
  have hz : ∀ (g : Fin 256 → Int) n, convI (fun _ => 0) g n = 0 := fun g n => by rw [convI_eq]; simp
  have v0 : ∀ t, vecI ML_KEM_512.η₁ zeroBytes.s t = fun _ => 0 := fun t => funext cbd_zero
  have v0' : ∀ t, vecI ML_KEM_512.η₁ zeroBytes.e t = fun _ => 0 := fun t => funext cbd_zero
  have w0 : ∀ t, vecI ML_KEM_512.η₁ maxBytes.s t = fun _ => 0 := fun t => funext cbd_zero
  have w1 : ∀ t, vecI ML_KEM_512.η₁ maxBytes.e t = fun _ => 3 := fun t => funext cbd_threes
  have w2 : ∀ t, vecI ML_KEM_512.η₁ maxBytes.y t = fun _ => 3 := fun t => funext cbd_threes
  constructor
  · refine within_of_linPart ML_KEM_512 (by decide) (by decide) A m rfl zeroBytes fun n => ?_
    unfold linPart
    simp only [v0, v0', hz, Finset.sum_const_zero]
    decide
  · intro h
    obtain ⟨z, e, h1, h2⟩ := h 255
    obtain ⟨r, hr, e'⟩ := noiseOf_lift ML_KEM_512 (by decide) (by decide) A m maxBytes 255
    have hl : linPart 255 maxBytes.s maxBytes.e maxBytes.y (wI ML_KEM_512 (by decide) A maxBytes.y maxBytes.e1) = 4608 := by
      unfold linPart
      simp only [w0, w1, w2, hz, Finset.sum_const_zero]
      decide +kernel
    rw [hl] at e'
    rw [e', ZMod.intCast_eq_intCast_iff_dvd_sub] at e
    have hr' : |r| ≤ 106 := hr
    have := abs_le.1 hr'
    obtain ⟨c, hc⟩ := e
    push_cast at hc
    split at h2 <;> omega

end Verif.Props
