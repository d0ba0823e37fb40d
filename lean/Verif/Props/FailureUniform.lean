import Verif.Proof.FailureCount
import Verif.Props.Failure
import Verif.Props.Uniform

/-! # Properties of decryption failure for a uniform matrix (C71)

C60 holds for every matrix. Here the matrix is uniform too, and independent of the byte strings of the noise: the space is the set of all pairs of a matrix and byte strings. -/

set_option autoImplicit false

namespace Verif.Props
open Verif.Model Verif.Spec Verif.Proof Finset

/-- The number of pairs. -/
theorem C71_space (P : Params) : Nat.card ((Fin P.k → Fin P.k → Rq) × NoiseBytes P) = 3329 ^ (256 * P.k * P.k) * 256 ^ (64 * (3 * P.k * P.η₁ + P.k * P.η₂ + P.η₂)) := card_mat P

/-- C71. ML-KEM-512: decryption gives back every message, for all but at most a 2^-123 part of the pairs of a matrix and the byte strings of the noise. -/
theorem C71_512 : Set.ncard {x : (Fin 2 → Fin 2 → Rq) × NoiseBytes ML_KEM_512 | ∃ m, ¬ WithinThreshold m (noiseOf ML_KEM_512 (matOf x.1) m x.2)} * 2 ^ 123 ≤
    Nat.card ((Fin 2 → Fin 2 → Rq) × NoiseBytes ML_KEM_512) := by
  refine fail_exists ML_KEM_512 fun m => ?_
  refine failure_uniform ML_KEM_512 (by decide) (by decide) (by decide) rfl m 726 171 123 (14593 * 104249 ^ 0 * 100000 ^ 16 + 23556 * 104249 ^ 1 * 100000 ^ 15 + 11782 * 104249 ^ 4 * 100000 ^ 12 + 3076 * 104249 ^ 9 * 100000 ^ 7 + 257 * 104249 ^ 16 * 100000 ^ 0) (3329 * 100000 ^ 16)
    (20 * 104249 ^ 0 * 100000 ^ 9 + 30 * 104249 ^ 1 * 100000 ^ 8 + 12 * 104249 ^ 4 * 100000 ^ 5 + 2 * 104249 ^ 9 * 100000 ^ 0) (100000 ^ 9) 10134113 (10 ^ 7) (104249 / 100000) (6 * (104249 / 100000) ^ 4 + 8 * (104249 / 100000) ^ 9 + 2 * (104249 / 100000) ^ 16) 20
    rfl (by decide) (by norm_num) (exp_le_sum _ (by norm_num [ML_KEM_512]) (by norm_num [ML_KEM_512]) (by norm_num [ML_KEM_512])) (by decide) (by decide) (by decide) (by decide)
    (le_of_eq ?_) ?_ ?_ ?_ ?_ ?_ (by decide +kernel)
  · refine (sum_cbdVal2 fun v => (104249 / 100000 : ℝ) ^ ((v.natAbs + 2) ^ 2)).trans ?_
    norm_num
  · refine (moment10 _ _).trans ?_
    norm_num
  · exact choose3_le _ (by norm_num)
  · refine (sum_cbdVal3 fun v => (104249 / 100000 : ℝ) ^ (v.natAbs ^ 2)).trans ?_
    norm_num
  · norm_num [ML_KEM_512]
  · norm_num [ML_KEM_512]

/-- C71. ML-KEM-768: decryption gives back every message, for all but at most a 2^-148 part of the pairs of a matrix and the byte strings of the noise. -/
theorem C71_768 : Set.ncard {x : (Fin 3 → Fin 3 → Rq) × NoiseBytes ML_KEM_768 | ∃ m, ¬ WithinThreshold m (noiseOf ML_KEM_768 (matOf x.1) m x.2)} * 2 ^ 148 ≤
    Nat.card ((Fin 3 → Fin 3 → Rq) × NoiseBytes ML_KEM_768) := by
  refine fail_exists ML_KEM_768 fun m => ?_
  refine failure_uniform ML_KEM_768 (by decide) (by decide) (by decide) rfl m 726 206 148 (14593 * 104108 ^ 0 * 100000 ^ 16 + 23556 * 104108 ^ 1 * 100000 ^ 15 + 11782 * 104108 ^ 4 * 100000 ^ 12 + 3076 * 104108 ^ 9 * 100000 ^ 7 + 257 * 104108 ^ 16 * 100000 ^ 0) (3329 * 100000 ^ 16)
    (6 * 104108 ^ 0 * 100000 ^ 4 + 8 * 104108 ^ 1 * 100000 ^ 3 + 2 * 104108 ^ 4 * 100000 ^ 0) (100000 ^ 4) 10076291 (10 ^ 7) (104108 / 100000) (6 * (104108 / 100000) ^ 4 + 8 * (104108 / 100000) ^ 9 + 2 * (104108 / 100000) ^ 16) 6
    rfl (by decide) (by norm_num) (exp_le_sum _ (by norm_num [ML_KEM_768]) (by norm_num [ML_KEM_768]) (by norm_num [ML_KEM_768])) (by decide) (by decide) (by decide) (by decide)
    (le_of_eq ?_) ?_ ?_ ?_ ?_ ?_ (by decide +kernel)
  · refine (sum_cbdVal2 fun v => (104108 / 100000 : ℝ) ^ ((v.natAbs + 2) ^ 2)).trans ?_
    norm_num
  · refine (moment10 _ _).trans ?_
    norm_num
  · exact choose2_le _ (by norm_num)
  · refine (sum_cbdVal2 fun v => (104108 / 100000 : ℝ) ^ (v.natAbs ^ 2)).trans ?_
    norm_num
  · norm_num [ML_KEM_768]
  · norm_num [ML_KEM_768]

/-- C71. ML-KEM-1024: decryption gives back every message, for all but at most a 2^-161 part of the pairs of a matrix and the byte strings of the noise. -/
theorem C71_1024 : Set.ncard {x : (Fin 4 → Fin 4 → Rq) × NoiseBytes ML_KEM_1024 | ∃ m, ¬ WithinThreshold m (noiseOf ML_KEM_1024 (matOf x.1) m x.2)} * 2 ^ 161 ≤
    Nat.card ((Fin 4 → Fin 4 → Rq) × NoiseBytes ML_KEM_1024) := by
  refine fail_exists ML_KEM_1024 fun m => ?_
  refine failure_uniform ML_KEM_1024 (by decide) (by decide) (by decide) rfl m 778 228 161 (17412 * 104388 ^ 0 * 100000 ^ 9 + 25351 * 104388 ^ 1 * 100000 ^ 8 + 9220 * 104388 ^ 4 * 100000 ^ 5 + 1281 * 104388 ^ 9 * 100000 ^ 0) (3329 * 100000 ^ 9)
    (6 * 104388 ^ 0 * 100000 ^ 4 + 8 * 104388 ^ 1 * 100000 ^ 3 + 2 * 104388 ^ 4 * 100000 ^ 0) (100000 ^ 4) 10003057 (10 ^ 7) (104388 / 100000) (6 * (104388 / 100000) ^ 1 + 8 * (104388 / 100000) ^ 4 + 2 * (104388 / 100000) ^ 9) 6
    rfl (by decide) (by norm_num) (exp_le_sum _ (by norm_num [ML_KEM_1024]) (by norm_num [ML_KEM_1024]) (by norm_num [ML_KEM_1024])) (by decide) (by decide) (by decide) (by decide)
    (le_of_eq ?_) ?_ ?_ ?_ ?_ ?_ (by decide +kernel)
  · refine (sum_cbdVal2 fun v => (104388 / 100000 : ℝ) ^ ((v.natAbs + 1) ^ 2)).trans ?_
    norm_num
  · refine (moment11 _ _).trans ?_
    norm_num
  · exact choose2_le _ (by norm_num)
  · refine (sum_cbdVal2 fun v => (104388 / 100000 : ℝ) ^ (v.natAbs ^ 2)).trans ?_
    norm_num
  · norm_num [ML_KEM_1024]
  · norm_num [ML_KEM_1024]

/-- C71. ML-KEM-512: for all but at most a 2^-61 part of the matrices, all but at most a 2^-62 part of the byte strings of the noise give a decryption that is correct for every message. -/
theorem C71_most_512 : Set.ncard {A : Fin 2 → Fin 2 → Rq | Nat.card (NoiseBytes ML_KEM_512) <
    Set.ncard {b : NoiseBytes ML_KEM_512 | ∃ m, ¬ WithinThreshold m (noiseOf ML_KEM_512 (matOf A) m b)} * 2 ^ 62} * 2 ^ 61 ≤ Nat.card (Fin 2 → Fin 2 → Rq) :=
  haveI : Nonempty (NoiseBytes ML_KEM_512) := ⟨⟨fun _ _ => 0, fun _ _ => 0, fun _ _ => 0, fun _ _ => 0, fun _ => 0⟩⟩
  markov (β := NoiseBytes ML_KEM_512) {x | ∃ m, ¬ WithinThreshold m (noiseOf ML_KEM_512 (matOf x.1) m x.2)} 62 61 C71_512

/-- C71. ML-KEM-768: for all but at most a 2^-74 part of the matrices, all but at most a 2^-74 part of the byte strings of the noise give a decryption that is correct for every message. -/
theorem C71_most_768 : Set.ncard {A : Fin 3 → Fin 3 → Rq | Nat.card (NoiseBytes ML_KEM_768) <
    Set.ncard {b : NoiseBytes ML_KEM_768 | ∃ m, ¬ WithinThreshold m (noiseOf ML_KEM_768 (matOf A) m b)} * 2 ^ 74} * 2 ^ 74 ≤ Nat.card (Fin 3 → Fin 3 → Rq) :=
  haveI : Nonempty (NoiseBytes ML_KEM_768) := ⟨⟨fun _ _ => 0, fun _ _ => 0, fun _ _ => 0, fun _ _ => 0, fun _ => 0⟩⟩
  markov (β := NoiseBytes ML_KEM_768) {x | ∃ m, ¬ WithinThreshold m (noiseOf ML_KEM_768 (matOf x.1) m x.2)} 74 74 C71_768

/-- C71. ML-KEM-1024: for all but at most a 2^-80 part of the matrices, all but at most a 2^-81 part of the byte strings of the noise give a decryption that is correct for every message. -/
theorem C71_most_1024 : Set.ncard {A : Fin 4 → Fin 4 → Rq | Nat.card (NoiseBytes ML_KEM_1024) <
    Set.ncard {b : NoiseBytes ML_KEM_1024 | ∃ m, ¬ WithinThreshold m (noiseOf ML_KEM_1024 (matOf A) m b)} * 2 ^ 81} * 2 ^ 80 ≤ Nat.card (Fin 4 → Fin 4 → Rq) :=
  haveI : Nonempty (NoiseBytes ML_KEM_1024) := ⟨⟨fun _ _ => 0, fun _ _ => 0, fun _ _ => 0, fun _ _ => 0, fun _ => 0⟩⟩
  markov (β := NoiseBytes ML_KEM_1024) {x | ∃ m, ¬ WithinThreshold m (noiseOf ML_KEM_1024 (matOf x.1) m x.2)} 81 80 C71_1024

/-! ## The XOF in place of the matrix -/

theorem stream_fail {k N B : Nat} {β : Type} [Fintype β] (S : Set ((Fin k → Fin k → Rq) × β)) (h : S.ncard * 2 ^ B ≤ Nat.card ((Fin k → Fin k → Rq) × β)) :
    Set.ncard {x : (Fin k → Fin k → Fin (3 * N) → Fin 256) × β | ∃ A, (∀ i j, SampleNTTFrom N (str (x.1 i j)) = some (A i j)) ∧ (A, x.2) ∈ S} * 2 ^ B ≤
      Nat.card ((Fin k → Fin k → Fin (3 * N) → Fin 256) × β) := by
  classical
  obtain ⟨c, hc⟩ : ∃ c, ∀ f, Finset.card {b : Fin (3 * N) → Fin 256 | SampleNTTFrom N (str b) = some f} = c := ⟨_, fun f => card_some N f⟩
  have hle : 3329 ^ 256 * c ≤ 256 ^ (3 * N) := by
    have := C59_count N 0
    rw [hc] at this
    exact this ▸ Nat.le_add_right _ _
  let F : (Fin k → Fin k → Rq) × β → Finset ((Fin k → Fin k → Fin (3 * N) → Fin 256) × β) := fun y =>
    (Fintype.piFinset fun i => Fintype.piFinset fun j => ({b | SampleNTTFrom N (str b) = some (y.1 i j)} : Finset (Fin (3 * N) → Fin 256))) ×ˢ {y.2}
  have hF : ∀ y, (F y).card = (c ^ k) ^ k := fun y => by
    simp only [F, Finset.card_product, Fintype.card_piFinset, hc, Finset.prod_const, Finset.card_univ, Fintype.card_fin, Finset.card_singleton, Nat.mul_one]
  have hs : {x : (Fin k → Fin k → Fin (3 * N) → Fin 256) × β | ∃ A, (∀ i j, SampleNTTFrom N (str (x.1 i j)) = some (A i j)) ∧ (A, x.2) ∈ S} ⊆
      ↑(({y | y ∈ S} : Finset ((Fin k → Fin k → Rq) × β)).biUnion F) := by
    rintro x ⟨A, hA, hS⟩
    rw [Finset.mem_coe, Finset.mem_biUnion]
    refine ⟨(A, x.2), by simpa using hS, ?_⟩
    simp only [F, Finset.mem_product, Fintype.mem_piFinset, Finset.mem_filter, Finset.mem_univ, true_and, Finset.mem_singleton, and_true]
    exact hA
  have h1 := Set.ncard_le_ncard hs
  rw [Set.ncard_coe_finset] at h1
  have h2 := h1.trans Finset.card_biUnion_le
  rw [Finset.sum_congr rfl fun y _ => hF y, Finset.sum_const, smul_eq_mul, ← Set.ncard_coe_finset, show (↑({y | y ∈ S} : Finset ((Fin k → Fin k → Rq) × β)) : Set _) = S from by ext; simp] at h2
  rw [Nat.card_prod, Nat.card_eq_fintype_card, Fintype.card_fun, Fintype.card_fun, Fintype.card_fun] at h ⊢
  rw [show Fintype.card Zq = 3329 from ZMod.card 3329] at h
  simp only [Fintype.card_fin] at h ⊢
  generalize {x : (Fin k → Fin k → Fin (3 * N) → Fin 256) × β | ∃ A, (∀ i j, SampleNTTFrom N (str (x.1 i j)) = some (A i j)) ∧ (A, x.2) ∈ S}.ncard = n at *
  generalize S.ncard = s at *
  generalize Nat.card β = B' at *
  generalize 3329 ^ 256 = q at *
  generalize 256 ^ (3 * N) = w at *
  calc n * 2 ^ B ≤ s * (c ^ k) ^ k * 2 ^ B := Nat.mul_le_mul_right _ h2
    _ = s * 2 ^ B * (c ^ k) ^ k := by ring
    _ ≤ (q ^ k) ^ k * B' * (c ^ k) ^ k := Nat.mul_le_mul_right _ h
    _ = ((q * c) ^ k) ^ k * B' := by ring
    _ ≤ (w ^ k) ^ k * B' := Nat.mul_le_mul_right _ (Nat.pow_le_pow_left (Nat.pow_le_pow_left hle k) k)

/-- C71. ML-KEM-512 with uniform bytes in place of the outputs of the XOF and of the PRF: at most a 2^-123 part of them gives a matrix (within N iterations of SampleNTT, for any N) and
a noise such that decryption is wrong for some message. -/
theorem C71_stream_512 (N : Nat) : Set.ncard {x : (Fin 2 → Fin 2 → Fin (3 * N) → Fin 256) × NoiseBytes ML_KEM_512 |
    ∃ A : Fin 2 → Fin 2 → Rq, (∀ i j, SampleNTTFrom N (str (x.1 i j)) = some (A i j)) ∧ ∃ m, ¬ WithinThreshold m (noiseOf ML_KEM_512 (matOf A) m x.2)} * 2 ^ 123 ≤
    Nat.card ((Fin 2 → Fin 2 → Fin (3 * N) → Fin 256) × NoiseBytes ML_KEM_512) :=
  stream_fail {x | ∃ m, ¬ WithinThreshold m (noiseOf ML_KEM_512 (matOf x.1) m x.2)} C71_512

/-- C71. ML-KEM-768 with uniform bytes in place of the outputs of the XOF and of the PRF: at most a 2^-148 part of them gives a matrix (within N iterations of SampleNTT, for any N) and
a noise such that decryption is wrong for some message. -/
theorem C71_stream_768 (N : Nat) : Set.ncard {x : (Fin 3 → Fin 3 → Fin (3 * N) → Fin 256) × NoiseBytes ML_KEM_768 |
    ∃ A : Fin 3 → Fin 3 → Rq, (∀ i j, SampleNTTFrom N (str (x.1 i j)) = some (A i j)) ∧ ∃ m, ¬ WithinThreshold m (noiseOf ML_KEM_768 (matOf A) m x.2)} * 2 ^ 148 ≤
    Nat.card ((Fin 3 → Fin 3 → Fin (3 * N) → Fin 256) × NoiseBytes ML_KEM_768) :=
  stream_fail {x | ∃ m, ¬ WithinThreshold m (noiseOf ML_KEM_768 (matOf x.1) m x.2)} C71_768

/-- C71. ML-KEM-1024 with uniform bytes in place of the outputs of the XOF and of the PRF: at most a 2^-161 part of them gives a matrix (within N iterations of SampleNTT, for any N) and
a noise such that decryption is wrong for some message. -/
theorem C71_stream_1024 (N : Nat) : Set.ncard {x : (Fin 4 → Fin 4 → Fin (3 * N) → Fin 256) × NoiseBytes ML_KEM_1024 |
    ∃ A : Fin 4 → Fin 4 → Rq, (∀ i j, SampleNTTFrom N (str (x.1 i j)) = some (A i j)) ∧ ∃ m, ¬ WithinThreshold m (noiseOf ML_KEM_1024 (matOf A) m x.2)} * 2 ^ 161 ≤
    Nat.card ((Fin 4 → Fin 4 → Fin (3 * N) → Fin 256) × NoiseBytes ML_KEM_1024) :=
  stream_fail {x | ∃ m, ¬ WithinThreshold m (noiseOf ML_KEM_1024 (matOf x.1) m x.2)} C71_1024

/-- Cases: the set of C71_512 is neither empty nor everything. For every matrix, zero bytes are decrypted correctly for every message and the largest ones for none. -/
example (A : Fin 2 → Fin 2 → Rq) : (A, zeroBytes) ∉ {x : (Fin 2 → Fin 2 → Rq) × NoiseBytes ML_KEM_512 | ∃ m, ¬ WithinThreshold m (noiseOf ML_KEM_512 (matOf x.1) m x.2)} ∧
    (A, maxBytes) ∈ {x : (Fin 2 → Fin 2 → Rq) × NoiseBytes ML_KEM_512 | ∃ m, ¬ WithinThreshold m (noiseOf ML_KEM_512 (matOf x.1) m x.2)} :=
  ⟨fun ⟨m, h⟩ => h (zero_max_bytes (matOf A) m).1, ⟨[], (zero_max_bytes (matOf A) []).2⟩⟩

/-- Case: `matOf` is the matrix. -/
example (A : Fin 2 → Fin 2 → Rq) : matOf A 0 1 = A 0 1 ∧ matOf A 1 1 = A 1 1 := ⟨rfl, rfl⟩

end Verif.Props
