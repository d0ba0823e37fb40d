import Verif.Proof.AnonCodes
import Verif.Props.SecuritySeed

/-! # C84, C85: what a ciphertext of K-PKE tells about its key, and how it differs from a random string

C84: a ciphertext cannot be told from the encoding of uniform u and v, which does not depend on any key, except by breaking PRF or Module-LWE; so it cannot be told for which of two public keys it
was made. C85: this encoding is not a uniform string. Compression maps q values to 2^d codes, and q is not a multiple of 2^d; counting the codes with more values tells ciphertexts from random
strings. -/

set_option autoImplicit false

namespace Verif.Props
open Verif.Spec Verif.Proof Finset

/-! ## C84 -/

section
variable (P : Params) {S : Type} [Fintype S] (mat : S → Fin P.k → Fin P.k → Rq) {Tape : Type} [Fintype Tape]

/-- C84. An attack tells a ciphertext of K-PKE (of either of its messages) from the encoding of uniform u and v exactly as well as the distinguishers made from it break PRF and Module-LWE. -/
theorem C84_pseudorandom (B : CpaAttack (S × List UInt8) (Bytes 32) (Ciphertext P) Tape) (b : Bool) :
    cpaProb (kPke P mat) B b - simProb (kPke P mat) (packUniform P) B = cipherAdv P mat B b := kpke_sim mat B b

/-- C84. So with bounds for the advantages of the six distinguishers. -/
theorem C84_pseudorandom_bound (B : CpaAttack (S × List UInt8) (Bytes 32) (Ciphertext P) Tape) (b : Bool) (prf lwe lwe' : ℚ)
    (h1 : |distAdv (prfKey P) (keyExpansionTest (seedPke P mat) (prfCoins P) B b)| ≤ prf) (h2 : |distAdv (prfCoins P) (coinExpansionTest (seedPke P mat) B b)| ≤ prf)
    (h3 : |distAdv (prfKey P) (simExpansionTest (seedPke P mat) (packUniform P) B)| ≤ prf) (h4 : |seedAdv mat (seedKeyTest mat B b)| ≤ lwe) (h5 : |seedAdv mat (simKeyTest B)| ≤ lwe)
    (h6 : |seedAdv' mat (seedCipherTest B b)| ≤ lwe') : |cpaProb (kPke P mat) B b - simProb (kPke P mat) (packUniform P) B| ≤ 3 * prf + 2 * lwe + lwe' := by
  rw [C84_pseudorandom]
  unfold cipherAdv
  rw [abs_le] at *
  constructor <;> linarith [h1.1, h1.2, h2.1, h2.2, h3.1, h3.2, h4.1, h4.2, h5.1, h5.2, h6.1, h6.2]

/-- C84. Anonymity: an attack that knows two public keys tells for which a ciphertext was made exactly as well as the distinguishers of two attacks on pseudorandomness, each of which makes the
other key pair itself, break PRF and Module-LWE. -/
theorem C84_anonymous (A : AnonAttack (S × List UInt8) (Bytes 32) (Ciphertext P) Tape) :
    anonProb (kPke P mat) A true - anonProb (kPke P mat) A false =
      cipherAdv P mat (A.against (kPke P mat) true) true - cipherAdv P mat (A.against (kPke P mat) false) false := by
  rw [anon_cpa (kPke P mat) A true true, anon_cpa (kPke P mat) A false false, ← C84_pseudorandom, ← C84_pseudorandom, anon_sim]
  ring

end

/-- C84, the standard: the matrix of the seed ρ with up to `N` iterations of SampleNTT. -/
example (P : Params) (N : Nat) (A : AnonAttack (Bytes 32 × List UInt8) (Bytes 32) (Ciphertext P) (Fin 2)) : anonProb (kPke P (expandMat P N)) A true - anonProb (kPke P (expandMat P N)) A false =
    cipherAdv P (expandMat P N) (A.against (kPke P (expandMat P N)) true) true - cipherAdv P (expandMat P N) (A.against (kPke P (expandMat P N)) false) false := C84_anonymous P _ A

/-- The games see the key: an encryption that sends the public key along is not anonymous (two keys out of two, the attack is right unless they are equal) and not independent of the key. -/
example : (let Q : Pke (Fin 2) (Fin 2) (Fin 1) (Fin 1) (Fin 2) := ⟨id, fun pk _ _ => pk, fun _ _ => 0⟩
    let A : AnonAttack (Fin 2) (Fin 1) (Fin 2) (Fin 1) := ⟨fun _ _ _ => 0, fun _ pk0 pk1 c => decide (c = pk1 ∧ c ≠ pk0)⟩
    anonProb Q A true - anonProb Q A false = 1 / 2) ∧
    (let Q : Pke (Fin 2) (Fin 2) (Fin 1) (Fin 1) (Fin 2) := ⟨id, fun pk _ _ => pk, fun _ _ => 0⟩
    let B : CpaAttack (Fin 2) (Fin 1) (Fin 2) (Fin 1) := ⟨fun _ _ => (0, 0), fun _ pk c => decide (c = pk)⟩
    cpaProb Q B true - simProb Q (id : Fin 2 → Fin 2) B = 1 / 2) := by
  constructor
  · simp only [anonProb, E, ind, Fintype.card_prod, Fintype.card_fin, Fintype.sum_prod_type, Fin.sum_univ_two, Fin.sum_univ_one]
    norm_num
  · simp only [cpaProb, simProb, E, ind, Fintype.card_prod, Fintype.card_fin, Fintype.sum_prod_type, Fin.sum_univ_two, Fin.sum_univ_one]
    norm_num

/-! ## C85 -/

/-- C85. The compressed coefficients of u: in a random string they are independent and uniform codes. -/
theorem C85_codes_string (P : Params) (F : (Fin P.k → Fin 256 → Nat) → ℚ) :
    E (fun c : Ciphertext P => F (codes P c)) = E fun y : Fin P.k × Fin 256 → Fin (2 ^ P.du) => F fun i j => (y (i, j)).val := E_codes P F

/-- C85. In the encoding of uniform u and v they are independent, each the code of a uniform element of Z_q. -/
theorem C85_codes_uniform (P : Params) (F : (Fin P.k → Fin 256 → Nat) → ℚ) :
    E (fun w => F (codes P (packUniform P w))) = E fun y : Fin P.k × Fin 256 → Zq => F fun i j => Compress P.du (y (i, j)) := E_codes_uniform P F

/-- C85. The heavy codes: of 1024 codes 257 belong to 4 of the 3329 values (instead of 3), of 2048 codes 1281 belong to 2 (instead of 1). -/
theorem C85_heavy : E (fun y : Fin (2 ^ 10) => ind (heavy 10 y.val = true)) = 257 / 1024 ∧ E (fun x : Zq => ind (heavy 10 (Compress 10 x) = true)) = 257 * 4 / 3329 ∧
    E (fun y : Fin (2 ^ 11) => ind (heavy 11 y.val = true)) = 1281 / 2048 ∧ E (fun x : Zq => ind (heavy 11 (Compress 11 x) = true)) = 1281 * 2 / 3329 := by
  refine ⟨heavy10, ?_, heavy11, ?_⟩
  · rw [heavy10_values]; norm_num
  · rw [heavy11_values]; norm_num

theorem ind_sq (p : Prop) : ind p * ind p = ind p := by unfold ind; split <;> norm_num

theorem count_above (P : Params) (thr : Nat) (μ t s : ℚ) (hμ : E (fun y : Fin (2 ^ P.du) => ind (heavy P.du y.val = true)) = μ) (ht : 0 < t) (hs : 0 ≤ s)
    (h : P.k * 256 * μ + t = thr + 1) : E (fun c : Ciphertext P => ind (thr < heavyCount P c)) ≤ (P.k * 256 * (μ * (1 - μ)) + s ^ 2) / (t + s) ^ 2 := by
  have : Nonempty (Fin (2 ^ P.du)) := ⟨⟨0, by positivity⟩⟩
  have e : ∀ c : Ciphertext P, ind (thr < heavyCount P c) = (fun F : Fin P.k → Fin 256 → Nat => ind ((thr : ℚ) < ∑ i : Fin P.k × Fin 256, ind (heavy P.du (F i.1 i.2) = true))) (codes P c) := fun c => by
    dsimp only
    rw [← heavyCount_sum, Nat.cast_lt]
  rw [funext e, E_codes P fun F => ind ((thr : ℚ) < ∑ i : Fin P.k × Fin 256, ind (heavy P.du (F i.1 i.2) = true))]
  have k := tail_above (ι := Fin P.k × Fin 256) (fun y : Fin (2 ^ P.du) => ind (heavy P.du y.val = true)) (fun _ => ind_sq _) ht hs
    (fun y => (thr : ℚ) < ∑ i, ind (heavy P.du (y i).val = true)) fun y hy => ?_
  · rw [Fintype.card_prod, Fintype.card_fin, Fintype.card_fin, hμ] at k
    push_cast at k
    exact k
  · rw [Fintype.card_prod, Fintype.card_fin, Fintype.card_fin, hμ]
    push_cast
    rw [h]
    have hc : ∃ n : Nat, ∑ i, ind (heavy P.du (y i).val = true) = (n : ℚ) := by
      refine ⟨(Finset.univ.filter fun i => heavy P.du (y i).val = true).card, ?_⟩
      rw [← Finset.sum_boole]
      exact Finset.sum_congr rfl fun i _ => by unfold ind; split <;> rfl
    obtain ⟨n, hn⟩ := hc
    rw [hn] at hy ⊢
    have : thr < n := by exact_mod_cast hy
    exact_mod_cast this

theorem count_below (P : Params) (thr : Nat) (μ t s : ℚ) (hμ : E (fun x : Zq => ind (heavy P.du (Compress P.du x) = true)) = μ) (ht : 0 < t) (hs : 0 ≤ s)
    (h : P.k * 256 * μ - t = thr) : 1 - (P.k * 256 * (μ * (1 - μ)) + s ^ 2) / (t + s) ^ 2 ≤ E fun w => ind (thr < heavyCount P (packUniform P w)) := by
  have e : ∀ w, ind (thr < heavyCount P (packUniform P w)) =
      (fun F : Fin P.k → Fin 256 → Nat => ind ((thr : ℚ) < ∑ i : Fin P.k × Fin 256, ind (heavy P.du (F i.1 i.2) = true))) (codes P (packUniform P w)) := fun w => by
    dsimp only
    rw [← heavyCount_sum, Nat.cast_lt]
  rw [funext e, E_codes_uniform P fun F => ind ((thr : ℚ) < ∑ i : Fin P.k × Fin 256, ind (heavy P.du (F i.1 i.2) = true))]
  have k := tail_below (ι := Fin P.k × Fin 256) (fun x : Zq => ind (heavy P.du (Compress P.du x) = true)) (fun _ => ind_sq _) ht hs
    (fun y => ¬ (thr : ℚ) < ∑ i, ind (heavy P.du (Compress P.du (y i)) = true)) fun y hy => ?_
  · rw [Fintype.card_prod, Fintype.card_fin, Fintype.card_fin, hμ] at k
    push_cast at k
    have n : ∀ p : Prop, ind (¬ p) = 1 - ind p := fun p => by
      unfold ind
      by_cases hp : p <;> simp [hp]
    simp only [n] at k
    rw [E_sub, E_const] at k
    dsimp only
    linarith
  · rw [Fintype.card_prod, Fintype.card_fin, Fintype.card_fin, hμ]
    push_cast
    rw [h]
    exact not_lt.1 hy

/-- C85, ML-KEM-512. More than 143 heavy codes: this tells the encoding of uniform u and v from a random string with advantage at least 3/8. -/
theorem C85_512 : 3 / 8 ≤ E (fun w => ind (143 < heavyCount ML_KEM_512 (packUniform ML_KEM_512 w))) - E fun c => ind (143 < heavyCount ML_KEM_512 c) := by
  have h1 := count_below ML_KEM_512 143 (1028 / 3329) (512 * (1028 / 3329) - 143) 7 heavy10_values (by norm_num) (by norm_num) (by norm_num [ML_KEM_512])
  have h2 := count_above ML_KEM_512 143 (257 / 1024) (144 - 512 * (257 / 1024)) 6 heavy10 (by norm_num) (by norm_num) (by norm_num [ML_KEM_512])
  norm_num [ML_KEM_512] at h1 h2
  linarith

/-- C85, ML-KEM-768: more than 215, advantage at least 1/2. -/
theorem C85_768 : 1 / 2 ≤ E (fun w => ind (215 < heavyCount ML_KEM_768 (packUniform ML_KEM_768 w))) - E fun c => ind (215 < heavyCount ML_KEM_768 c) := by
  have h1 := count_below ML_KEM_768 215 (1028 / 3329) (768 * (1028 / 3329) - 215) 7 heavy10_values (by norm_num) (by norm_num) (by norm_num [ML_KEM_768])
  have h2 := count_above ML_KEM_768 215 (257 / 1024) (216 - 768 * (257 / 1024)) 6 heavy10 (by norm_num) (by norm_num) (by norm_num [ML_KEM_768])
  norm_num [ML_KEM_768] at h1 h2
  linarith

/-- C85, ML-KEM-1024: more than 714, advantage at least 9/10. -/
theorem C85_1024 : 9 / 10 ≤ E (fun w => ind (714 < heavyCount ML_KEM_1024 (packUniform ML_KEM_1024 w))) - E fun c => ind (714 < heavyCount ML_KEM_1024 c) := by
  have h1 := count_below ML_KEM_1024 714 (2562 / 3329) (1024 * (2562 / 3329) - 714) 3 heavy11_values (by norm_num) (by norm_num) (by norm_num [ML_KEM_1024])
  have h2 := count_above ML_KEM_1024 714 (1281 / 2048) (715 - 1024 * (1281 / 2048)) 3 heavy11 (by norm_num) (by norm_num) (by norm_num [ML_KEM_1024])
  norm_num [ML_KEM_1024] at h1 h2
  linarith

theorem sim_heavy (P : Params) {S : Type} [Fintype S] [Nonempty S] (mat : S → Fin P.k → Fin P.k → Rq) (thr : Nat) :
    simProb (kPke P mat) (packUniform P) (heavyAttack P S thr) = E fun w => ind (thr < heavyCount P (packUniform P w)) := by
  unfold simProb heavyAttack
  simp only [decide_eq_true_eq]
  rw [E_prod (α := Unit)]
  refine (E_const (α := Unit) (E fun y : (S × Bytes 32) × ((Fin P.k → Rq) × Rq) => ind (thr < heavyCount P (packUniform P y.2)))).trans ?_
  rw [E_prod (α := S × Bytes 32)]
  exact E_const (α := S × Bytes 32) (E fun w => ind (thr < heavyCount P (packUniform P w)))

/-- C85. So the ciphertexts of K-PKE are told from random strings with nearly these advantages, unless PRF or Module-LWE is broken. -/
theorem C85_ciphertexts {S : Type} [Fintype S] [Nonempty S] (b : Bool) :
    (∀ mat : S → Fin ML_KEM_512.k → Fin ML_KEM_512.k → Rq, 3 / 8 + cipherAdv ML_KEM_512 mat (heavyAttack ML_KEM_512 S 143) b ≤
      cpaProb (kPke ML_KEM_512 mat) (heavyAttack ML_KEM_512 S 143) b - E fun c => ind (143 < heavyCount ML_KEM_512 c)) ∧
    (∀ mat : S → Fin ML_KEM_768.k → Fin ML_KEM_768.k → Rq, 1 / 2 + cipherAdv ML_KEM_768 mat (heavyAttack ML_KEM_768 S 215) b ≤
      cpaProb (kPke ML_KEM_768 mat) (heavyAttack ML_KEM_768 S 215) b - E fun c => ind (215 < heavyCount ML_KEM_768 c)) ∧
    ∀ mat : S → Fin ML_KEM_1024.k → Fin ML_KEM_1024.k → Rq, 9 / 10 + cipherAdv ML_KEM_1024 mat (heavyAttack ML_KEM_1024 S 714) b ≤
      cpaProb (kPke ML_KEM_1024 mat) (heavyAttack ML_KEM_1024 S 714) b - E fun c => ind (714 < heavyCount ML_KEM_1024 c) := by
  refine ⟨fun mat => ?_, fun mat => ?_, fun mat => ?_⟩
  · have h := C84_pseudorandom ML_KEM_512 mat (heavyAttack ML_KEM_512 S 143) b
    rw [sim_heavy] at h
    have := C85_512
    linarith
  · have h := C84_pseudorandom ML_KEM_768 mat (heavyAttack ML_KEM_768 S 215) b
    rw [sim_heavy] at h
    have := C85_768
    linarith
  · have h := C84_pseudorandom ML_KEM_1024 mat (heavyAttack ML_KEM_1024 S 714) b
    rw [sim_heavy] at h
    have := C85_1024
    linarith

/-- The standard, and a heavy and a light code: 2 is the code of the values 5 to 8, 1 that of 2, 3 and 4. -/
example (N : Nat) : 9 / 10 + cipherAdv ML_KEM_1024 (expandMat ML_KEM_1024 N) (heavyAttack ML_KEM_1024 (Bytes 32) 714) true ≤
    cpaProb (kPke ML_KEM_1024 (expandMat ML_KEM_1024 N)) (heavyAttack ML_KEM_1024 (Bytes 32) 714) true - E fun c => ind (714 < heavyCount ML_KEM_1024 c) :=
  (C85_ciphertexts true).2.2 _

example : (List.range 12).map (fun x => (2 * 2 ^ 10 * x + 3329) / 6658 % 2 ^ 10) = [0, 0, 1, 1, 1, 2, 2, 2, 2, 3, 3, 3] := by decide
example : heavy 10 1 = false ∧ heavy 10 2 = true ∧ heavy 10 3 = false := by decide

end Verif.Props
