import Verif.Proof.AnonFull
import Verif.Props.SecurityFull
import Verif.Props.Anonymity

/-! # C86, C87: encapsulations of ML-KEM are pseudorandom and anonymous against chosen-ciphertext attacks

The games are those of C82: G and J are random oracles, the key pairs come from G too, and the attack may ask for decapsulations. `C82_standard` says that the algorithms are those of FIPS 203. -/

set_option autoImplicit false
set_option synthInstance.maxSize 1000

namespace Verif.Props
open Verif.Spec Verif.Proof Finset

set_option linter.unusedSectionVars false

section
variable {X Key PK M Hd K R Z C V : Type} [Fintype X] [DecidableEq X] [Fintype Key] [Fintype M] [DecidableEq M] [Fintype Hd] [DecidableEq Hd] [Fintype K] [Fintype R] [Fintype Z]
  [DecidableEq Z] [Fintype C] [DecidableEq C] [Fintype V] [Nonempty X] [Nonempty Key] [Nonempty M] [Nonempty K] [Nonempty R] [Nonempty Z] [Nonempty V]

/-- C86. Every KEM of this form, for every `sim`: an encapsulation (with its secret, or with an independent one) is told from `sim` of a uniform element with an independent secret only as well as the
reductions break the encryption. -/
theorem C86_fo (P : Pke Key PK M R C) (hash : PK → Hd) (sim : V → C) (A : PK → C → K → FProg X Key M Hd K R Z C) (b : Bool) {qK qG qJ : Nat} (hK : ∀ pk c k, (A pk c k).QueriesK qK)
    (hG : ∀ pk c k, (A pk c k).QueriesG qG) (hJ : ∀ pk c k, (A pk c k).QueriesJ qJ) :
    |fullProb P hash A b - fullSimProb P hash sim A| ≤
      (E fun a : (X → Key) × (M → Hd → K × R) => |cpaProb P (guessReduction P (simpleAttack hash A a.1 a.2)) true - simProb P sim (guessReduction P (simpleAttack hash A a.1 a.2))|) +
      (E fun a : (X → Key) × (M → Hd → K × R) => |cpaProb P (reduction P (simpleAttack hash A a.1 a.2)) true - cpaProb P (reduction P (simpleAttack hash A a.1 a.2)) false|) +
      2 * (qK / Fintype.card X) + 2 * (qJ / Fintype.card Z) + qG / Fintype.card M + (3 * qG + 2) * failProb P := full_sim hash sim b hK hG hJ

/-- C87. Anonymity is pseudorandomness for the two attacks that make one of the key pairs themselves: the probability of each guess is that of the attack with an own key pair, and on an independent
ciphertext the two attacks guess alike. -/
theorem C87_own (P : Pke Key PK M R C) (hash : PK → Hd) (sim : V → C) (A : PK → PK → C → K → AProg X Key M Hd K R Z C) :
    (∀ b, anonCcaProb P hash A b = E fun o : X × Z => fullProb P hash (ownAttack P hash A b o.1 o.2) false) ∧
    (E fun o : X × Z => fullSimProb P hash sim (ownAttack P hash A true o.1 o.2)) = E fun o : X × Z => fullSimProb P hash sim (ownAttack P hash A false o.1 o.2) :=
  ⟨anon_full P hash A, anon_full_sim P hash A sim⟩

end

theorem kpke_fail_num (P : Params) (F : Nat) (hF : failProb (mlPke P) ≤ 1 / 2 ^ F) {S : Type} [Fintype S] [Nonempty S] (mat : S → Fin P.k → Fin P.k → Rq) (q : Nat) :
    (3 * (q : ℚ) + 2) * failProb (kPke P mat) ≤ (3 * q + 2) * (1 / 2 ^ F + failDistance P mat) :=
  mul_le_mul_of_nonneg_left (kpke_fail_le P F hF mat) (by positivity)

/-- C86. ML-KEM, for a bound on the failures. -/
theorem C86_mlkem (P : Params) (F : Nat) (hF : failProb (mlPke P) ≤ 1 / 2 ^ F) {S : Type} [Fintype S] [Nonempty S] (mat : S → Fin P.k → Fin P.k → Rq) (hash : S × List UInt8 → Bytes 32)
    (A : FullAttack P S) (b : Bool) {qK qG qJ : Nat} (hK : ∀ pk c k, (A pk c k).QueriesK qK) (hG : ∀ pk c k, (A pk c k).QueriesG qG) (hJ : ∀ pk c k, (A pk c k).QueriesJ qJ) :
    |fullProb (kPke P mat) hash A b - fullSimProb (kPke P mat) hash (packUniform P) A| ≤
      meanCipher P mat hash A + meanHardness P mat hash A + (2 * qK + 2 * qJ + qG) / 2 ^ 256 + (3 * qG + 2) * (1 / 2 ^ F + failDistance P mat) := by
  have h := C86_fo (kPke P mat) hash (packUniform P) A b hK hG hJ
  rw [card_bytes] at h
  have hp : (((256 ^ 32 : Nat)) : ℚ) = 2 ^ 256 := by norm_num
  rw [hp] at h
  have hm := E_mono fun a : (Bytes 32 → S × Bytes 32) × (Bytes 32 → Bytes 32 → Bytes 32 × Bytes 32) => cpa_hardness P mat (reduction (kPke P mat) (simpleAttack hash A a.1 a.2))
  have h3 := kpke_fail_num P F hF mat qG
  have h5 : 2 * ((qK : ℚ) / 2 ^ 256) + 2 * ((qJ : ℚ) / 2 ^ 256) + qG / 2 ^ 256 = (2 * qK + 2 * qJ + qG) / 2 ^ 256 := by ring
  simp only [C84_pseudorandom] at h
  unfold meanHardness meanCipher
  linarith

/-- C87. ML-KEM, for a bound on the failures. -/
theorem C87_mlkem (P : Params) (F : Nat) (hF : failProb (mlPke P) ≤ 1 / 2 ^ F) {S : Type} [Fintype S] [Nonempty S] (mat : S → Fin P.k → Fin P.k → Rq) (hash : S × List UInt8 → Bytes 32)
    (A : AnonCcaAttack P S) {qK qG qJ qD : Nat} (h : ∀ pk0 pk1 c k, (A pk0 pk1 c k).Queries qK qG qJ qD) :
    |anonCcaProb (kPke P mat) hash A true - anonCcaProb (kPke P mat) hash A false| ≤
      ownHardness P mat hash A true + ownHardness P mat hash A false + (4 * (qK + 1) + 4 * (qJ + qD) + 2 * (qG + qD)) / 2 ^ 256 + (6 * (qG + qD) + 4) * (1 / 2 ^ F + failDistance P mat) := by
  have hb : ∀ b, |anonCcaProb (kPke P mat) hash A b - E fun o : Bytes 32 × Bytes 32 => fullSimProb (kPke P mat) hash (packUniform P) (ownAttack (kPke P mat) hash A b o.1 o.2)| ≤
      ownHardness P mat hash A b + (2 * (qK + 1) + 2 * (qJ + qD) + (qG + qD)) / 2 ^ 256 + (3 * (qG + qD) + 2) * (1 / 2 ^ F + failDistance P mat) := fun b => by
    rw [(C87_own (kPke P mat) hash (packUniform P) A).1 b]
    have ho : ∀ o : Bytes 32 × Bytes 32, _ := fun o => C86_mlkem P F hF mat hash (ownAttack (kPke P mat) hash A b o.1 o.2) false (qK := qK + 1) (qG := qG + qD) (qJ := qJ + qD)
      (fun pk c k => (ownAttack_queries (kPke P mat) hash A h b o.1 o.2 pk c k).1) (fun pk c k => (ownAttack_queries (kPke P mat) hash A h b o.1 o.2 pk c k).2.1)
      (fun pk c k => (ownAttack_queries (kPke P mat) hash A h b o.1 o.2 pk c k).2.2)
    refine ((E_abs _ _).trans (E_mono ho)).trans_eq ?_
    rw [E_add, E_add, E_const, E_const]
    unfold ownHardness
    push_cast
    rfl
  have h1 := hb true
  have h0 := hb false
  rw [(C87_own (kPke P mat) hash (packUniform P) A).2] at h1
  have e : (4 * ((qK : ℚ) + 1) + 4 * (qJ + qD) + 2 * (qG + qD)) / 2 ^ 256 = 2 * ((2 * (qK + 1) + 2 * (qJ + qD) + (qG + qD)) / 2 ^ 256) := by ring
  rw [e]
  rw [abs_le] at h1 h0 ⊢
  constructor <;> linarith [h1.1, h1.2, h0.1, h0.2]

section
variable {S : Type} [Fintype S] [Nonempty S] (hash : S × List UInt8 → Bytes 32) {qK qG qJ qD : Nat} (b : Bool)

/-- C86. ML-KEM-512. -/
theorem C86_512 (mat : S → Fin 2 → Fin 2 → Rq) (A : FullAttack ML_KEM_512 S) (hK : ∀ pk c k, (A pk c k).QueriesK qK) (hG : ∀ pk c k, (A pk c k).QueriesG qG)
    (hJ : ∀ pk c k, (A pk c k).QueriesJ qJ) :
    |fullProb (kPke ML_KEM_512 mat) hash A b - fullSimProb (kPke ML_KEM_512 mat) hash (packUniform ML_KEM_512) A| ≤
      meanCipher ML_KEM_512 mat hash A + meanHardness ML_KEM_512 mat hash A + (2 * qK + 2 * qJ + qG) / 2 ^ 256 + (3 * qG + 2) * (1 / 2 ^ 123 + failDistance ML_KEM_512 mat) :=
  C86_mlkem ML_KEM_512 123 C76_fail.1 mat hash A b hK hG hJ

/-- C86. ML-KEM-768. -/
theorem C86_768 (mat : S → Fin 3 → Fin 3 → Rq) (A : FullAttack ML_KEM_768 S) (hK : ∀ pk c k, (A pk c k).QueriesK qK) (hG : ∀ pk c k, (A pk c k).QueriesG qG)
    (hJ : ∀ pk c k, (A pk c k).QueriesJ qJ) :
    |fullProb (kPke ML_KEM_768 mat) hash A b - fullSimProb (kPke ML_KEM_768 mat) hash (packUniform ML_KEM_768) A| ≤
      meanCipher ML_KEM_768 mat hash A + meanHardness ML_KEM_768 mat hash A + (2 * qK + 2 * qJ + qG) / 2 ^ 256 + (3 * qG + 2) * (1 / 2 ^ 148 + failDistance ML_KEM_768 mat) :=
  C86_mlkem ML_KEM_768 148 C76_fail.2.1 mat hash A b hK hG hJ

/-- C86. ML-KEM-1024. -/
theorem C86_1024 (mat : S → Fin 4 → Fin 4 → Rq) (A : FullAttack ML_KEM_1024 S) (hK : ∀ pk c k, (A pk c k).QueriesK qK) (hG : ∀ pk c k, (A pk c k).QueriesG qG)
    (hJ : ∀ pk c k, (A pk c k).QueriesJ qJ) :
    |fullProb (kPke ML_KEM_1024 mat) hash A b - fullSimProb (kPke ML_KEM_1024 mat) hash (packUniform ML_KEM_1024) A| ≤
      meanCipher ML_KEM_1024 mat hash A + meanHardness ML_KEM_1024 mat hash A + (2 * qK + 2 * qJ + qG) / 2 ^ 256 + (3 * qG + 2) * (1 / 2 ^ 161 + failDistance ML_KEM_1024 mat) :=
  C86_mlkem ML_KEM_1024 161 C76_fail.2.2 mat hash A b hK hG hJ

/-- C87. ML-KEM-512. -/
theorem C87_512 (mat : S → Fin 2 → Fin 2 → Rq) (A : AnonCcaAttack ML_KEM_512 S) (h : ∀ pk0 pk1 c k, (A pk0 pk1 c k).Queries qK qG qJ qD) :
    |anonCcaProb (kPke ML_KEM_512 mat) hash A true - anonCcaProb (kPke ML_KEM_512 mat) hash A false| ≤ ownHardness ML_KEM_512 mat hash A true + ownHardness ML_KEM_512 mat hash A false +
      (4 * (qK + 1) + 4 * (qJ + qD) + 2 * (qG + qD)) / 2 ^ 256 + (6 * (qG + qD) + 4) * (1 / 2 ^ 123 + failDistance ML_KEM_512 mat) :=
  C87_mlkem ML_KEM_512 123 C76_fail.1 mat hash A h

/-- C87. ML-KEM-768. -/
theorem C87_768 (mat : S → Fin 3 → Fin 3 → Rq) (A : AnonCcaAttack ML_KEM_768 S) (h : ∀ pk0 pk1 c k, (A pk0 pk1 c k).Queries qK qG qJ qD) :
    |anonCcaProb (kPke ML_KEM_768 mat) hash A true - anonCcaProb (kPke ML_KEM_768 mat) hash A false| ≤ ownHardness ML_KEM_768 mat hash A true + ownHardness ML_KEM_768 mat hash A false +
      (4 * (qK + 1) + 4 * (qJ + qD) + 2 * (qG + qD)) / 2 ^ 256 + (6 * (qG + qD) + 4) * (1 / 2 ^ 148 + failDistance ML_KEM_768 mat) :=
  C87_mlkem ML_KEM_768 148 C76_fail.2.1 mat hash A h

/-- C87. ML-KEM-1024. -/
theorem C87_1024 (mat : S → Fin 4 → Fin 4 → Rq) (A : AnonCcaAttack ML_KEM_1024 S) (h : ∀ pk0 pk1 c k, (A pk0 pk1 c k).Queries qK qG qJ qD) :
    |anonCcaProb (kPke ML_KEM_1024 mat) hash A true - anonCcaProb (kPke ML_KEM_1024 mat) hash A false| ≤ ownHardness ML_KEM_1024 mat hash A true + ownHardness ML_KEM_1024 mat hash A false +
      (4 * (qK + 1) + 4 * (qJ + qD) + 2 * (qG + qD)) / 2 ^ 256 + (6 * (qG + qD) + 4) * (1 / 2 ^ 161 + failDistance ML_KEM_1024 mat) :=
  C87_mlkem ML_KEM_1024 161 C76_fail.2.2 mat hash A h

end

/-! ## Concrete cases -/

/-- An attack that asks each oracle once, on the standard's own matrix and hash. -/
def onceAttack (P : Params) : AnonCcaAttack P (Bytes 32) := fun pk0 _ c k =>
  .askK k fun _ => .askG k (stdHash pk0) fun _ _ => .askJ k c fun _ => .decaps true (fun _ => 0) fun x => .guess x.isSome

example (N : Nat) : |anonCcaProb (kPke ML_KEM_768 (expandMat ML_KEM_768 N)) stdHash (onceAttack ML_KEM_768) true - anonCcaProb (kPke ML_KEM_768 (expandMat ML_KEM_768 N)) stdHash (onceAttack ML_KEM_768) false| ≤
    ownHardness ML_KEM_768 (expandMat ML_KEM_768 N) stdHash (onceAttack ML_KEM_768) true + ownHardness ML_KEM_768 (expandMat ML_KEM_768 N) stdHash (onceAttack ML_KEM_768) false +
      20 / 2 ^ 256 + 16 * (1 / 2 ^ 148 + failDistance ML_KEM_768 (expandMat ML_KEM_768 N)) := by
  have := C87_768 (qK := 1) (qG := 1) (qJ := 1) (qD := 1) stdHash (expandMat ML_KEM_768 N) (onceAttack ML_KEM_768)
    fun _ _ _ _ => ⟨0, rfl, fun _ => ⟨0, rfl, fun _ _ => ⟨0, rfl, fun _ => ⟨0, rfl, fun _ => trivial⟩⟩⟩⟩
  norm_num at this ⊢
  exact this

/-- An encryption that sends the public key along. -/
def openPke : Pke Bool Bool Unit Unit Bool := ⟨fun k => k, fun pk _ _ => pk, fun _ _ => ()⟩

/-- The games are not empty: such a KEM is not anonymous (the attack is right unless the keys are equal) and its ciphertexts are not independent of the key. -/
example : (let A : Bool → Bool → Bool → Unit → AProg Bool Bool Unit Unit Unit Unit Unit Bool := fun pk0 pk1 c _ => .guess (c == pk1 && c != pk0)
    anonCcaProb openPke (fun _ => ()) A true = 1 / 4 ∧ anonCcaProb openPke (fun _ => ()) A false = 0) ∧
    (let A : Bool → Bool → Unit → FProg Bool Bool Unit Unit Unit Unit Unit Bool := fun pk c _ => .guess (c == pk)
    fullProb openPke (fun _ => ()) A false = 1 ∧ fullSimProb openPke (fun _ => ()) (fun v : Bool => v) A = 1 / 2) := by
  have hi : ∀ x : Bool, ind (x = true) = if x then 1 else 0 := fun x => by cases x <;> simp [ind]
  refine ⟨⟨?_, ?_⟩, ?_, ?_⟩
  all_goals
    simp only [anonCcaProb, fullProb, fullSimProb, hi]
    decide +kernel

end Verif.Props
