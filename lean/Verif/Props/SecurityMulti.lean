import Verif.Proof.RomMulti
import Verif.Props.SecurityFull

/-! # C95: chosen-ciphertext security of ML-KEM with many key pairs and many encapsulations

The game of C82 with `n` key pairs and `N` encapsulations, all with the same G and J. `C82_standard` says that the algorithms are those of FIPS 203. -/

set_option autoImplicit false
set_option synthInstance.maxSize 1000

namespace Verif.Props
open Verif.Spec Verif.Proof Finset

section
variable {n N : Nat} {X Key PK M Hd K R Z C : Type} [Fintype X] [DecidableEq X] [Fintype Key] [Fintype M] [DecidableEq M] [Fintype Hd] [DecidableEq Hd] [Fintype K] [Fintype R] [Fintype Z]
  [DecidableEq Z] [Fintype C] [DecidableEq C]

/-- C95. With one key pair and one encapsulation the game is that of C82. -/
theorem C95_one (P : Pke Key PK M R C) (hash : PK → Hd) (A : PK → C → K → FProg X Key M Hd K R Z C) (b : Bool) :
    multiProb P hash (fun _ : Fin 1 => (0 : Fin 1)) (fun pk c => (A (pk 0) (c 0).1 (c 0).2).multi) (fun _ => b) = fullProb P hash A b := multi_one P hash A b

/-- C95. Whichever of the other encapsulations come with their secrets, the probability of a guess is that of an attack in the game of C82 that makes all other key pairs and encapsulations itself. -/
theorem C95_own (P : Pke Key PK M R C) (hash : PK → Hd) (u : Fin N → Fin n) (A : (Fin n → PK) → (Fin N → C × K) → MProg n X Key M Hd K R Z C) (t : Fin N) (sec : Fin N → Bool) (b : Bool) :
    multiProb P hash u A (Function.update sec t b) = E fun o : (Fin n → X × Z) × (Fin N → M) × (Fin N → K) => fullProb P hash (multiOwn P hash u A t sec o) b := multi_own P hash u A t sec b

/-- C95. Every KEM of this form: all the secrets together are told from independent ones only as well as the reductions break the encryption. -/
theorem C95_fo [Nonempty X] [Nonempty Key] [Nonempty M] [Nonempty K] [Nonempty R] [Nonempty Z] (P : Pke Key PK M R C) (hash : PK → Hd) (u : Fin N → Fin n)
    (A : (Fin n → PK) → (Fin N → C × K) → MProg n X Key M Hd K R Z C) {qK qG qJ qD : Nat} (h : ∀ pk c, (A pk c).Queries qK qG qJ qD) :
    |multiProb P hash u A (fun _ => true) - multiProb P hash u A fun _ => false| ≤
      (∑ t : Fin N, E fun o : (Fin n → X × Z) × (Fin N → M) × (Fin N → K) => E fun a : (X → Key) × (M → Hd → K × R) =>
        let B := reduction P (simpleAttack hash (multiOwn P hash u A t (fun j => decide (j < t)) o) a.1 a.2)
        |cpaProb P B true - cpaProb P B false|) +
      N * (2 * ((qK + n : Nat) / Fintype.card X) + 2 * ((qJ + qD : Nat) / Fintype.card Z) + (qG + qD + N : Nat) / Fintype.card M + 3 * (((qG + qD + N : Nat) + 1) * failProb P)) := by
  refine (multi_hybrid P hash u A).trans ?_
  have hc : ∀ x : ℚ, (N : ℚ) * x = ∑ _t : Fin N, x := fun x => by simp
  rw [hc, ← Finset.sum_add_distrib]
  refine Finset.sum_le_sum fun t _ => ?_
  have hq := multiOwn_queries P hash u A h t (fun j => decide (j < t))
  refine (E_mono fun o => C82_fo P hash (multiOwn P hash u A t (fun j => decide (j < t)) o) (fun pk c k => (hq o pk c k).1) (fun pk c k => (hq o pk c k).2.1) (fun pk c k => (hq o pk c k).2.2)).trans_eq ?_
  rw [E_add, E_add, E_add, E_add, E_const, E_const, E_const, E_const]
  ring

end

/-- C95. ML-KEM, for a bound on the failures. -/
theorem C95_mlkem {n N : Nat} (P : Params) (F : Nat) (hF : failProb (mlPke P) ≤ 1 / 2 ^ F) {S : Type} [Fintype S] [Nonempty S] (mat : S → Fin P.k → Fin P.k → Rq) (hash : S × List UInt8 → Bytes 32)
    (u : Fin N → Fin n) (A : MultiAttack n N P S) {qK qG qJ qD : Nat} (h : ∀ pk c, (A pk c).Queries qK qG qJ qD) :
    |multiProb (kPke P mat) hash u A (fun _ => true) - multiProb (kPke P mat) hash u A fun _ => false| ≤
      multiHardness P mat hash u A + N * ((2 * (qK + n) + 2 * (qJ + qD) + (qG + qD + N)) / 2 ^ 256 + 3 * (qG + qD + N + 1) * (1 / 2 ^ F + failDistance P mat)) := by
  refine (multi_hybrid (kPke P mat) hash u A).trans ?_
  have hc : ∀ x : ℚ, (N : ℚ) * x = ∑ _t : Fin N, x := fun x => by simp
  rw [hc]
  unfold multiHardness
  rw [← Finset.sum_add_distrib]
  refine Finset.sum_le_sum fun t _ => ?_
  have hq := multiOwn_queries (kPke P mat) hash u A h t (fun j => decide (j < t))
  have hb : ∀ o : (Fin n → Bytes 32 × Bytes 32) × (Fin N → Bytes 32) × (Fin N → Bytes 32), _ := fun o => full_seed_bound P F hF mat hash
    (multiOwn (kPke P mat) hash u A t (fun j => decide (j < t)) o) (fun pk c k => (hq o pk c k).1) (fun pk c k => (hq o pk c k).2.1) (fun pk c k => (hq o pk c k).2.2)
  refine (E_mono hb).trans_eq ?_
  rw [E_add, E_add, E_const, E_const]
  push_cast
  ring

section
variable {n N : Nat} {S : Type} [Fintype S] [Nonempty S] (hash : S × List UInt8 → Bytes 32) (u : Fin N → Fin n) {qK qG qJ qD : Nat}

/-- C95. ML-KEM-512. -/
theorem C95_512 (mat : S → Fin 2 → Fin 2 → Rq) (A : MultiAttack n N ML_KEM_512 S) (h : ∀ pk c, (A pk c).Queries qK qG qJ qD) :
    |multiProb (kPke ML_KEM_512 mat) hash u A (fun _ => true) - multiProb (kPke ML_KEM_512 mat) hash u A fun _ => false| ≤
      multiHardness ML_KEM_512 mat hash u A +
        N * ((2 * (qK + n) + 2 * (qJ + qD) + (qG + qD + N)) / 2 ^ 256 + 3 * (qG + qD + N + 1) * (1 / 2 ^ 123 + failDistance ML_KEM_512 mat)) :=
  C95_mlkem ML_KEM_512 123 C76_fail.1 mat hash u A h

/-- C95. ML-KEM-768. -/
theorem C95_768 (mat : S → Fin 3 → Fin 3 → Rq) (A : MultiAttack n N ML_KEM_768 S) (h : ∀ pk c, (A pk c).Queries qK qG qJ qD) :
    |multiProb (kPke ML_KEM_768 mat) hash u A (fun _ => true) - multiProb (kPke ML_KEM_768 mat) hash u A fun _ => false| ≤
      multiHardness ML_KEM_768 mat hash u A +
        N * ((2 * (qK + n) + 2 * (qJ + qD) + (qG + qD + N)) / 2 ^ 256 + 3 * (qG + qD + N + 1) * (1 / 2 ^ 148 + failDistance ML_KEM_768 mat)) :=
  C95_mlkem ML_KEM_768 148 C76_fail.2.1 mat hash u A h

/-- C95. ML-KEM-1024. -/
theorem C95_1024 (mat : S → Fin 4 → Fin 4 → Rq) (A : MultiAttack n N ML_KEM_1024 S) (h : ∀ pk c, (A pk c).Queries qK qG qJ qD) :
    |multiProb (kPke ML_KEM_1024 mat) hash u A (fun _ => true) - multiProb (kPke ML_KEM_1024 mat) hash u A fun _ => false| ≤
      multiHardness ML_KEM_1024 mat hash u A +
        N * ((2 * (qK + n) + 2 * (qJ + qD) + (qG + qD + N)) / 2 ^ 256 + 3 * (qG + qD + N + 1) * (1 / 2 ^ 161 + failDistance ML_KEM_1024 mat)) :=
  C95_mlkem ML_KEM_1024 161 C76_fail.2.2 mat hash u A h

end

/-! ## Concrete cases -/

/-- Three encapsulations for two key pairs; the attack asks each oracle once, on the standard's own matrix and hash, and the second key pair for the ciphertext that was made for the first. -/
def thriceAttack (P : Params) : MultiAttack 2 3 P (Bytes 32) := fun pk c =>
  .askK (c 0).2 fun _ => .askG (c 1).2 (stdHash (pk 0)) fun _ _ => .askJ (c 2).2 (c 2).1 fun _ => .decaps 1 (c 0).1 fun x => .guess x.isSome

example (N : Nat) (u : Fin 3 → Fin 2) : |multiProb (kPke ML_KEM_768 (expandMat ML_KEM_768 N)) stdHash u (thriceAttack ML_KEM_768) (fun _ => true) -
      multiProb (kPke ML_KEM_768 (expandMat ML_KEM_768 N)) stdHash u (thriceAttack ML_KEM_768) fun _ => false| ≤
    multiHardness ML_KEM_768 (expandMat ML_KEM_768 N) stdHash u (thriceAttack ML_KEM_768) + 45 / 2 ^ 256 + 54 * (1 / 2 ^ 148 + failDistance ML_KEM_768 (expandMat ML_KEM_768 N)) := by
  have := C95_768 (qK := 1) (qG := 1) (qJ := 1) (qD := 1) stdHash u (expandMat ML_KEM_768 N) (thriceAttack ML_KEM_768)
    fun _ _ => ⟨0, rfl, fun _ => ⟨0, rfl, fun _ _ => ⟨0, rfl, fun _ => ⟨0, rfl, fun _ => trivial⟩⟩⟩⟩
  refine this.trans_eq ?_
  push_cast
  ring

/-- For an encryption whose ciphertext is the message, looks at both encapsulations: is there one whose secret is not that of its message? -/
def bothAttack : (Fin 1 → Unit) → (Fin 2 → Bool × Bool) → MProg 1 Unit Unit Bool Unit Bool Unit Unit Bool := fun _ c =>
  .askG (c 0).1 () fun k0 _ => .askG (c 1).1 () fun k1 _ => .guess (k0 != (c 0).2 || k1 != (c 1).2)

/-- The game is not empty, and with two encapsulations an attack gains more than with one (which would be 1/2). -/
example : multiProb plainPke (fun _ => ()) (fun _ => 0) bothAttack (fun _ => false) = 0 ∧ multiProb plainPke (fun _ => ()) (fun _ => 0) bothAttack (fun _ => true) = 3 / 4 ∧
    multiProb plainPke (fun _ => ()) (fun _ => 0) bothAttack (fun j => decide (j < 1)) = 1 / 2 := by
  have hi : ∀ x : Bool, ind (x = true) = if x then 1 else 0 := fun x => by cases x <;> simp [ind]
  refine ⟨?_, ?_, ?_⟩
  all_goals
    simp only [multiProb, hi]
    decide +kernel

/-- A ciphertext that was made for the first key pair only is decapsulated by the second. -/
example : multiProb (n := 2) (N := 1) (X := Unit) (Z := Unit) (Hd := Unit) (K := Unit) plainPke (fun _ => ()) (fun _ => 0) (fun _ c => .decaps 1 (c 0).1 fun x => .guess x.isSome) (fun _ => false) = 1 ∧
    multiProb (n := 2) (N := 1) (X := Unit) (Z := Unit) (Hd := Unit) (K := Unit) plainPke (fun _ => ()) (fun _ => 0) (fun _ c => .decaps 0 (c 0).1 fun x => .guess x.isSome) (fun _ => false) = 0 := by
  have hi : ∀ x : Bool, ind (x = true) = if x then 1 else 0 := fun x => by cases x <;> simp [ind]
  refine ⟨?_, ?_⟩
  all_goals
    simp only [multiProb, hi]
    decide +kernel

end Verif.Props
