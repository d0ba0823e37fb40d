import Verif.Proof.RomFull
import Verif.Props.SecuritySeed

/-! # C82: ML-KEM with G as a random oracle on all the inputs that it uses

As C81, but the key pair comes from G too, H(ek) is part of the input of G, and the attack may ask G on every input of a key generation or an encapsulation. -/

set_option autoImplicit false
set_option synthInstance.maxSize 1000

namespace Verif.Props
open Verif.Spec Verif.Proof Finset

/-- C82. The three algorithms of the game are those of FIPS 203: key generation, encapsulation, decapsulation. -/
theorem C82_standard (P : Params) (N : Nat) (d z m : Bytes 32) (c : Ciphertext P) (hA : (ExpandA P.k N (G (byteList d ++ [UInt8.ofNat P.k])).1).isSome) :
    let Q := kPke P (expandMat P N)
    let pk := Q.ek (stdGK P d)
    ∃ ek dk, KeyGen_internal P N (byteList d) (byteList z) = some (ek, dk) ∧ ek = pk.2 ++ byteList pk.1 ∧
      Encaps_internal P N ek (byteList m) = some (byteList (stdG m (stdHash pk)).1, byteList (Q.enc pk m (stdG m (stdHash pk)).2)) ∧
      Decaps_internal P N dk (byteList c) = some (byteList (fullDecaps Q stdHash (stdGK P) stdG (kemJ _) d z c)) := by
  intro Q pk
  have e1 : byteList (stdGK P d).1 = (G (byteList d ++ [UInt8.ofNat P.k])).1 := byteList_listBytes _ (G_fst_length _)
  have e2 : byteList (stdGK P d).2 = (G (byteList d ++ [UInt8.ofNat P.k])).2 := byteList_listBytes _ (G_snd_length _)
  rw [← e1] at hA
  obtain ⟨ek, dk, h1, h2, h3⟩ := C81_decaps P N (byteList d) (stdGK P d).1 (stdGK P d).2 z c (by rw [e1, e2]) hA
  have hl : pk.2.length = 384 * P.k := concat_length fun i => byteEncode12_length _
  have hp : pk = ((stdGK P d).1, pk.2) := rfl
  have hg : kemG ek = fun m => stdG m (stdHash pk) := by
    funext m
    have : byteList (stdHash pk) = H ek := by
      rw [h2]
      exact byteList_listBytes _ (SHA3_256_length _)
    unfold kemG stdG
    rw [this]
  refine ⟨ek, dk, h1, h2, ?_, ?_⟩
  · have h := C81_encaps P N (stdGK P d).1 pk.2 hl m hA
    have h2' : ek = pk.2 ++ byteList (stdGK P d).1 := h2
    rw [← h2', hg] at h
    exact h
  · rw [h3, hg]
    rfl

/-- C82. Every KEM of this form. -/
theorem C82_fo {X Key PK M Hd K R Z C : Type} [Fintype X] [DecidableEq X] [Fintype Key] [Fintype M] [DecidableEq M] [Fintype Hd] [DecidableEq Hd] [Fintype K] [Fintype R] [Fintype Z]
    [DecidableEq Z] [Fintype C] [DecidableEq C] [Nonempty X] [Nonempty Key] [Nonempty M] [Nonempty K] [Nonempty R] [Nonempty Z] (P : Pke Key PK M R C) (hash : PK → Hd)
    (A : PK → C → K → FProg X Key M Hd K R Z C) {qK qG qJ : Nat} (hK : ∀ pk c k, (A pk c k).QueriesK qK) (hG : ∀ pk c k, (A pk c k).QueriesG qG) (hJ : ∀ pk c k, (A pk c k).QueriesJ qJ) :
    |fullProb P hash A true - fullProb P hash A false| ≤
      (E fun a : (X → Key) × (M → Hd → K × R) => |cpaProb P (reduction P (simpleAttack hash A a.1 a.2)) true - cpaProb P (reduction P (simpleAttack hash A a.1 a.2)) false|) +
      2 * (qK / Fintype.card X) + 2 * (qJ / Fintype.card Z) + qG / Fintype.card M + 3 * ((qG + 1) * failProb P) := full_bound hash hK hG hJ

theorem cpa_hardness (P : Params) {S : Type} [Fintype S] (mat : S → Fin P.k → Fin P.k → Rq) {Tape : Type} [Fintype Tape] (B : CpaAttack (S × List UInt8) (Bytes 32) (Ciphertext P) Tape) :
    |cpaProb (kPke P mat) B true - cpaProb (kPke P mat) B false| ≤ hardness P mat B := by
  have ht : ∀ a b c d a' b' c' d' : ℚ, |a - b + (c - d) + (a' - b') + (c' - d')| ≤ |a| + |b| + |c| + |d| + |a'| + |b'| + |c'| + |d'| := fun a b c d a' b' c' d' => by
    have := abs_add_le (a - b + (c - d) + (a' - b')) (c' - d')
    have := abs_add_le (a - b + (c - d)) (a' - b')
    have := abs_add_le (a - b) (c - d)
    have := abs_sub a b
    have := abs_sub c d
    have := abs_sub a' b'
    have := abs_sub c' d'
    linarith
  rw [C80_cpa]
  exact ht _ _ _ _ _ _ _ _

theorem full_seed_bound (P : Params) (F : Nat) (hF : failProb (mlPke P) ≤ 1 / 2 ^ F) {S : Type} [Fintype S] [Nonempty S] (mat : S → Fin P.k → Fin P.k → Rq) (hash : S × List UInt8 → Bytes 32)
    (A : FullAttack P S) {qK qG qJ : Nat} (hK : ∀ pk c k, (A pk c k).QueriesK qK) (hG : ∀ pk c k, (A pk c k).QueriesG qG) (hJ : ∀ pk c k, (A pk c k).QueriesJ qJ) :
    |fullProb (kPke P mat) hash A true - fullProb (kPke P mat) hash A false| ≤
      meanHardness P mat hash A + (2 * qK + 2 * qJ + qG) / 2 ^ 256 + 3 * (qG + 1) * (1 / 2 ^ F + failDistance P mat) := by
  have h := C82_fo (kPke P mat) hash A hK hG hJ
  rw [card_bytes] at h
  have hp : (((256 ^ 32 : Nat)) : ℚ) = 2 ^ 256 := by norm_num
  rw [hp] at h
  have hm := E_mono fun a : (Bytes 32 → S × Bytes 32) × (Bytes 32 → Bytes 32 → Bytes 32 × Bytes 32) => cpa_hardness P mat (reduction (kPke P mat) (simpleAttack hash A a.1 a.2))
  have hq : (0 : ℚ) ≤ qG + 1 := by positivity
  have h3 := mul_le_mul_of_nonneg_left (kpke_fail_le P F hF mat) hq
  have h5 : 2 * ((qK : ℚ) / 2 ^ 256) + 2 * ((qJ : ℚ) / 2 ^ 256) + qG / 2 ^ 256 = (2 * qK + 2 * qJ + qG) / 2 ^ 256 := by ring
  unfold meanHardness
  linarith

/-- C82. ML-KEM-512. -/
theorem C82_512 {S : Type} [Fintype S] [Nonempty S] (mat : S → Fin 2 → Fin 2 → Rq) (hash : S × List UInt8 → Bytes 32) (A : FullAttack ML_KEM_512 S) {qK qG qJ : Nat}
    (hK : ∀ pk c k, (A pk c k).QueriesK qK) (hG : ∀ pk c k, (A pk c k).QueriesG qG) (hJ : ∀ pk c k, (A pk c k).QueriesJ qJ) :
    |fullProb (kPke ML_KEM_512 mat) hash A true - fullProb (kPke ML_KEM_512 mat) hash A false| ≤
      meanHardness ML_KEM_512 mat hash A + (2 * qK + 2 * qJ + qG) / 2 ^ 256 + 3 * (qG + 1) * (1 / 2 ^ 123 + failDistance ML_KEM_512 mat) :=
  full_seed_bound ML_KEM_512 123 C76_fail.1 mat hash A hK hG hJ

/-- C82. ML-KEM-768. -/
theorem C82_768 {S : Type} [Fintype S] [Nonempty S] (mat : S → Fin 3 → Fin 3 → Rq) (hash : S × List UInt8 → Bytes 32) (A : FullAttack ML_KEM_768 S) {qK qG qJ : Nat}
    (hK : ∀ pk c k, (A pk c k).QueriesK qK) (hG : ∀ pk c k, (A pk c k).QueriesG qG) (hJ : ∀ pk c k, (A pk c k).QueriesJ qJ) :
    |fullProb (kPke ML_KEM_768 mat) hash A true - fullProb (kPke ML_KEM_768 mat) hash A false| ≤
      meanHardness ML_KEM_768 mat hash A + (2 * qK + 2 * qJ + qG) / 2 ^ 256 + 3 * (qG + 1) * (1 / 2 ^ 148 + failDistance ML_KEM_768 mat) :=
  full_seed_bound ML_KEM_768 148 C76_fail.2.1 mat hash A hK hG hJ

/-- C82. ML-KEM-1024. -/
theorem C82_1024 {S : Type} [Fintype S] [Nonempty S] (mat : S → Fin 4 → Fin 4 → Rq) (hash : S × List UInt8 → Bytes 32) (A : FullAttack ML_KEM_1024 S) {qK qG qJ : Nat}
    (hK : ∀ pk c k, (A pk c k).QueriesK qK) (hG : ∀ pk c k, (A pk c k).QueriesG qG) (hJ : ∀ pk c k, (A pk c k).QueriesJ qJ) :
    |fullProb (kPke ML_KEM_1024 mat) hash A true - fullProb (kPke ML_KEM_1024 mat) hash A false| ≤
      meanHardness ML_KEM_1024 mat hash A + (2 * qK + 2 * qJ + qG) / 2 ^ 256 + 3 * (qG + 1) * (1 / 2 ^ 161 + failDistance ML_KEM_1024 mat) :=
  full_seed_bound ML_KEM_1024 161 C76_fail.2.2 mat hash A hK hG hJ

/-! ## Concrete cases -/

/-- The key pair of the seed 0. -/
example (z m : Bytes 32) (c : Ciphertext ML_KEM_512) : ∃ d ek dk, KeyGen_internal ML_KEM_512 168 (byteList d) (byteList z) = some (ek, dk) ∧
    Decaps_internal ML_KEM_512 168 dk (byteList c) = some (byteList (fullDecaps (kPke ML_KEM_512 (expandMat ML_KEM_512 168)) stdHash (stdGK ML_KEM_512) stdG (kemJ _) d z c)) := by
  have h0 : byteList (listBytes 32 (List.replicate 32 0)) = List.replicate 32 0 := byteList_listBytes _ (by simp)
  obtain ⟨A, hA⟩ := kat_expandA
  obtain ⟨ek, dk, h1, -, -, h4⟩ := C82_standard ML_KEM_512 168 (listBytes 32 (List.replicate 32 0)) z m c
    (by rw [h0, show List.replicate 32 0 ++ [UInt8.ofNat ML_KEM_512.k] = katIn from rfl, kat_rho, show ML_KEM_512.k = 2 from rfl, hA]; rfl)
  exact ⟨_, ek, dk, h1, h4⟩

/-- A key pair of one bit that is also the encryption key of one bit. -/
def bitPke : Pke Bool Bool Bool Unit Bool := ⟨fun k => k, fun pk m _ => pk != m, fun k c => k != c⟩

/-- Ask for the key pairs of both seeds; they do not matter here: the message is the ciphertext and the key apart. -/
def bitAttack : Bool → Bool → Bool → FProg Bool Bool Bool Unit Bool Unit Unit Bool := fun pk c k => .askK true fun _ => .askG (pk != c) () fun k' _ => .guess (k' != k)

/-- The game is not empty: against an encryption that hides nothing there is an attack. -/
example : (∀ pk c k, (bitAttack pk c k).QueriesK 1) ∧ (∀ pk c k, (bitAttack pk c k).QueriesG 1) ∧ (∀ pk c k, (bitAttack pk c k).QueriesJ 0) ∧
    fullProb bitPke (fun _ => ()) bitAttack false = 0 ∧ fullProb bitPke (fun _ => ()) bitAttack true = 1 / 2 := by
  refine ⟨fun _ _ _ => ⟨0, rfl, fun _ _ _ => trivial⟩, fun _ _ _ _ => ⟨0, rfl, fun _ _ => trivial⟩, fun _ _ _ _ _ _ => trivial, ?_, ?_⟩
  · have : ∀ x, ind (fullRun bitPke (fun _ => ()) bitAttack false x = true) = 0 := fun x => by
      obtain ⟨d, GK, G, z, J, m, K1⟩ := x
      refine if_neg ?_
      show ¬ (((G (GK d != (GK d != m)) ()).1 != (G m ()).1) = true)
      cases GK d <;> cases m <;> simp
    unfold fullProb
    rw [funext this]
    exact E_const 0
  · have : ∀ x, ind (fullRun bitPke (fun _ => ()) bitAttack true x = true) = if ((x.2.2.1 x.2.2.2.2.2.1 ()).1 != x.2.2.2.2.2.2) = true then 1 else 0 := fun x => by
      obtain ⟨d, GK, G, z, J, m, K1⟩ := x
      have e : fullRun bitPke (fun _ => ()) bitAttack true (d, GK, G, z, J, m, K1) = ((G m ()).1 != K1) := by
        show ((G (GK d != (GK d != m)) ()).1 != K1) = _
        cases GK d <;> cases m <;> rfl
      rw [e]
      unfold ind
      congr
    unfold fullProb
    rw [funext this]
    decide +kernel

end Verif.Props
