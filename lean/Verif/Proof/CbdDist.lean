import Verif.Proof.Cbd
import Mathlib.Data.Fintype.BigOperators
import Mathlib.Data.Fintype.Pi

/-! # The distribution of centred binomial sampling -/

namespace Verif.Proof
open Verif.Model Verif.Spec Finset

/-- The byte string with the given byte values. -/
def bytesOf {n : Nat} (b : Fin n → Fin 256) : List UInt8 := List.ofFn fun i => UInt8.ofNat (b i).val

theorem bytesOf_length {n : Nat} (b : Fin n → Fin 256) : (bytesOf b).length = n := by simp [bytesOf]

/-- The `2η` bits that determine each coefficient. -/
def cbdBits (η : Nat) (b : Fin (64 * η) → Fin 256) : Fin 256 → Fin (2 * η) → Bool :=
  fun i j => BytesToBits (bytesOf b) (2 * η * i.val + j.val)

theorem cbdBits_injective (η : Nat) (hη : 0 < η) : Function.Injective (cbdBits η) := by
  intro b b' h
  funext n
  apply Fin.ext
  apply Nat.eq_of_testBit_eq
  have hbit : ∀ (b : Fin (64 * η) → Fin 256) k, k < 8 → (b n).val.testBit k = BytesToBits (bytesOf b) (8 * n.val + k) := by
    intro b k hk
    rw [bytesToBits, show (8 * n.val + k) / 8 = n.val from by omega, show (8 * n.val + k) % 8 = k from by omega]
    have hn : n.val < (bytesOf b).length := by rw [bytesOf_length]; exact n.isLt
    have e : (bytesOf b).getD n.val 0 = UInt8.ofNat (b n).val := by
      rw [List.getD_eq_getElem?_getD, List.getElem?_eq_getElem hn]
      simp [bytesOf]
    rw [e, UInt8.toNat_ofNat', Nat.mod_eq_of_lt (by have := (b n).isLt; omega)]
  intro k
  by_cases hk : k < 8
  · rw [hbit b k hk, hbit b' k hk]
    have hpos : 0 < 2 * η := by omega
    have hlt : (8 * n.val + k) / (2 * η) < 256 := by
      rw [Nat.div_lt_iff_lt_mul hpos]
      have := n.isLt
      omega
    have := congrFun (congrFun h ⟨_, hlt⟩) ⟨(8 * n.val + k) % (2 * η), Nat.mod_lt _ hpos⟩
    unfold cbdBits at this
    simpa only [Nat.div_add_mod] using this
  · have hx : ∀ x : Fin 256, x.val.testBit k = false := fun x => testBit_ge (d := 8) x.isLt k (by omega)
    rw [hx, hx]

theorem cbdBits_bijective (η : Nat) (hη : 0 < η) : Function.Bijective (cbdBits η) := by
  rw [Fintype.bijective_iff_injective_and_card]
  refine ⟨cbdBits_injective η hη, ?_⟩
  simp only [Fintype.card_fun, Fintype.card_fin, Fintype.card_bool]
  rw [← pow_mul, show (256 : Nat) ^ (64 * η) = (2 ^ 8) ^ (64 * η) from by norm_num, ← pow_mul]
  congr 1
  ring

/-- The value of `2η` bits. -/
def cbdVal (η : Nat) (c : Fin (2 * η) → Bool) : Int :=
  (∑ j : Fin η, ((c ⟨j.val, by omega⟩).toNat : Int)) - ∑ j : Fin η, ((c ⟨η + j.val, by omega⟩).toNat : Int)

theorem cbdInt_val (η : Nat) (b : Fin (64 * η) → Fin 256) (i : Fin 256) : cbdInt η (bytesOf b) i.val = cbdVal η (cbdBits η b i) := by
  unfold cbdInt cbdVal ones cbdBits
  push_cast
  rw [Finset.sum_range, Finset.sum_range]
  congr 1
  · refine sum_congr rfl fun j _ => ?_
    rw [show 2 * i.val * η + j.val = 2 * η * i.val + j.val from by ring]
  · refine sum_congr rfl fun j _ => ?_
    rw [show (2 * i.val + 1) * η + j.val = 2 * η * i.val + (η + j.val) from by ring]

theorem cbdVal_count2 : ∀ v : Fin 5, #{c : Fin (2 * 2) → Bool | cbdVal 2 c = (v.val : Int) - 2} = Nat.choose 4 v.val := by decide +kernel
theorem cbdVal_count3 : ∀ v : Fin 7, #{c : Fin (2 * 3) → Bool | cbdVal 3 c = (v.val : Int) - 3} = Nat.choose 6 v.val := by decide +kernel

theorem cbdVal_count (η : Nat) (hη : η = 2 ∨ η = 3) (v : Int) (hv : -η ≤ v ∧ v ≤ η) :
    #{c : Fin (2 * η) → Bool | cbdVal η c = v} = Nat.choose (2 * η) (η + v).toNat := by
  rcases hη with rfl | rfl
  · have := cbdVal_count2 ⟨(2 + v).toNat, by omega⟩
    rwa [show (((2 + v).toNat : Nat) : Int) - 2 = v from by omega] at this
  · have := cbdVal_count3 ⟨(3 + v).toNat, by omega⟩
    rwa [show (((3 + v).toNat : Nat) : Int) - 3 = v from by omega] at this

/-- Joint distribution of all coefficients. -/
theorem cbd_count (η : Nat) (hη : η = 2 ∨ η = 3) (v : Fin 256 → Int) (hv : ∀ i, -η ≤ v i ∧ v i ≤ η) :
    #{b : Fin (64 * η) → Fin 256 | ∀ i : Fin 256, cbdInt η (bytesOf b) i.val = v i} = ∏ i, Nat.choose (2 * η) (η + v i).toNat := by
  have hb := cbdBits_bijective η (by omega)
  have h1 : #{b : Fin (64 * η) → Fin 256 | ∀ i : Fin 256, cbdInt η (bytesOf b) i.val = v i} =
      #{f : Fin 256 → Fin (2 * η) → Bool | ∀ i, cbdVal η (f i) = v i} := by
    refine card_bij (fun b _ => cbdBits η b) ?_ ?_ ?_
    · intro b hb
      simp only [mem_filter, mem_univ, true_and] at *
      exact fun i => by rw [← cbdInt_val]; exact hb i
    · intro b _ b' _ h
      exact hb.1 h
    · intro f hf
      obtain ⟨b, rfl⟩ := hb.2 f
      simp only [mem_filter, mem_univ, true_and] at hf
      refine ⟨b, ?_, rfl⟩
      simp only [mem_filter, mem_univ, true_and]
      exact fun i => by rw [cbdInt_val]; exact hf i
  have h2 : ({f : Fin 256 → Fin (2 * η) → Bool | ∀ i, cbdVal η (f i) = v i} : Finset _) =
      Fintype.piFinset fun i => ({c : Fin (2 * η) → Bool | cbdVal η c = v i} : Finset _) := by
    ext f
    simp [Fintype.mem_piFinset]
  rw [h1, h2, Fintype.card_piFinset]
  exact prod_congr rfl fun i _ => cbdVal_count η hη (v i) (hv i)

end Verif.Proof
