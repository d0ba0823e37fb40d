import Verif.Proof.Sample
import Verif.Proof.CbdDist
import Mathlib.Algebra.BigOperators.Fin
import Mathlib.Data.Nat.Choose.Sum
import Mathlib.Data.Fin.Tuple.Basic

/-! # The distribution of rejection sampling -/

namespace Verif.Proof
open Verif.Model Verif.Spec Finset

/-- Sum of `f` over the accepted candidates of all byte strings of length `3 N`. -/
def sumB (N : Nat) (f : List Nat → Nat) : Nat := ∑ b : Fin (3 * N) → Fin 256, f (accepted (bytesOf b))

/-- Sum of `f` over the accepted ones of `n` candidates. -/
def sumC (n : Nat) (f : List Nat → Nat) : Nat := ∑ c : Fin n → Fin 4096, f ((List.ofFn fun i => (c i).val).filter (· < 3329))

theorem sum_cons {n m : Nat} (f : (Fin (n + 1) → Fin m) → Nat) : ∑ c, f c = ∑ x : Fin m, ∑ c : Fin n → Fin m, f (Fin.cons x c) := by
  rw [← Fintype.sum_prod_type']
  exact (Fintype.sum_equiv (Fin.consEquiv fun _ => Fin m) (fun x => f (Fin.cons x.1 x.2)) f fun _ => rfl).symm

theorem bytesOf_cons {n : Nat} (x : Fin 256) (b : Fin n → Fin 256) :
    bytesOf (Fin.cons x b : Fin (n + 1) → Fin 256) = UInt8.ofNat x.val :: bytesOf b := by
  unfold bytesOf
  rw [List.ofFn_succ]
  rfl

theorem sumC_succ (n : Nat) (f : List Nat → Nat) :
    sumC (n + 1) f = ∑ x : Fin 4096, sumC n fun l => f (if x.val < 3329 then x.val :: l else l) := by
  unfold sumC
  rw [sum_cons]
  refine Finset.sum_congr rfl fun x _ => Finset.sum_congr rfl fun c _ => ?_
  rw [List.ofFn_succ, List.filter_cons]
  simp only [decide_eq_true_eq]
  rfl

theorem toNat_fin (x : Fin 256) : (UInt8.ofNat x.val).toNat = x.val := by
  rw [UInt8.toNat_ofNat', Nat.mod_eq_of_lt (by omega)]

/-- Two 12-bit numbers from three bytes. -/
def twoOf (x : Fin 256 × Fin 256 × Fin 256) : Fin 4096 × Fin 4096 :=
  (⟨x.1.val + 256 * (x.2.1.val % 16), by omega⟩, ⟨x.2.1.val / 16 + 16 * x.2.2.val, by omega⟩)

theorem twoOf_bijective : Function.Bijective twoOf := by
  rw [Fintype.bijective_iff_injective_and_card]
  constructor
  · rintro ⟨a, b, c⟩ ⟨a', b', c'⟩ h
    simp only [twoOf, Prod.mk.injEq, Fin.mk.injEq] at h ⊢
    refine ⟨Fin.ext ?_, Fin.ext ?_, Fin.ext ?_⟩ <;> omega
  · simp

theorem sumB_succ (N : Nat) (f : List Nat → Nat) :
    sumB (N + 1) f = ∑ a : Fin 256, ∑ b : Fin 256, ∑ c : Fin 256, sumB N fun l => f (accepted [UInt8.ofNat a.val, UInt8.ofNat b.val, UInt8.ofNat c.val] ++ l) := by
  unfold sumB
  rw [show (∑ b : Fin (3 * (N + 1)) → Fin 256, f (accepted (bytesOf b))) = ∑ b : Fin (3 * N + 1 + 1 + 1) → Fin 256, f (accepted (bytesOf b)) from rfl]
  rw [sum_cons]
  refine Finset.sum_congr rfl fun x _ => ?_
  rw [sum_cons]
  refine Finset.sum_congr rfl fun y _ => ?_
  rw [sum_cons]
  refine Finset.sum_congr rfl fun z _ => Finset.sum_congr rfl fun b _ => ?_
  rw [bytesOf_cons, bytesOf_cons, bytesOf_cons]
  exact congrArg f (accepted_append 1 [_, _, _] _ rfl)

theorem sumB_eq : ∀ (N : Nat) (f : List Nat → Nat), sumB N f = sumC (2 * N) f
  | 0, f => by
    unfold sumB sumC
    simp [bytesOf, accepted, cands]
  | N + 1, f => by
    rw [sumB_succ, show 2 * (N + 1) = 2 * N + 1 + 1 from rfl, sumC_succ]
    simp only [sumC_succ (2 * N)]
    simp only [← Fintype.sum_prod_type' (fun (b c : Fin 256) => _), ← Fintype.sum_prod_type' (fun (b c : Fin 4096) => _)]
    rw [← Fintype.sum_prod_type' (fun (a : Fin 256) (b : Fin 256 × Fin 256) => _)]
    refine Fintype.sum_bijective twoOf twoOf_bijective _ _ fun x => ?_
    rw [sumB_eq N]
    refine congrArg (sumC (2 * N)) (funext fun l => ?_)
    rw [accepted_three, toNat_fin, toNat_fin, toNat_fin]
    simp only [twoOf]
    by_cases h1 : x.1.val + 256 * (x.2.1.val % 16) < 3329 <;> by_cases h2 : x.2.1.val / 16 + 16 * x.2.2.val < 3329 <;> simp only [h1, h2, if_true, if_false] <;> rfl

theorem sum_fin_add {m a b : Nat} (h : m = a + b) (F : Nat → Nat) : ∑ x : Fin m, F x.val = ∑ x : Fin a, F x.val + ∑ x : Fin b, F (a + x.val) := by
  subst h
  exact Fin.sum_univ_add _

/-- `n` candidates, split by the first one: rejected (767 values) or accepted. -/
theorem sumC_split (n : Nat) (f : List Nat → Nat) : sumC (n + 1) f = 767 * sumC n f + ∑ x : Fin 3329, sumC n fun l => f (x.val :: l) := by
  rw [sumC_succ, sum_fin_add (a := 3329) (b := 767) rfl (fun x => sumC n fun l => f (if x < 3329 then x :: l else l)), Nat.add_comm]
  refine congrArg₂ (· + ·) ?_ ?_
  · rw [Finset.sum_congr rfl fun (x : Fin 767) _ => show (sumC n fun l => f (if 3329 + x.val < 3329 then (3329 + x.val) :: l else l)) = sumC n f from by
      simp only [show ¬ 3329 + x.val < 3329 from by omega, if_false]]
    rw [Finset.sum_const, Finset.card_univ, Fintype.card_fin, smul_eq_mul]
  · refine Finset.sum_congr rfl fun x _ => ?_
    simp only [x.isLt, if_true]

/-- How many of the sequences of `n` candidates have the accepted numbers `v`, of which there are `j`, at the front. -/
def prefixCount : Nat → Nat → Nat
  | n, 0 => 4096 ^ n
  | 0, _ + 1 => 0
  | n + 1, j + 1 => 767 * prefixCount n (j + 1) + prefixCount n j

theorem sumC_const (n k : Nat) : sumC n (fun _ => k) = 4096 ^ n * k := by
  unfold sumC
  simp

theorem sumC_prefix : ∀ (n : Nat) (v : List Nat), (∀ x ∈ v, x < 3329) → sumC n (fun l => if v <+: l then 1 else 0) = prefixCount n v.length
  | n, [], _ => by
    simp only [List.nil_prefix, if_true]
    rw [sumC_const, Nat.mul_one, List.length_nil, prefixCount.eq_def]
  | 0, x :: v, _ => by
    unfold sumC
    simp [prefixCount]
  | n + 1, x :: v, h => by
    have hx : x < 3329 := h x (by simp)
    rw [sumC_split, sumC_prefix n (x :: v) h, List.length_cons, prefixCount, Finset.sum_eq_single ⟨x, hx⟩]
    · simp only [List.cons_prefix_cons, true_and]
      rw [sumC_prefix n v fun y hy => h y (List.mem_cons_of_mem _ hy)]
    · intro y _ hy
      have : ¬ x = y.val := fun e => hy (Fin.ext e.symm)
      simp only [List.cons_prefix_cons, this, false_and, if_false]
      rw [sumC_const, Nat.mul_zero]
    · simp

theorem sumC_length : ∀ (n j : Nat), sumC n (fun l => if l.length = j then 1 else 0) = n.choose j * 3329 ^ j * 767 ^ (n - j)
  | 0, 0 => by unfold sumC; simp
  | 0, j + 1 => by unfold sumC; simp
  | n + 1, 0 => by
    rw [sumC_split, sumC_length n 0]
    simp only [List.length_cons, Nat.add_eq_zero_iff, Nat.one_ne_zero, and_false, if_false]
    simp only [sumC_const, Nat.mul_zero, Finset.sum_const_zero]
    simp [pow_succ, Nat.mul_comm]
  | n + 1, j + 1 => by
    rw [sumC_split, sumC_length n (j + 1)]
    simp only [List.length_cons, Nat.add_right_cancel_iff]
    rw [Finset.sum_const, Finset.card_univ, Fintype.card_fin, smul_eq_mul, sumC_length n j, Nat.choose_succ_succ, Nat.add_sub_add_right]
    by_cases h : j + 1 ≤ n
    · rw [show n - j = (n - (j + 1)) + 1 from by omega]
      ring
    · rw [Nat.choose_eq_zero_of_lt (show n < j + 1 from by omega)]
      ring

/-- The sum of the terms `j, ..., j + k - 1`, for evaluation; `c` is the binomial coefficient of the first one. -/
def tailSum (n : Nat) : (k j c acc : Nat) → Nat
  | 0, _, _, acc => acc
  | k + 1, j, c, acc => tailSum n k (j + 1) (c * (n - j) / (j + 1)) (acc + c * 3329 ^ j * 767 ^ (n - j))

theorem tailSum_eq (n : Nat) : ∀ k j acc, tailSum n k j (n.choose j) acc = acc + ∑ i ∈ range k, n.choose (j + i) * 3329 ^ (j + i) * 767 ^ (n - (j + i))
  | 0, j, acc => by simp [tailSum]
  | k + 1, j, acc => by
    rw [tailSum, show n.choose j * (n - j) / (j + 1) = n.choose (j + 1) from by
      rw [← Nat.choose_succ_right_eq, Nat.mul_div_cancel _ (by omega)], tailSum_eq n k, Finset.sum_range_succ', Nat.add_assoc, Nat.add_comm (Finset.sum _ _)]
    simp only [Nat.add_zero, Nat.add_assoc, Nat.add_comm 1]

theorem failSum_eq (n : Nat) : ∑ j ∈ range 256, n.choose j * 3329 ^ j * 767 ^ (n - j) = tailSum n 256 0 1 0 := by
  have := tailSum_eq n 256 0 0
  rw [Nat.choose_zero_right, Nat.zero_add] at this
  rw [this]
  exact Finset.sum_congr rfl fun j _ => by rw [Nat.zero_add]

end Verif.Proof
