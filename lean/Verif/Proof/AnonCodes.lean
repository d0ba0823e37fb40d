import Verif.Proof.Anon
import Verif.Proof.Serial4

/-! # The codes of uniform coefficients, and the number of heavy ones -/

set_option autoImplicit false

namespace Verif.Proof
open Finset Verif.Spec

/-! ## Independent coordinates -/

section
variable {ι α : Type} [Fintype ι] [DecidableEq ι] [Fintype α] [Nonempty α]

theorem E_coord (i : ι) (g : α → ℚ) : E (fun x : ι → α => g (x i)) = E g := by
  rw [E_update i]
  refine congrArg E (funext fun r => ?_)
  simp only [Function.update_self]
  exact E_const _

theorem E_coord2 {i j : ι} (hij : i ≠ j) (g h : α → ℚ) : E (fun x : ι → α => g (x i) * h (x j)) = E g * E h := by
  rw [E_update i]
  have : ∀ r, E (fun x : ι → α => g (Function.update x i r i) * h (Function.update x i r j)) = E h * g r := fun r => by
    simp only [Function.update_self, Function.update_of_ne hij.symm]
    rw [E_mul, E_coord j h, mul_comm]
  rw [funext this, E_mul, mul_comm]

theorem E_sum {β : Type} [Fintype β] {κ : Type} (s : Finset κ) (f : κ → β → ℚ) : E (fun x => ∑ i ∈ s, f i x) = ∑ i ∈ s, E (f i) := by
  unfold E
  rw [Finset.sum_comm, Finset.sum_div]

variable (f : α → ℚ)

theorem E_total : E (fun x : ι → α => ∑ i, f (x i)) = Fintype.card ι * E f := by
  rw [E_sum]
  have : ∀ i : ι, E (fun x : ι → α => f (x i)) = E f := fun i => E_coord i f
  simp only [this, Finset.sum_const, Finset.card_univ, nsmul_eq_mul]

theorem E_square (hf : ∀ a, f a * f a = f a) :
    E (fun x : ι → α => (∑ i, f (x i)) * ∑ i, f (x i)) = Fintype.card ι * E f + Fintype.card ι * (Fintype.card ι - 1) * (E f * E f) := by
  have e : ∀ x : ι → α, (∑ i, f (x i)) * ∑ i, f (x i) = ∑ i, ∑ j, f (x i) * f (x j) := fun x => Finset.sum_mul_sum _ _ _ _
  rw [funext e, E_sum]
  have h : ∀ i : ι, E (fun x : ι → α => ∑ j, f (x i) * f (x j)) = E f + (Fintype.card ι - 1) * (E f * E f) := fun i => by
    rw [E_sum, ← Finset.add_sum_erase _ _ (Finset.mem_univ i)]
    have e1 : E (fun x : ι → α => f (x i) * f (x i)) = E f := by
      simp only [hf]
      exact E_coord i f
    have e2 : ∀ j ∈ Finset.univ.erase i, E (fun x : ι → α => f (x i) * f (x j)) = E f * E f := fun j hj => E_coord2 (Finset.ne_of_mem_erase hj).symm f f
    rw [e1, Finset.sum_congr rfl e2, Finset.sum_const, Finset.card_erase_of_mem (Finset.mem_univ i), Finset.card_univ, nsmul_eq_mul,
      Nat.cast_sub (Fintype.card_pos_iff.2 ⟨i⟩), Nat.cast_one]
  rw [Finset.sum_congr rfl fun i _ => h i, Finset.sum_const, Finset.card_univ, nsmul_eq_mul]
  ring

/-- The second moment around any point. -/
theorem E_around (hf : ∀ a, f a * f a = f a) (a : ℚ) : E (fun x : ι → α => (∑ i, f (x i) - Fintype.card ι * E f + a) ^ 2) = Fintype.card ι * (E f * (1 - E f)) + a ^ 2 := by
  have e : ∀ x : ι → α, (∑ i, f (x i) - Fintype.card ι * E f + a) ^ 2 =
      (∑ i, f (x i)) * (∑ i, f (x i)) + ((2 * (a - Fintype.card ι * E f)) * (∑ i, f (x i)) + (a - Fintype.card ι * E f) ^ 2) := fun x => by ring
  rw [funext e, E_add, E_add, E_mul, E_const, E_square f hf, E_total]
  ring

/-- The number of ones is rarely much above its mean. -/
theorem tail_above (hf : ∀ a, f a * f a = f a) {t s : ℚ} (ht : 0 < t) (hs : 0 ≤ s) (p : (ι → α) → Prop) (hp : ∀ x, p x → Fintype.card ι * E f + t ≤ ∑ i, f (x i)) :
    E (fun x => ind (p x)) ≤ (Fintype.card ι * (E f * (1 - E f)) + s ^ 2) / (t + s) ^ 2 := by
  have hpos : 0 < (t + s) ^ 2 := by positivity
  rw [le_div_iff₀ hpos, mul_comm, ← E_mul, ← E_around (ι := ι) f hf s]
  refine E_mono fun x => ?_
  unfold ind
  split
  · rename_i h
    have := hp x h
    rw [mul_one]
    exact pow_le_pow_left₀ (by linarith) (by linarith) 2
  · rw [mul_zero]; positivity

/-- The number of ones is rarely much below its mean. -/
theorem tail_below (hf : ∀ a, f a * f a = f a) {t s : ℚ} (ht : 0 < t) (hs : 0 ≤ s) (p : (ι → α) → Prop) (hp : ∀ x, p x → ∑ i, f (x i) ≤ Fintype.card ι * E f - t) :
    E (fun x => ind (p x)) ≤ (Fintype.card ι * (E f * (1 - E f)) + s ^ 2) / (t + s) ^ 2 := by
  have hpos : 0 < (t + s) ^ 2 := by positivity
  have e := E_around (ι := ι) f hf (-s)
  rw [neg_sq] at e
  rw [le_div_iff₀ hpos, mul_comm, ← E_mul, ← e]
  refine E_mono fun x => ?_
  unfold ind
  split
  · rename_i h
    have := hp x h
    rw [mul_one, show (∑ i, f (x i) - Fintype.card ι * E f + -s) ^ 2 = (Fintype.card ι * E f - ∑ i, f (x i) + s) ^ 2 from by ring]
    exact pow_le_pow_left₀ (by linarith) (by linarith) 2
  · rw [mul_zero]; positivity

end

/-! ## Ciphertexts and their codes -/

/-- The ciphertext with the given codes. -/
def packCodes (P : Params) (cs : (Fin P.k → Fin 256 → Fin (2 ^ P.du)) × (Fin 256 → Fin (2 ^ P.dv))) : Ciphertext P :=
  listBytes _ ((concat P.k fun i => ByteEncode P.du fun j => if h : i < P.k then (cs.1 ⟨i, h⟩ j).val else 0) ++ ByteEncode P.dv fun j => (cs.2 j).val)

theorem packCodes_list (P : Params) (cs : (Fin P.k → Fin 256 → Fin (2 ^ P.du)) × (Fin 256 → Fin (2 ^ P.dv))) :
    byteList (packCodes P cs) = (concat P.k fun i => ByteEncode P.du fun j => if h : i < P.k then (cs.1 ⟨i, h⟩ j).val else 0) ++ ByteEncode P.dv fun j => (cs.2 j).val := by
  refine byteList_listBytes _ ?_
  rw [List.length_append, concat_length fun i => byteEncode_length _ _, byteEncode_length]
  ring

theorem codes_pack (P : Params) (cs : (Fin P.k → Fin 256 → Fin (2 ^ P.du)) × (Fin 256 → Fin (2 ^ P.dv))) (i : Fin P.k) (j : Fin 256) : codes P (packCodes P cs) i j = (cs.1 i j).val := by
  unfold codes
  rw [packCodes_list, bytes_concat (fun i => byteEncode_length _ _) _ i.isLt, byteDecode_byteEncode]
  · rw [dif_pos i.isLt]
  · intro j
    rw [dif_pos i.isLt]
    exact (cs.1 i j).isLt

theorem packCodes_injective (P : Params) : Function.Injective (packCodes P) := fun x y h => by
  refine Prod.ext (funext fun i => funext fun j => Fin.ext ?_) (funext fun j => Fin.ext ?_)
  · rw [← codes_pack P x i j, h, codes_pack]
  · have e : ∀ z, bytes (byteList (packCodes P z)) (32 * P.du * P.k) (32 * P.du * P.k + 32 * P.dv) = ByteEncode P.dv fun j => (z.2 j).val := fun z => by
      rw [packCodes_list]
      exact bytes_append_right (concat_length fun i => byteEncode_length _ _) (by rw [byteEncode_length])
    have d : ∀ z, ByteDecode P.dv (bytes (byteList (packCodes P z)) (32 * P.du * P.k) (32 * P.du * P.k + 32 * P.dv)) j = (z.2 j).val := fun z => by
      rw [e, byteDecode_byteEncode _ _ fun i => (z.2 i).isLt]
    rw [← d x, h, d]

theorem packCodes_bijective (P : Params) : Function.Bijective (packCodes P) := by
  rw [Fintype.bijective_iff_injective_and_card]
  refine ⟨packCodes_injective P, ?_⟩
  simp only [Fintype.card_prod, Fintype.card_fun, Fintype.card_fin]
  rw [show (256 : Nat) ^ (32 * (P.du * P.k + P.dv)) = 2 ^ (256 * (P.du * P.k + P.dv)) from by
    rw [show 256 * (P.du * P.k + P.dv) = 8 * (32 * (P.du * P.k + P.dv)) from by ring, pow_mul 2 8]; rfl]
  rw [← pow_mul, ← pow_mul, ← pow_mul, ← pow_add]
  congr 1
  ring

/-- The codes of a random string are independent and uniform. -/
theorem E_codes (P : Params) (F : (Fin P.k → Fin 256 → Nat) → ℚ) :
    E (fun c : Ciphertext P => F (codes P c)) = E fun y : Fin P.k × Fin 256 → Fin (2 ^ P.du) => F fun i j => (y (i, j)).val := by
  have : Nonempty (Fin 256 → Fin (2 ^ P.dv)) := ⟨fun _ => ⟨0, by positivity⟩⟩
  rw [← E_equiv (Equiv.ofBijective _ (packCodes_bijective P))]
  have e : ∀ cs, F (codes P (Equiv.ofBijective _ (packCodes_bijective P) cs)) = F fun i j => (cs.1 i j).val := fun cs =>
    congrArg F (funext fun i => funext fun j => codes_pack P cs i j)
  rw [funext e]
  rw [E_fst (α := Fin P.k → Fin 256 → Fin (2 ^ P.du)) (β := Fin 256 → Fin (2 ^ P.dv)) fun x => F fun i j => (x i j).val, ← E_equiv (Equiv.curry (Fin P.k) (Fin 256) (Fin (2 ^ P.du)))]
  rfl

/-- The codes of uniform coefficients. -/
theorem E_codes_uniform (P : Params) (F : (Fin P.k → Fin 256 → Nat) → ℚ) :
    E (fun w => F (codes P (packUniform P w))) = E fun y : Fin P.k × Fin 256 → Zq => F fun i j => Compress P.du (y (i, j)) := by
  have e : ∀ w, F (codes P (packUniform P w)) = F fun i j => Compress P.du (w.1 i j) := fun w => by
    refine congrArg F (funext fun i => funext fun j => ?_)
    have h : packUniform P w = packCodes P (fun i j => ⟨Compress P.du (w.1 i j), compress_lt _ _⟩, fun j => ⟨Compress P.dv (w.2 j), compress_lt _ _⟩) := by
      unfold packUniform packCodes pkePack
      refine congrArg (fun l => listBytes _ (l ++ _)) (concat_congr fun i hi => ?_)
      simp only [dif_pos hi]
    rw [h, codes_pack]
  rw [funext e, E_fst (α := Fin P.k → Rq) (β := Rq) fun x => F fun i j => Compress P.du (x i j), ← E_equiv (Equiv.curry (Fin P.k) (Fin 256) Zq)]
  rfl

theorem heavyCount_sum (P : Params) (c : Ciphertext P) : (heavyCount P c : ℚ) = ∑ i : Fin P.k × Fin 256, ind (heavy P.du (codes P c i.1 i.2) = true) := by
  have e : ∀ i : Fin P.k × Fin 256, ind (heavy P.du (codes P c i.1 i.2) = true) = if heavy P.du (codes P c i.1 i.2) = true then 1 else 0 := fun i => by
    unfold ind
    split <;> rfl
  unfold heavyCount
  rw [Finset.sum_congr rfl fun i _ => e i, Finset.sum_boole]

/-! ## The numbers of heavy codes and of their values -/

theorem E_count (n : Nat) (b : Nat → Bool) : E (fun i : Fin n => ind (b i.val = true)) = ((List.range n).countP b : ℚ) / n := by
  unfold E
  rw [Fintype.card_fin, Fin.sum_univ_eq_sum_range fun i => ind (b i = true)]
  congr 1
  induction n with
  | zero => rfl
  | succ n ih =>
    rw [Finset.sum_range_succ, ih, List.range_succ, List.countP_append, Nat.cast_add]
    congr 1
    unfold ind
    cases h : b n <;> simp [h]

theorem heavy10 : E (fun y : Fin (2 ^ 10) => ind (heavy 10 y.val = true)) = 257 / 1024 := by
  rw [E_count, show (List.range (2 ^ 10)).countP (heavy 10) = 257 from by decide +kernel]
  norm_num

theorem heavy11 : E (fun y : Fin (2 ^ 11) => ind (heavy 11 y.val = true)) = 1281 / 2048 := by
  rw [E_count, show (List.range (2 ^ 11)).countP (heavy 11) = 1281 from by decide +kernel]
  norm_num

theorem heavy_values (d : Nat) : E (fun x : Zq => ind (heavy d (Compress d x) = true)) = ((List.range 3329).countP fun x => heavy d ((2 * 2 ^ d * x + 3329) / 6658 % 2 ^ d) : ℚ) / 3329 := by
  have e' := E_count 3329 fun x => heavy d ((2 * 2 ^ d * x + 3329) / 6658 % 2 ^ d)
  rw [Nat.cast_ofNat] at e'
  rw [← e']
  have e : ∀ x : Zq, ind (heavy d (Compress d x) = true) = ind (heavy d ((2 * 2 ^ d * x.val + 3329) / 6658 % 2 ^ d) = true) := fun x => by rw [compress_nat]
  rw [funext e]
  rfl

theorem heavy10_values : E (fun x : Zq => ind (heavy 10 (Compress 10 x) = true)) = 1028 / 3329 := by
  rw [heavy_values, show ((List.range 3329).countP fun x => heavy 10 ((2 * 2 ^ 10 * x + 3329) / 6658 % 2 ^ 10)) = 1028 from by decide +kernel]
  norm_num

theorem heavy11_values : E (fun x : Zq => ind (heavy 11 (Compress 11 x) = true)) = 2562 / 3329 := by
  rw [heavy_values, show ((List.range 3329).countP fun x => heavy 11 ((2 * 2 ^ 11 * x + 3329) / 6658 % 2 ^ 11)) = 2562 from by decide +kernel]
  norm_num

end Verif.Proof
