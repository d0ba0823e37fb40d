import Verif.Props.Probe
import Verif.Props.Malleable

/-! # Ciphertexts that differ in one bit of low weight -/

set_option autoImplicit false

namespace Verif.Proof
open Verif.Model Verif.Spec Verif.Props

/-! ## Flipping a bit of a string -/

/-- `c` with bit `b` flipped. -/
def flipBit (c : List UInt8) (b : Nat) : List UInt8 := c.set (b / 8) (c.getD (b / 8) 0 ^^^ (UInt8.ofNat (2 ^ (b % 8))))

theorem flipBit_flipped (c : List UInt8) (b : Nat) (hb : b / 8 < c.length) : Flipped c (flipBit c b) b := by
  refine ⟨List.length_set, fun j => ?_⟩
  have h2 : ∀ t < 8, (UInt8.ofNat (2 ^ t)).toNat = 2 ^ t := by decide
  have h1 : ∀ x k : Nat, (x / 2 ^ k % 2 == 1) = x.testBit k := fun x k => by rw [Nat.testBit_eq_decide_div_mod_eq]; rfl
  unfold BytesToBits flipBit
  rw [h1, h1, List.getD_eq_getElem?_getD, List.getElem?_set]
  by_cases h : b / 8 = j / 8
  · rw [if_pos h, if_pos hb, h, Option.getD_some, UInt8.toNat_xor, Nat.testBit_xor, h2 _ (Nat.mod_lt _ (by decide)), Nat.testBit_two_pow]
    congr 1
    exact decide_eq_decide.2 ⟨fun e => by omega, fun e => by omega⟩
  · rw [if_neg h, decide_eq_false (fun e => h (by rw [e])), Bool.xor_false, List.getD_eq_getElem?_getD]

theorem flipBit_length (c : List UInt8) (b : Nat) : (flipBit c b).length = c.length := List.length_set

theorem flipBit_other (c : List UInt8) (b j : Nat) (hj : j ≠ b / 8) : (flipBit c b)[j]? = c[j]? := by
  unfold flipBit
  rw [List.getElem?_set, if_neg fun h => hj h.symm]

theorem flipBit_ne (c : List UInt8) (b : Nat) (hb : b / 8 < c.length) : flipBit c b ≠ c := by
  intro h
  have := (flipBit_flipped c b hb).2 b
  rw [h, decide_eq_true rfl, Bool.xor_true] at this
  cases hx : BytesToBits c b <;> rw [hx] at this <;> cases this

/-! ## Codes -/

theorem bitsVal_flip_any {d e : Nat} (he : e < d) {b b' : Nat → Bool} (h : ∀ j < d, b' j = (b j ^^ decide (j = e))) : bitsVal d b' = bitsVal d b + 2 ^ e ∨ bitsVal d b = bitsVal d b' + 2 ^ e := by
  have hs : ∀ b : Nat → Bool, bitsVal d b = (b e).toNat * 2 ^ e + ∑ j ∈ (Finset.range d).erase e, (b j).toNat * 2 ^ j := fun b => (Finset.add_sum_erase _ _ (Finset.mem_range.2 he)).symm
  have hr : ∑ j ∈ (Finset.range d).erase e, (b' j).toNat * 2 ^ j = ∑ j ∈ (Finset.range d).erase e, (b j).toNat * 2 ^ j := Finset.sum_congr rfl fun j hj => by
    rw [Finset.mem_erase, Finset.mem_range] at hj
    rw [h j hj.2, decide_eq_false hj.1, Bool.xor_false]
  rw [hs b, hs b', hr, h e he, decide_eq_true rfl, Bool.xor_true]
  cases b e
  · left; simp only [Bool.not_false, Bool.toNat_true, Bool.toNat_false]; omega
  · right; simp only [Bool.not_true, Bool.toNat_true, Bool.toNat_false]; omega

/-- Codes that differ by `2 ^ e` stand for values that differ by at most about `3329 / 2 ^ (d - e)`. -/
theorem decompress_near {d e D : Nat} (hd : 0 < d) (hD : 3329 * 2 ^ e < D * 2 ^ d) {x y : Nat} (h : y = x + 2 ^ e ∨ x = y + 2 ^ e) : ∃ δ : Int, -D ≤ δ ∧ δ ≤ D ∧ Decompress d y - Decompress d x = (δ : Zq) := by
  obtain ⟨d, rfl⟩ : ∃ n, d = n + 1 := ⟨d - 1, by omega⟩
  have key : ∀ x, ∃ δ : Nat, δ ≤ D ∧ Decompress (d + 1) (x + 2 ^ e) - Decompress (d + 1) x = (δ : Zq) := fun x => by
    rw [decompress_nat, decompress_nat]
    have h0 : 0 < 2 ^ (d + 1) := Nat.two_pow_pos _
    have h1 : 3329 * (x + 2 ^ e) + 2 ^ d ≤ 3329 * x + 2 ^ d + D * 2 ^ (d + 1) := by omega
    have h2 : (3329 * (x + 2 ^ e) + 2 ^ d) / 2 ^ (d + 1) ≤ (3329 * x + 2 ^ d) / 2 ^ (d + 1) + D := by
      rw [← Nat.add_mul_div_right _ _ h0]
      exact Nat.div_le_div_right h1
    have h3 : (3329 * x + 2 ^ d) / 2 ^ (d + 1) ≤ (3329 * (x + 2 ^ e) + 2 ^ d) / 2 ^ (d + 1) := Nat.div_le_div_right (by omega)
    exact ⟨_, Nat.sub_le_iff_le_add'.2 h2, (Nat.cast_sub h3).symm⟩
  rcases h with rfl | rfl
  · obtain ⟨δ, h1, h2⟩ := key x
    exact ⟨δ, by omega, by omega, by rw [h2]; simp⟩
  · obtain ⟨δ, h1, h2⟩ := key y
    exact ⟨-δ, by omega, by omega, by rw [← neg_sub, h2]; simp⟩

/-! ## The bits of a ciphertext -/

theorem u_bit (P : Params) (c : List UInt8) {l n t : Nat} (hl : l < P.k) (hn : n < 256) (ht : t < P.du) :
    BytesToBits (bytes (bytes c 0 (32 * P.du * P.k)) (32 * P.du * l) (32 * P.du * (l + 1))) (n * P.du + t) = BytesToBits c (256 * P.du * l + n * P.du + t) := by
  have hj : n * P.du + P.du ≤ 256 * P.du := by
    calc n * P.du + P.du = (n + 1) * P.du := by ring
      _ ≤ 256 * P.du := Nat.mul_le_mul_right _ hn
  have hik : 32 * P.du * (l + 1) ≤ 32 * P.du * P.k := Nat.mul_le_mul_left _ hl
  have hm : 32 * P.du * (l + 1) = 32 * P.du * l + 32 * P.du := Nat.mul_succ _ _
  have h256 : 8 * (32 * P.du) = 256 * P.du := by ring
  have h3 : 8 * (32 * P.du * l) = 256 * P.du * l := by ring
  have b1 : n * P.du + t < 8 * (32 * P.du * (l + 1) - 32 * P.du * l) := by omega
  have b2 : 8 * (32 * P.du * l) + (n * P.du + t) < 8 * (32 * P.du * P.k - 0) := by omega
  rw [bytesToBits_bytes _ _ _ _ b1, bytesToBits_bytes _ _ _ _ b2, h3]
  congr 1
  omega

theorem v_bit (P : Params) (c : List UInt8) {n t : Nat} (hn : n < 256) (ht : t < P.dv) :
    BytesToBits (bytes c (32 * P.du * P.k) (32 * (P.du * P.k + P.dv))) (n * P.dv + t) = BytesToBits c (256 * P.du * P.k + n * P.dv + t) := by
  have h1 : n * P.dv + P.dv ≤ 256 * P.dv := by
    calc n * P.dv + P.dv = (n + 1) * P.dv := by ring
      _ ≤ 256 * P.dv := Nat.mul_le_mul_right _ hn
  have h2 : 32 * (P.du * P.k + P.dv) = 32 * P.du * P.k + 32 * P.dv := by ring
  have h3 : 8 * (32 * P.du * P.k) = 256 * P.du * P.k := by ring
  rw [bytesToBits_bytes _ _ _ _ (by omega), h3, Nat.add_assoc]

/-- The values in a ciphertext. -/
def valU (P : Params) (c : List UInt8) (l : Nat) : Rq := fun n => Decompress P.du (ByteDecode P.du (bytes (bytes c 0 (32 * P.du * P.k)) (32 * P.du * l) (32 * P.du * (l + 1))) n)
def valV (P : Params) (c : List UInt8) : Rq := fun n => Decompress P.dv (ByteDecode P.dv (bytes c (32 * P.du * P.k) (32 * (P.du * P.k + P.dv))) n)

theorem decValue_small (P : Params) (s : Nat → Fin 256 → Int) (c : List UInt8) :
    decValue P (keyOfSmall P s) c = valV P c - ∑ l ∈ Finset.range P.k, mulRq (fun n => ((s l n : Int) : Zq)) (valU P c l) := by
  have hs : ∀ j < P.k, ByteDecode12 (bytes (keyOfSmall P s) (384 * j) (384 * (j + 1))) = NTT fun n => ((s j n : Int) : Zq) := fun j hj => by
    unfold keyOfSmall
    rw [← List.append_nil (concat P.k _), bytes_concat (fun i => byteEncode12_length _) _ hj, byteDecode12_byteEncode12]
  rw [← nttInv_dot, ← dotNTT_congr hs fun _ _ => rfl]
  rfl

/-- A change of one coefficient of a factor. -/
theorem mulRq_single (f g g' : Rq) (n k : Fin 256) (h : ∀ j, j ≠ n → g' j = g j) :
    ∃ i, mulRq f g' k - mulRq f g k = f i * (g' n - g n) ∨ mulRq f g' k - mulRq f g k = -(f i * (g' n - g n)) := by
  have e : mulRq f g' k - mulRq f g k = ∑ i : Fin 256, if i.val + n.val = k.val then f i * (g' n - g n) else if i.val + n.val = k.val + 256 then -(f i * (g' n - g n)) else 0 := by
    unfold mulRq
    rw [← Finset.sum_sub_distrib]
    refine Finset.sum_congr rfl fun i _ => ?_
    rw [← Finset.sum_sub_distrib, Finset.sum_eq_single n]
    · split
      · ring
      · split
        · ring
        · ring
    · intro j _ hj
      rw [h j hj, sub_self]
    · simp
  rw [e]
  by_cases hn : n.val ≤ k.val
  · refine ⟨⟨k.val - n.val, by omega⟩, Or.inl ?_⟩
    rw [Finset.sum_eq_single ⟨k.val - n.val, by omega⟩]
    · exact if_pos (by dsimp only; omega)
    · intro i _ hi
      have h1 : ¬ i.val + n.val = k.val := fun h => hi (Fin.ext (by dsimp only; omega))
      have := i.isLt
      rw [if_neg h1, if_neg (by omega)]
    · simp
  · refine ⟨⟨k.val + 256 - n.val, by omega⟩, Or.inr ?_⟩
    rw [Finset.sum_eq_single ⟨k.val + 256 - n.val, by omega⟩]
    · rw [if_neg (by dsimp only; omega)]
      exact if_pos (by dsimp only; omega)
    · intro i _ hi
      have h1 : ¬ i.val + n.val = k.val + 256 := fun h => hi (Fin.ext (by dsimp only; omega))
      rw [if_neg (by omega), if_neg h1]
    · simp

/-- A bit of u: all values change by little. -/
theorem flip_u (P : Params) (s : Nat → Fin 256 → Int) (hs : SmallKey P s) (c c' : List UInt8) {l e D : Nat} {n : Fin 256} (hl : l < P.k) (he : e < P.du) (hD : 3329 * 2 ^ e < D * 2 ^ P.du)
    (h : ∀ j, BytesToBits c' j = (BytesToBits c j ^^ decide (j = 256 * P.du * l + n.val * P.du + e))) (j : Fin 256) :
    ∃ δ : Int, -(P.η₁ * D) ≤ δ ∧ δ ≤ P.η₁ * D ∧ decValue P (keyOfSmall P s) c' j = decValue P (keyOfSmall P s) c j + (δ : Zq) := by
  have hpos : ∀ l' n' t, l' < P.k → n' < 256 → t < P.du → 256 * P.du * l' + n' * P.du + t = 256 * P.du * l + n.val * P.du + e → l' = l ∧ n' = n.val ∧ t = e := fun l' n' t _ hn ht hh => by
    have h1 : ∀ l n t : Nat, 256 * P.du * l + n * P.du + t = P.du * (256 * l + n) + t := fun l n t => by ring
    rw [h1, h1] at hh
    have h2 : 256 * l' + n' = 256 * l + n.val := by
      have := congrArg (fun x => x / P.du) hh
      rwa [Nat.mul_add_div (by omega), Nat.mul_add_div (by omega), Nat.div_eq_of_lt ht, Nat.div_eq_of_lt he] at this
    rw [h2] at hh
    have := n.isLt
    omega
  have hV : valV P c' = valV P c := funext fun i => by
    unfold valV ByteDecode
    refine congrArg _ (bitsVal_congr fun t ht => ?_)
    rw [v_bit P _ i.isLt ht, v_bit P _ i.isLt ht, h, decide_eq_false, Bool.xor_false]
    have h1 : 256 * P.du * (l + 1) ≤ 256 * P.du * P.k := Nat.mul_le_mul_left _ hl
    have h2 : 256 * P.du * (l + 1) = 256 * P.du * l + 256 * P.du := Nat.mul_succ _ _
    have h3 : n.val * P.du + P.du ≤ 256 * P.du := by
      calc n.val * P.du + P.du = (n.val + 1) * P.du := by ring
        _ ≤ 256 * P.du := Nat.mul_le_mul_right _ n.isLt
    omega
  have hU : ∀ l' < P.k, ∀ i : Fin 256, ¬ (l' = l ∧ i = n) → valU P c' l' i = valU P c l' i := fun l' hl' i hi => by
    unfold valU ByteDecode
    refine congrArg _ (bitsVal_congr fun t ht => ?_)
    rw [u_bit P _ hl' i.isLt ht, u_bit P _ hl' i.isLt ht, h, decide_eq_false, Bool.xor_false]
    intro hh
    obtain ⟨a, b, -⟩ := hpos _ _ _ hl' i.isLt ht hh
    exact hi ⟨a, Fin.ext b⟩
  obtain ⟨δ, d1, d2, d3⟩ : ∃ δ : Int, -D ≤ δ ∧ δ ≤ D ∧ valU P c' l n - valU P c l n = (δ : Zq) := by
    refine decompress_near (by omega) hD (bitsVal_flip_any he fun t ht => ?_)
    rw [u_bit P _ hl n.isLt ht, u_bit P _ hl n.isLt ht, h]
    congr 1
    exact decide_eq_decide.2 ⟨fun hh => (hpos _ _ _ hl n.isLt ht hh).2.2, fun hh => by rw [hh]⟩
  obtain ⟨i, hi⟩ := mulRq_single (fun n => ((s l n : Int) : Zq)) (valU P c l) (valU P c' l) n j fun i hi => hU l hl i fun hh => hi hh.2
  have hsum : ∑ x ∈ Finset.range P.k, mulRq (fun n => ((s x n : Int) : Zq)) (valU P c' x) j - ∑ x ∈ Finset.range P.k, mulRq (fun n => ((s x n : Int) : Zq)) (valU P c x) j =
      mulRq (fun n => ((s l n : Int) : Zq)) (valU P c' l) j - mulRq (fun n => ((s l n : Int) : Zq)) (valU P c l) j := by
    rw [← Finset.sum_sub_distrib]
    refine Finset.sum_eq_single_of_mem l (Finset.mem_range.2 hl) fun x hx hxl => ?_
    rw [funext fun i => hU x (Finset.mem_range.1 hx) i fun hh => hxl hh.1, sub_self]
  have hb : -(P.η₁ * D : Int) ≤ s l i * δ ∧ s l i * δ ≤ P.η₁ * D := by
    have h1 : |s l i| ≤ P.η₁ := abs_le.2 (hs l i)
    have h2 : |δ| ≤ D := abs_le.2 ⟨d1, d2⟩
    rw [← abs_le, abs_mul]
    exact mul_le_mul h1 h2 (abs_nonneg _) (by positivity)
  rw [decValue_small, decValue_small, hV]
  simp only [Pi.sub_apply, Finset.sum_apply]
  rw [d3] at hi
  rcases hi with hi | hi
  · refine ⟨-(s l i * δ), by omega, by omega, ?_⟩
    push_cast
    linear_combination -hsum - hi
  · refine ⟨s l i * δ, hb.1, hb.2, ?_⟩
    push_cast
    linear_combination -hsum - hi

/-- A bit of v: one value changes by little. -/
theorem flip_v (P : Params) (s : Nat → Fin 256 → Int) (c c' : List UInt8) {e D : Nat} {n : Fin 256} (he : e < P.dv) (hD : 3329 * 2 ^ e < D * 2 ^ P.dv)
    (h : ∀ j, BytesToBits c' j = (BytesToBits c j ^^ decide (j = 256 * P.du * P.k + n.val * P.dv + e))) (j : Fin 256) :
    ∃ δ : Int, -D ≤ δ ∧ δ ≤ D ∧ decValue P (keyOfSmall P s) c' j = decValue P (keyOfSmall P s) c j + (δ : Zq) := by
  have hU : ∀ l < P.k, valU P c' l = valU P c l := fun l hl => funext fun i => by
    unfold valU ByteDecode
    refine congrArg _ (bitsVal_congr fun t ht => ?_)
    rw [u_bit P _ hl i.isLt ht, u_bit P _ hl i.isLt ht, h, decide_eq_false, Bool.xor_false]
    have h1 : 256 * P.du * (l + 1) ≤ 256 * P.du * P.k := Nat.mul_le_mul_left _ hl
    have h2 : 256 * P.du * (l + 1) = 256 * P.du * l + 256 * P.du := Nat.mul_succ _ _
    have h3 : i.val * P.du + P.du ≤ 256 * P.du := by
      calc i.val * P.du + P.du = (i.val + 1) * P.du := by ring
        _ ≤ 256 * P.du := Nat.mul_le_mul_right _ i.isLt
    omega
  have hpos : ∀ n' t, t < P.dv → n' * P.dv + t = n.val * P.dv + e → n' = n.val ∧ t = e := fun n' t ht hh => by
    rw [Nat.mul_comm, Nat.mul_comm n.val] at hh
    have h2 : n' = n.val := by
      have := congrArg (fun x => x / P.dv) hh
      rwa [Nat.mul_add_div (by omega), Nat.mul_add_div (by omega), Nat.div_eq_of_lt ht, Nat.div_eq_of_lt he] at this
    rw [h2] at hh
    omega
  obtain ⟨δ, d1, d2, d3⟩ : ∃ δ : Int, -D ≤ δ ∧ δ ≤ D ∧ valV P c' j - valV P c j = (δ : Zq) := by
    by_cases hj : j = n
    · subst hj
      refine decompress_near (by omega) hD (bitsVal_flip_any he fun t ht => ?_)
      rw [v_bit P _ j.isLt ht, v_bit P _ j.isLt ht, h]
      congr 1
      exact decide_eq_decide.2 ⟨fun hh => (hpos j.val t ht (by omega)).2, fun hh => by rw [hh]⟩
    · refine ⟨0, by omega, by omega, ?_⟩
      rw [Int.cast_zero, sub_eq_zero]
      unfold valV ByteDecode
      refine congrArg _ (bitsVal_congr fun t ht => ?_)
      rw [v_bit P _ j.isLt ht, v_bit P _ j.isLt ht, h, decide_eq_false, Bool.xor_false]
      intro hh
      exact hj (Fin.ext (hpos j.val t ht (by omega)).1)
  refine ⟨δ, d1, d2, ?_⟩
  rw [decValue_small, decValue_small, Finset.sum_congr rfl fun l hl => by rw [hU l (Finset.mem_range.1 hl)]]
  simp only [Pi.sub_apply]
  linear_combination d3

/-! ## A bit of low weight in each byte -/

theorem low_bit_u {du : Nat} (hd : du = 10 ∨ du = 11) (i : Nat) : ∃ e t, e + 8 ≤ du ∧ t < 8 ∧ (8 * i + t) % du = e := by
  rcases hd with rfl | rfl
  · by_cases h : 8 * i % 10 = 0 ∨ 8 * i % 10 = 2
    · exact ⟨8 * i % 10, 0, by omega, by omega, rfl⟩
    · exact ⟨0, 10 - 8 * i % 10, by omega, by omega, by omega⟩
  · by_cases h : 8 * i % 11 ≤ 3
    · exact ⟨8 * i % 11, 0, by omega, by omega, rfl⟩
    · exact ⟨0, 11 - 8 * i % 11, by omega, by omega, by omega⟩

theorem low_bit_v {dv : Nat} (hd : dv = 4 ∨ dv = 5) (i : Nat) : ∃ t, t < 8 ∧ (8 * i + t) % dv = 0 := by
  rcases hd with rfl | rfl
  · exact ⟨0, by omega, by omega⟩
  · exact ⟨(5 - 8 * i % 5) % 5, by omega, by omega⟩

/-- In each byte of the ciphertext there is a bit that moves no value by more than 209. -/
theorem low_bit (P : Params) (hu : P.du = 10 ∨ P.du = 11) (hv : P.dv = 4 ∨ P.dv = 5) (hη : P.η₁ ≤ 3) (i : Nat) (hi : i < ctLen P) :
    ∃ b, b / 8 = i ∧ ∀ s, SmallKey P s → ∀ c c', Flipped c c' b → ∀ j, ∃ δ : Int, -209 ≤ δ ∧ δ ≤ 209 ∧ decValue P (keyOfSmall P s) c' j = decValue P (keyOfSmall P s) c j + (δ : Zq) := by
  unfold ctLen at hi
  by_cases h : i < 32 * P.du * P.k
  · obtain ⟨e, t, h1, h2, h3⟩ := low_bit_u hu i
    refine ⟨8 * i + t, by omega, fun s hs c c' hf j => ?_⟩
    have hx : 8 * i + t = 256 * P.du * ((8 * i + t) / P.du / 256) + (8 * i + t) / P.du % 256 * P.du + e := by
      have a := Nat.div_add_mod (8 * i + t) P.du
      have b := Nat.div_add_mod ((8 * i + t) / P.du) 256
      calc 8 * i + t = P.du * ((8 * i + t) / P.du) + e := by rw [← h3]; exact a.symm
        _ = P.du * (256 * ((8 * i + t) / P.du / 256) + (8 * i + t) / P.du % 256) + e := by rw [b]
        _ = _ := by ring
    have hl : (8 * i + t) / P.du / 256 < P.k := by
      rw [Nat.div_div_eq_div_mul]
      refine (Nat.div_lt_iff_lt_mul (by rcases hu with h | h <;> rw [h] <;> decide)).2 ?_
      have : 8 * (32 * P.du * P.k) = P.k * (P.du * 256) := by ring
      omega
    obtain ⟨δ, a, b, d⟩ := flip_u P s hs c c' (l := (8 * i + t) / P.du / 256) (e := e) (D := 14) (n := ⟨(8 * i + t) / P.du % 256, Nat.mod_lt _ (by decide)⟩) hl (by omega) (by
      have h4 : 2 ^ (e + 8) ≤ 2 ^ P.du := Nat.pow_le_pow_right (by decide) h1
      rw [Nat.pow_add] at h4
      have := Nat.two_pow_pos e
      omega) (fun j => by rw [hf.2]; congr 1; exact decide_eq_decide.2 (by rw [← hx])) j
    exact ⟨δ, by push_cast at a; omega, by push_cast at b; omega, d⟩
  · obtain ⟨t, h2, h3⟩ := low_bit_v hv (i - 32 * P.du * P.k)
    refine ⟨8 * i + t, by omega, fun s _ c c' hf j => ?_⟩
    have e0 : 32 * (P.du * P.k + P.dv) = 32 * P.du * P.k + 32 * P.dv := by ring
    have e1 : 256 * P.du * P.k = 8 * (32 * P.du * P.k) := by ring
    have hx : 8 * i + t = 256 * P.du * P.k + (8 * (i - 32 * P.du * P.k) + t) / P.dv * P.dv + 0 := by
      have a := Nat.div_add_mod (8 * (i - 32 * P.du * P.k) + t) P.dv
      rw [h3, Nat.mul_comm] at a
      omega
    have hn : (8 * (i - 32 * P.du * P.k) + t) / P.dv < 256 := (Nat.div_lt_iff_lt_mul (by omega)).2 (by omega)
    obtain ⟨δ, a, b, d⟩ := flip_v P s c c' (e := 0) (D := 209) (n := ⟨_, hn⟩) (by omega) (by rcases hv with h | h <;> rw [h] <;> decide) (fun j => by rw [hf.2]; congr 1; exact decide_eq_decide.2 (by rw [← hx])) j
    exact ⟨δ, a, b, d⟩

/-! ## Rounding -/

/-- A value within 620 of that of a bit. -/
def ClearValue (w : Zq) : Prop := ∃ (b : Bool) (z : Int), -620 ≤ z ∧ z ≤ 620 ∧ w = Decompress 1 b.toNat + (z : Zq)

theorem compress_clear {w w' : Zq} (h : ClearValue w) {δ : Int} (h1 : -209 ≤ δ) (h2 : δ ≤ 209) (h' : w' = w + (δ : Zq)) : Compress 1 w' = Compress 1 w := by
  obtain ⟨b, z, z1, z2, rfl⟩ := h
  have hb : (829 : Int) ≤ if b then 831 else 832 := by cases b <;> decide
  rw [(C19_bit b z ⟨by omega, by omega⟩).2 ⟨by omega, by omega⟩, h', add_assoc, ← Int.cast_add]
  exact (C19_bit b (z + δ) ⟨by omega, by omega⟩).2 ⟨by omega, by omega⟩

end Verif.Proof
