import Verif.Proof.KeccakPerm
import Verif.Proof.Bits
import Verif.Model.Fips202

/-! # The Keccak state as 200 bytes -/

namespace Verif.Proof
open Verif.Model Verif.Spec

/-! ## Bits and bytes -/

theorem getD_ge {α : Type} {l : List α} {i : Nat} {d : α} (h : l.length ≤ i) : l.getD i d = d := by
  simp [List.getD_eq_getElem?_getD, List.getElem?_eq_none h]

theorem getD_app_left {α : Type} {l l' : List α} {i : Nat} {d : α} (h : i < l.length) : (l ++ l').getD i d = l.getD i d := by
  simp only [List.getD_eq_getElem?_getD, List.getElem?_append_left h]

theorem getD_app_right {α : Type} {l l' : List α} {i : Nat} {d : α} (h : l.length ≤ i) : (l ++ l').getD i d = l'.getD (i - l.length) d := by
  simp only [List.getD_eq_getElem?_getD, List.getElem?_append_right h]

theorem h2b_length (M : List UInt8) : (h2b M).length = 8 * M.length := by simp [h2b]

theorem bytesToBits_ge (M : List UInt8) (k : Nat) (h : 8 * M.length ≤ k) : BytesToBits M k = false := by
  rw [bytesToBits, getD_ge (by omega)]; simp

theorem h2b_getD (M : List UInt8) (k : Nat) : (h2b M).getD k false = BytesToBits M k := by
  by_cases h : k < 8 * M.length
  · simp [h2b, h]
  · rw [getD_ge (by rw [h2b_length]; omega), bytesToBits_ge _ _ (by omega)]

theorem h2b_getElem (M : List UInt8) (k : Nat) (h : k < (h2b M).length) : (h2b M)[k] = BytesToBits M k := by simp [h2b]

theorem h2b_append (M N : List UInt8) : h2b (M ++ N) = h2b M ++ h2b N := by
  apply List.ext_getElem
  · simp [h2b_length]; omega
  · intro k h1 h2
    rw [h2b_getElem]
    by_cases h : k < 8 * M.length
    · rw [List.getElem_append_left (by rw [h2b_length]; omega), h2b_getElem, bytesToBits, bytesToBits, getD_app_left (by omega)]
    · rw [List.getElem_append_right (by rw [h2b_length]; omega), h2b_getElem, bytesToBits, bytesToBits,
        getD_app_right (by omega)]
      simp only [h2b_length]
      rw [show (k - 8 * M.length) / 8 = k / 8 - M.length from by omega, show (k - 8 * M.length) % 8 = k % 8 from by omega]

theorem h2b_take (M : List UInt8) (n : Nat) : h2b (M.take n) = (h2b M).take (8 * n) := by
  apply List.ext_getElem
  · simp only [h2b_length, List.length_take]; omega
  · intro k h1 h2
    rw [h2b_getElem, List.getElem_take, h2b_getElem, bytesToBits, bytesToBits]
    simp [h2b_length] at h1
    simp [List.getD_eq_getElem?_getD, show k / 8 < n from by omega]

theorem h2b_drop (M : List UInt8) (n : Nat) : h2b (M.drop n) = (h2b M).drop (8 * n) := by
  apply List.ext_getElem
  · simp [h2b_length]; omega
  · intro k h1 h2
    rw [h2b_getElem, List.getElem_drop, h2b_getElem, bytesToBits, bytesToBits]
    simp only [List.getD_eq_getElem?_getD, List.getElem?_drop]
    rw [show (8 * n + k) / 8 = n + k / 8 from by omega, show (8 * n + k) % 8 = k % 8 from by omega]

theorem h2b_zero (n : Nat) : h2b (List.replicate n 0) = List.replicate (8 * n) false := by
  apply List.ext_getElem
  · simp [h2b_length]
  · intro k h1 h2
    rw [h2b_getElem, bytesToBits]
    simp [List.getD_eq_getElem?_getD, List.getElem?_replicate]
    split <;> simp

theorem h2b_xor (M N : List UInt8) : h2b (List.zipWith (· ^^^ ·) M N) = List.zipWith xor (h2b M) (h2b N) := by
  apply List.ext_getElem
  · simp only [h2b_length, List.length_zipWith]; omega
  · intro k h1 h2
    simp [h2b_length] at h1
    rw [h2b_getElem, List.getElem_zipWith, h2b_getElem, h2b_getElem, bytesToBits, bytesToBits, bytesToBits]
    have a : k / 8 < M.length := by omega
    have b : k / 8 < N.length := by omega
    simp [List.getD_eq_getElem?_getD, a, b]

theorem b2h_length (S : List Bool) : (b2h S).length = S.length / 8 := by simp [b2h, BitsToBytes]

theorem bytesToBits_b2h (S : List Bool) (n : Nat) (hS : S.length = 8 * n) (k : Nat) : BytesToBits (b2h S) k = S.getD k false := by
  by_cases h : k < 8 * n
  · rw [bytesToBits]
    have e : (b2h S).getD (k / 8) 0 = UInt8.ofNat (bitsVal 8 fun j => S.getD (8 * (k / 8) + j) false) := by
      have : k / 8 < n := by omega
      simp [b2h, BitsToBytes, hS, this]
    rw [e]
    have := bitsVal_lt 8 fun j => S.getD (8 * (k / 8) + j) false
    rw [UInt8.toNat_ofNat_of_lt' this, testBit_bitsVal]
    simp [show k % 8 < 8 from by omega, show 8 * (k / 8) + k % 8 = k from by omega]
  · rw [bytesToBits_ge _ _ (by rw [b2h_length, hS]; omega), getD_ge (by omega)]

theorem h2b_b2h (S : List Bool) (n : Nat) (hS : S.length = 8 * n) : h2b (b2h S) = S := by
  apply List.ext_getElem
  · rw [h2b_length, b2h_length]; omega
  · intro k h1 h2
    rw [h2b_getElem, bytesToBits_b2h S n hS]
    simp [h2]

theorem h2b_inj {M N : List UInt8} (h : h2b M = h2b N) : M = N := by
  have hl : M.length = N.length := by
    have := congrArg List.length h; simp [h2b_length] at this; exact this
  apply List.ext_getElem hl
  intro i h1 h2
  apply UInt8.toNat_inj.mp
  apply Nat.eq_of_testBit_eq
  intro j
  by_cases hj : j < 8
  · have := congrArg (fun l => l.getD (8 * i + j) false) h
    simp only [h2b_getD, bytesToBits, show (8 * i + j) / 8 = i from by omega, show (8 * i + j) % 8 = j from by omega] at this
    simpa [List.getD_eq_getElem?_getD, h1, h2] using this
  · rw [testBit_u8_ge _ _ (by omega), testBit_u8_ge _ _ (by omega)]

theorem b2h_h2b (M : List UInt8) : b2h (h2b M) = M := h2b_inj (h2b_b2h _ _ (h2b_length M))

/-! ## The state -/

theorem flatMap_get {α β : Type} {w : Nat} (f : α → List β) (hf : ∀ a, (f a).length = w) : ∀ (l : List α) (i j : Nat), j < w →
    (l.flatMap f)[w * i + j]? = l[i]?.bind fun a => (f a)[j]?
  | [], i, j, _ => by simp
  | a :: l, 0, j, hj => by
    rw [List.flatMap_cons, Nat.mul_zero, Nat.zero_add, List.getElem?_append_left (by rw [hf]; exact hj)]; simp
  | a :: l, i + 1, j, hj => by
    rw [List.flatMap_cons, List.getElem?_append_right (by rw [hf, Nat.mul_succ]; omega), hf, Nat.mul_succ,
      show w * i + w + j - w = w * i + j from by omega, flatMap_get f hf l i j hj]
    simp

theorem flatMap_len {α β : Type} {w : Nat} (f : α → List β) (hf : ∀ a, (f a).length = w) : ∀ (l : List α), (l.flatMap f).length = w * l.length
  | [] => by simp
  | a :: l => by rw [List.flatMap_cons, List.length_append, flatMap_len f hf l, hf, List.length_cons, Nat.mul_succ, Nat.add_comm]

theorem ofKState_length (A : KState) : (ofKState A).length = 1600 := by
  unfold ofKState
  rw [flatMap_len (w := 320)]
  · simp
  · intro y; rw [flatMap_len (w := 64)] <;> simp

theorem toKState_ofKState (A : KState) : toKState (ofKState A) = A := by
  funext x y z
  unfold toKState ofKState
  rw [List.getD_eq_getElem?_getD, show 64 * (5 * y.val + x.val) + z.val = 320 * y.val + (64 * x.val + z.val) from by omega,
    flatMap_get (w := 320) _ (fun y => by rw [flatMap_len (w := 64)] <;> simp) _ _ _ (by omega)]
  simp only [List.getElem?_eq_getElem (show y.val < (List.finRange 5).length by simp), Option.bind_some]
  rw [flatMap_get (w := 64) _ (fun x => by simp) _ _ _ z.isLt]
  simp

/-- Keccak-p[1600, 24] on bytes. -/
def KF (B : List UInt8) : List UInt8 := b2h (keccakP (h2b B))

theorem keccakP_length (S : List Bool) : (keccakP S).length = 1600 := ofKState_length _

theorem KF_length (B : List UInt8) : (KF B).length = 200 := by rw [KF, b2h_length, keccakP_length]

theorem h2b_KF (B : List UInt8) : h2b (KF B) = keccakP (h2b B) := h2b_b2h _ 200 (keccakP_length _)

/-- The 25 words hold the 200 bytes `B`. -/
def RB (s : Mem UInt64) (B : List UInt8) : Prop :=
  s.size = 25 ∧ B.length = 200 ∧ ∀ i, i < 25 → ∃ v, s[i]? = some (some v) ∧ ∀ z : Fin 64, bit v z = BytesToBits B (64 * i + z.val)

theorem RB.stR {s : Mem UInt64} {B : List UInt8} (h : RB s B) : StR s (toKState (h2b B)) := by
  refine ⟨h.1, fun x y => ?_⟩
  obtain ⟨v, hv, hb⟩ := h.2.2 (5 * y.val + x.val) (by omega)
  refine ⟨v, hv, fun z => ?_⟩
  rw [hb]; unfold toKState; rw [h2b_getD]

theorem StR.rB {s : Mem UInt64} {B : List UInt8} (h : StR s (toKState (h2b B))) (hB : B.length = 200) : RB s B := by
  refine ⟨h.1, hB, fun i hi => ?_⟩
  obtain ⟨v, hv, hb⟩ := h.2 ⟨i % 5, by omega⟩ ⟨i / 5, by omega⟩
  dsimp only at hv
  rw [show 5 * (i / 5) + i % 5 = i from by omega] at hv
  refine ⟨v, hv, fun z => ?_⟩
  rw [hb]; unfold toKState; rw [h2b_getD]
  dsimp only
  rw [show 5 * (i / 5) + i % 5 = i from by omega]

theorem permute_runs {s : Mem UInt64} {B : List UInt8} (h : RB s B) : Runs (KeccakF1600_StatePermute s) (fun s' => RB s' (KF B)) := by
  refine (StatePermute_runs h.stR).mono fun s' h' => StR.rB ?_ (KF_length B)
  rw [h2b_KF, keccakP, toKState_ofKState]; exact h'

end Verif.Proof
