import Verif.Spec.Drbg

/-! # AES-256: lengths, and evaluation in the kernel

The functions ending in `F` are those of the specification with the intermediate values evaluated at once. -/

namespace Verif.Proof
open Verif.Spec Verif.Spec.Aes

def forceN {α : Type} (n : Nat) (f : Nat → α) : α :=
  match n with
  | 0 => f 0
  | m + 1 => f (m + 1)

theorem forceN_eq {α : Type} (n : Nat) (f : Nat → α) : forceN n f = f n := by cases n <;> rfl

def forceL {α : Type} : List Nat → (List Nat → α) → α
  | [], f => f []
  | a :: l, f => forceN a fun a => forceL l fun l => f (a :: l)

theorem forceL_eq {α : Type} : ∀ (l : List Nat) (f : List Nat → α), forceL l f = f l
  | [], _ => rfl
  | a :: l, f => by unfold forceL; rw [forceN_eq, forceL_eq]

def expandF {α : Type} : Nat → Nat → Nat → List (List Nat) → (List (List Nat) → α) → α
  | 0, _, _, w, f => f w.reverse
  | n + 1, i, rcon, w, f =>
    let t := w.headD []
    let t := if i % 8 = 0 then addKey ((t.drop 1 ++ t.take 1).map sbox) [rcon, 0, 0, 0] else if i % 8 = 4 then t.map sbox else t
    forceN (i + 1) fun i' => forceN (if i % 8 = 0 then xtime rcon else rcon) fun rc => forceL (addKey (w.getD 7 []) t) fun x => expandF n i' rc (x :: w) f

theorem expandF_eq {α : Type} : ∀ (n i rcon : Nat) (w : List (List Nat)) (f : List (List Nat) → α), expandF n i rcon w f = f (expand n i rcon w)
  | 0, _, _, _, _ => rfl
  | n + 1, i, rcon, w, f => by
    unfold expandF
    simp only [forceN_eq, forceL_eq, expandF_eq n]
    rfl

def roundsF (w : List (List Nat)) : Nat → Nat → List Nat → List Nat
  | 0, _, s => s
  | n + 1, r, s =>
    forceL (shiftRows (subBytes s)) fun s => forceL (if r = 14 then s else mixColumns s) fun s => forceL (addKey s ((w.drop (4 * r)).take 4).flatten) fun s => roundsF w n (r + 1) s

theorem roundsF_eq (w : List (List Nat)) : ∀ n r s, roundsF w n r s = rounds w n r s
  | 0, _, _ => rfl
  | n + 1, r, s => by
    unfold roundsF
    simp only [forceL_eq, roundsF_eq w n]
    rfl

def aesF (key block : List UInt8) : List UInt8 :=
  forceL (key.map UInt8.toNat) fun k => expandF 52 8 1 ((List.range 8).map fun i => (k.drop (4 * i)).take 4).reverse fun w =>
    forceL (addKey (block.map UInt8.toNat) (w.take 4).flatten) fun s => forceL (roundsF w 14 1 s) fun s => s.map UInt8.ofNat

theorem aesF_eq (key block : List UInt8) : aesF key block = AES256 key block := by
  unfold aesF
  simp only [forceL_eq, expandF_eq, roundsF_eq]
  rfl

/-! ## Lengths -/

theorem expand_words : ∀ (n i rcon : Nat) (w : List (List Nat)), 8 ≤ w.length → (∀ x ∈ w, x.length = 4) → (expand n i rcon w).length = w.length + n ∧ ∀ x ∈ expand n i rcon w, x.length = 4
  | 0, _, _, w, _, h => ⟨by simp [expand], fun x hx => h x (by simpa [expand] using hx)⟩
  | n + 1, i, rcon, w, hl, h => by
    unfold expand
    have hd : (w.headD []).length = 4 := by
      cases w with
      | nil => simp at hl
      | cons a l => exact h a (by simp)
    have h7 : (w.getD 7 []).length = 4 := by
      rw [List.getD_eq_getElem?_getD, List.getElem?_eq_getElem (by omega)]
      exact h _ (List.getElem_mem _)
    obtain ⟨h1, h2⟩ := expand_words n (i + 1) (if i % 8 = 0 then xtime rcon else rcon)
      (addKey (w.getD 7 []) (if i % 8 = 0 then addKey (((w.headD []).drop 1 ++ (w.headD []).take 1).map sbox) [rcon, 0, 0, 0] else if i % 8 = 4 then (w.headD []).map sbox else w.headD []) :: w)
      (by simp; omega) (by
        intro x hx
        rcases List.mem_cons.1 hx with rfl | hx
        · unfold addKey
          rw [List.length_zipWith, h7]
          generalize w.headD [] = t at hd ⊢
          split
          · rw [List.length_zipWith]; simp [hd]
          · split <;> simp [hd]
        · exact h x hx)
    exact ⟨by rw [h1]; simp; omega, h2⟩

theorem flatten_length4 {l : List (List Nat)} (h : ∀ x ∈ l, x.length = 4) : l.flatten.length = 4 * l.length := by
  induction l with
  | nil => rfl
  | cons a l ih =>
    rw [List.flatten_cons, List.length_append, ih fun x hx => h x (by simp [hx]), h a (by simp), List.length_cons]
    omega

theorem rounds_length {w : List (List Nat)} (hw : w.length = 60) (h4 : ∀ x ∈ w, x.length = 4) : ∀ n r s, s.length = 16 → r + n ≤ 15 → (rounds w n r s).length = 16
  | 0, _, s, hs, _ => hs
  | n + 1, r, s, hs, hr => by
    unfold rounds
    refine rounds_length hw h4 n (r + 1) _ ?_ (by omega)
    have e : ((w.drop (4 * r)).take 4).flatten.length = 16 := by
      rw [flatten_length4 fun x hx => h4 x (List.mem_of_mem_drop (List.mem_of_mem_take hx)), List.length_take, List.length_drop]
      omega
    unfold addKey
    rw [List.length_zipWith, e]
    split <;> simp [shiftRows, mixColumns]

theorem aes256_isCipher : IsCipher AES256 := by
  intro k c hk hc
  unfold AES256
  dsimp only
  rw [List.length_map]
  have hw := expand_words 52 8 1 ((List.range 8).map fun i => ((k.map UInt8.toNat).drop (4 * i)).take 4).reverse (by simp) (by
    intro x hx
    rw [List.mem_reverse, List.mem_map] at hx
    obtain ⟨i, hi, rfl⟩ := hx
    rw [List.mem_range] at hi
    rw [List.length_take, List.length_drop, List.length_map]
    omega)
  have hl := hw.1
  simp only [List.length_reverse, List.length_map, List.length_range] at hl
  refine rounds_length hl hw.2 14 1 _ ?_ (by omega)
  unfold addKey
  rw [List.length_zipWith, flatten_length4 fun x hx => hw.2 x (List.mem_of_mem_take hx), List.length_take, hl, List.length_map, hc]
  rfl

end Verif.Proof
