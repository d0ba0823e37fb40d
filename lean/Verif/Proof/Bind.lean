import Verif.Spec.Bind
import Verif.Proof.Correct
import Mathlib.Data.Set.Card

/-! # Binding: two decapsulations with the same result -/

namespace Verif.Proof
open Verif.Spec

variable {P : Params} {N : Nat}

theorem Decaps_eq (dk c : List UInt8) : Decaps_internal P N dk c = (K_PKE_Encrypt P N (dkEk P dk) (decMsg P dk c) (G (decMsg P dk c ++ dkH P dk)).2).map fun c' =>
    if c = c' then (G (decMsg P dk c ++ dkH P dk)).1 else J (dkZ P dk ++ c) := by
  unfold Decaps_internal decMsg dkEk dkPke dkH dkZ
  dsimp only
  generalize K_PKE_Encrypt P N _ _ _ = o
  cases o <;> rfl

theorem decaps_cases {dk c K : List UInt8} (h : Decaps_internal P N dk c = some K) :
    (Accepted P N dk c ∧ K = (G (decMsg P dk c ++ dkH P dk)).1) ∨ (¬ Accepted P N dk c ∧ K = J (dkZ P dk ++ c)) := by
  rw [Decaps_eq, Option.map_eq_some_iff] at h
  obtain ⟨c', hc, rfl⟩ := h
  unfold Accepted
  rw [hc, Option.some.injEq]
  by_cases e : c = c'
  · rw [if_pos e]; exact Or.inl ⟨e.symm, rfl⟩
  · rw [if_neg e]; exact Or.inr ⟨fun h => e h.symm, rfl⟩

theorem accepted_inj {dk c1 c2 : List UInt8} (h1 : Accepted P N dk c1) (h2 : Accepted P N dk c2) (h : decMsg P dk c1 = decMsg P dk c2) : c1 = c2 := by
  unfold Accepted at h1 h2
  rw [h, h2] at h1
  exact (Option.some.inj h1).symm

theorem bind_ct {dk c1 c2 K : List UInt8} (h1 : Decaps_internal P N dk c1 = some K) (h2 : Decaps_internal P N dk c2 = some K) (hne : c1 ≠ c2) :
    (decMsg P dk c1 ≠ decMsg P dk c2 ∧ (G (decMsg P dk c1 ++ dkH P dk)).1 = (G (decMsg P dk c2 ++ dkH P dk)).1) ∨
    J (dkZ P dk ++ c1) = J (dkZ P dk ++ c2) ∨
    (G (decMsg P dk c1 ++ dkH P dk)).1 = J (dkZ P dk ++ c2) ∨ (G (decMsg P dk c2 ++ dkH P dk)).1 = J (dkZ P dk ++ c1) := by
  rcases decaps_cases h1 with ⟨a1, e1⟩ | ⟨a1, e1⟩ <;> rcases decaps_cases h2 with ⟨a2, e2⟩ | ⟨a2, e2⟩ <;> rw [e1] at e2
  · exact Or.inl ⟨fun e => hne (accepted_inj a1 a2 e), e2⟩
  · exact Or.inr (Or.inr (Or.inl e2))
  · exact Or.inr (Or.inr (Or.inr e2.symm))
  · exact Or.inr (Or.inl e2)

theorem bind_key {N1 N2 : Nat} {dk1 dk2 c1 c2 K : List UInt8} (h1 : Decaps_internal P N1 dk1 c1 = some K) (h2 : Decaps_internal P N2 dk2 c2 = some K) :
    (decMsg P dk1 c1 ++ dkH P dk1 = decMsg P dk2 c2 ++ dkH P dk2 ∧ Accepted P N1 dk1 c1 ∧ Accepted P N2 dk2 c2) ∨
    (decMsg P dk1 c1 ++ dkH P dk1 ≠ decMsg P dk2 c2 ++ dkH P dk2 ∧ (G (decMsg P dk1 c1 ++ dkH P dk1)).1 = (G (decMsg P dk2 c2 ++ dkH P dk2)).1) ∨
    (J (dkZ P dk1 ++ c1) = J (dkZ P dk2 ++ c2) ∧ ¬ Accepted P N1 dk1 c1 ∧ ¬ Accepted P N2 dk2 c2) ∨
    (G (decMsg P dk1 c1 ++ dkH P dk1)).1 = J (dkZ P dk2 ++ c2) ∨ (G (decMsg P dk2 c2 ++ dkH P dk2)).1 = J (dkZ P dk1 ++ c1) := by
  rcases decaps_cases h1 with ⟨a1, e1⟩ | ⟨a1, e1⟩ <;> rcases decaps_cases h2 with ⟨a2, e2⟩ | ⟨a2, e2⟩ <;> rw [e1] at e2
  · by_cases e : decMsg P dk1 c1 ++ dkH P dk1 = decMsg P dk2 c2 ++ dkH P dk2
    · exact Or.inl ⟨e, a1, a2⟩
    · exact Or.inr (Or.inl ⟨e, e2⟩)
  · exact Or.inr (Or.inr (Or.inr (Or.inl e2)))
  · exact Or.inr (Or.inr (Or.inr (Or.inr e2.symm)))
  · exact Or.inr (Or.inr (Or.inl ⟨e2, a1, a2⟩))

/-! ## Counting -/

/-- The byte string with the given values. -/
def bstr {n : Nat} (b : Fin n → Fin 256) : List UInt8 := List.ofFn fun i => UInt8.ofNat (b i).val

theorem bstr_length {n : Nat} (b : Fin n → Fin 256) : (bstr b).length = n := List.length_ofFn

theorem bstr_inj {n : Nat} {b b' : Fin n → Fin 256} (h : bstr b = bstr b') : b = b' := by
  funext i
  have := congrFun (List.ofFn_inj.1 h) i
  have h2 := congrArg UInt8.toNat this
  rw [UInt8.toNat_ofNat', UInt8.toNat_ofNat', Nat.mod_eq_of_lt (b i).isLt, Nat.mod_eq_of_lt (b' i).isLt] at h2
  exact Fin.ext h2

theorem bstr_surj {n : Nat} {l : List UInt8} (h : l.length = n) : ∃ b : Fin n → Fin 256, bstr b = l := by
  refine ⟨fun i => ⟨(l[i.val]'(by omega)).toNat, UInt8.toNat_lt _⟩, List.ext_getElem (by rw [bstr_length, h]) fun i h1 h2 => ?_⟩
  exact (List.getElem_ofFn _).trans UInt8.ofNat_toNat

theorem accepted_count (dk : List UInt8) (n : Nat) : Set.ncard {b : Fin n → Fin 256 | Accepted P N dk (bstr b)} ≤ 2 ^ 256 := by
  have hf : ∀ b : Fin n → Fin 256, ∃ m : Fin 32 → Fin 256, bstr m = decMsg P dk (bstr b) := fun b => bstr_surj (decrypt_length P _ _)
  choose f hf using hf
  have h := Set.ncard_le_ncard_of_injOn (s := {b : Fin n → Fin 256 | Accepted P N dk (bstr b)}) (t := Set.univ) f (fun _ _ => Set.mem_univ _) (fun b hb b' hb' e => by
    refine bstr_inj (accepted_inj hb hb' ?_)
    rw [← hf, ← hf, e])
  rw [Set.ncard_univ, Nat.card_eq_fintype_card, Fintype.card_fun, Fintype.card_fin, Fintype.card_fin] at h
  exact h

theorem exists_rejected (N1 N2 : Nat) (dk1 dk2 : List UInt8) {n : Nat} (hn : 33 ≤ n) : ∃ c : List UInt8, c.length = n ∧ ¬ Accepted P N1 dk1 c ∧ ¬ Accepted P N2 dk2 c := by
  by_contra h
  have h' : ∀ b : Fin n → Fin 256, b ∈ {b : Fin n → Fin 256 | Accepted P N1 dk1 (bstr b)} ∪ {b : Fin n → Fin 256 | Accepted P N2 dk2 (bstr b)} := fun b => by
    by_contra hb
    refine h ⟨bstr b, bstr_length b, fun a => hb (Or.inl a), fun a => hb (Or.inr a)⟩
  have h1 := (congrArg Set.ncard (Set.eq_univ_of_forall h')).symm
  rw [Set.ncard_univ, Nat.card_eq_fintype_card, Fintype.card_fun, Fintype.card_fin, Fintype.card_fin] at h1
  have h2 := Set.ncard_union_le {b : Fin n → Fin 256 | Accepted P N1 dk1 (bstr b)} {b : Fin n → Fin 256 | Accepted P N2 dk2 (bstr b)}
  have h3 := accepted_count (P := P) (N := N1) dk1 n
  have h4 := accepted_count (P := P) (N := N2) dk2 n
  have h5 : 256 ^ 33 ≤ 256 ^ n := Nat.pow_le_pow_right (by omega) hn
  have h6 : 2 ^ 256 + 2 ^ 256 < 256 ^ 33 := by decide
  omega

theorem decaps_rejected {dk c K : List UInt8} (h : Decaps_internal P N dk c = some K) (hr : ¬ Accepted P N dk c) : K = J (dkZ P dk ++ c) := by
  rcases decaps_cases h with ⟨a, _⟩ | ⟨_, e⟩
  · exact absurd a hr
  · exact e

/-- Decapsulation ends if the matrix can be sampled. -/
theorem decaps_isSome {dk : List UInt8} (h : (ExpandA P.k N (bytes (dkEk P dk) (384 * P.k) (384 * P.k + 32))).isSome) (c : List UInt8) : ∃ K, Decaps_internal P N dk c = some K := by
  obtain ⟨A, hA⟩ := Option.isSome_iff_exists.1 h
  rw [Decaps_eq, K_PKE_Encrypt_eq, hA]
  exact ⟨_, rfl⟩

theorem same_z (dk1 dk2 : List UInt8) (hz : dkZ P dk1 = dkZ P dk2) (h1 : (ExpandA P.k N (bytes (dkEk P dk1) (384 * P.k) (384 * P.k + 32))).isSome)
    (h2 : (ExpandA P.k N (bytes (dkEk P dk2) (384 * P.k) (384 * P.k + 32))).isSome) {n : Nat} (hn : 33 ≤ n) :
    ∃ c K, c.length = n ∧ Decaps_internal P N dk1 c = some K ∧ Decaps_internal P N dk2 c = some K := by
  obtain ⟨c, hc, r1, r2⟩ := exists_rejected (P := P) N N dk1 dk2 hn
  obtain ⟨K1, e1⟩ := decaps_isSome h1 c
  obtain ⟨K2, e2⟩ := decaps_isSome h2 c
  have a1 := decaps_rejected e1 r1
  have a2 := decaps_rejected e2 r2
  rw [← hz, ← a1] at a2
  exact ⟨c, K1, hc, e1, a2 ▸ e2⟩

/-- The parts of the key of KeyGen. -/
theorem keygen_parts {d z ek dk : List UInt8} (hz : z.length = 32) (h : KeyGen_internal P N d z = some (ek, dk)) :
    dk.length = 768 * P.k + 96 ∧ dkEk P dk = ek ∧ dkH P dk = H ek ∧ dkZ P dk = z ∧ (ExpandA P.k N (bytes ek (384 * P.k) (384 * P.k + 32))).isSome := by
  unfold KeyGen_internal at h
  rw [K_PKE_KeyGen_eq] at h
  cases hA : ExpandA P.k N (G (d ++ [UInt8.ofNat P.k])).1 with
  | none => rw [hA] at h; cases h
  | some A =>
    rw [hA] at h
    have hl := keyOut_length P (G (d ++ [UInt8.ofNat P.k])).1 (G (d ++ [UInt8.ofNat P.k])).2 A (G_fst_length _)
    have hρ : bytes (keyOut P (G (d ++ [UInt8.ofNat P.k])).1 (G (d ++ [UInt8.ofNat P.k])).2 A).1 (384 * P.k) (384 * P.k + 32) = (G (d ++ [UInt8.ofNat P.k])).1 :=
      bytes_append_right (concat_length fun i => byteEncode12_length _) (by rw [G_fst_length])
    rw [Option.map_some] at h
    generalize keyOut P (G (d ++ [UInt8.ofNat P.k])).1 (G (d ++ [UInt8.ofNat P.k])).2 A = ko at *
    have h' : some (ko.1, ko.2 ++ ko.1 ++ H ko.1 ++ z) = some (ek, dk) := h
    rw [Option.some.injEq, Prod.mk.injEq] at h'
    obtain ⟨rfl, rfl⟩ := h'
    have hH : (H ko.1).length = 32 := SHA3_256_length ko.1
    have hp := dk_parts hl.2 hl.1 hH hz
    refine ⟨?_, hp.2.1, hp.2.2.1, hp.2.2.2, by rw [hρ, hA]; rfl⟩
    simp only [List.length_append, hl, hH, hz]
    omega

end Verif.Proof
