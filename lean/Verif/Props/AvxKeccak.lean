import Verif.Avx.GatherOob
import Verif.Props.Keccak

/-! # Properties of avx2/keccak4x (C43) and avx2/fips202x4.c (C44) -/

set_option autoImplicit false

namespace Verif.Props
open Verif.Model Verif.Spec Verif.Proof

attribute [local irreducible] Avx.PermuteAll_24rounds Avx.shake256x4 KeccakF1600_StatePermute

/-! ## C43: the four-way permutation -/

/-- Four states of 25 words, interleaved in 25 vectors. -/
def wordMem4 (w : Fin 4 → Fin 25 → UInt64) : Mem Avx.V4 := Array.ofFn fun i => some fun j => w j i

theorem projM_wordMem4 (w : Fin 4 → Fin 25 → UInt64) (j : Fin 4) : Avx.projM j (wordMem4 w) = wordMem (w j) := by
  apply Array.ext_getElem?
  intro i
  unfold Avx.projM wordMem4 wordMem
  by_cases hi : i < 25 <;> simp [hi]

/-- C43. `KeccakP1600times4_PermuteAll_24rounds` is Keccak-p[1600, 24] on each of the four interleaved states, for all states. -/
theorem C43_permutation4 (w : Fin 4 → Fin 25 → UInt64) :
    Runs (Avx.PermuteAll_24rounds (wordMem4 w)) (fun s => ∃ w', s = wordMem4 w' ∧ ∀ j, wordBits (w' j) = keccakP (wordBits (w j))) := by
  have h : Avx.StR4 (wordMem4 w) (fun j => toKState (wordBits (w j))) := fun j => by rw [projM_wordMem4]; exact stR_wordMem (w j)
  unfold keccakP
  generalize wordMem4 w = s at h ⊢
  generalize hA : (fun j => toKState (wordBits (w j))) = A at h
  have hA' : ∀ j, toKState (wordBits (w j)) = A j := fun j => congrFun hA j
  refine (Avx.PermuteAll_runs h).mono fun s' hs => ?_
  have hw : ∀ j, ∃ w', Avx.projM j s' = wordMem w' ∧ toKState (wordBits w') = keccakRounds (A j) := fun j => stR_words (hs j)
  choose w' h1 h2 using hw
  refine ⟨w', ?_, fun j => ?_⟩
  · have hsz : s'.size = 25 := by
      have := congrArg Array.size (h1 0)
      simpa [Avx.projM, wordMem] using this
    apply Array.ext_getElem?
    intro i
    by_cases hi : i < 25
    · have hp : ∀ j, (Avx.projM j s')[i]? = some (some (w' j ⟨i, hi⟩)) := fun j => by rw [h1 j]; simp [wordMem, hi]
      have hg : s'[i]? = some s'[i] := Array.getElem?_eq_getElem (by omega)
      unfold Avx.projM at hp
      simp only [Array.getElem?_map, hg, Option.map_some, Option.some.injEq] at hp
      rw [hg]
      cases hv : s'[i] with
      | none => have := hp 0; rw [hv] at this; simp at this
      | some v =>
        rw [hv] at hp
        have : v = fun j => w' j ⟨i, hi⟩ := funext fun j => by simpa using hp j
        simp [wordMem4, hi, this]
    · rw [Array.getElem?_eq_none (by omega), Array.getElem?_eq_none (by simp [wordMem4]; omega)]
  · rw [hA']; exact wordBits_eq (h2 j)

theorem wordBits_inj {w w' : Fin 25 → UInt64} (h : wordBits w = wordBits w') : w = w' := by
  funext i
  apply UInt64.toNat_inj.1
  apply Nat.eq_of_testBit_eq
  intro z
  by_cases hz : z < 64
  · have h1 := wordBits_get w ⟨i.val % 5, by omega⟩ ⟨i.val / 5, by omega⟩ ⟨z, hz⟩
    have h2 := wordBits_get w' ⟨i.val % 5, by omega⟩ ⟨i.val / 5, by omega⟩ ⟨z, hz⟩
    rw [h, h2] at h1
    have e : (⟨5 * (i.val / 5) + i.val % 5, by omega⟩ : Fin 25) = i := Fin.ext (by dsimp only; omega)
    dsimp only at h1
    rw [e] at h1
    exact h1.symm
  · rw [Nat.testBit_lt_two_pow (lt_of_lt_of_le (w i).toNat_lt (Nat.pow_le_pow_right (by omega) (by omega))),
      Nat.testBit_lt_two_pow (lt_of_lt_of_le (w' i).toNat_lt (Nat.pow_le_pow_right (by omega) (by omega)))]

/-- C43. It does on each of the four states what `KeccakF1600_StatePermute` of the reference code does. -/
theorem C43_agrees_with_ref (w : Fin 4 → Fin 25 → UInt64) : ∃ w' : Fin 4 → Fin 25 → UInt64,
    Runs (Avx.PermuteAll_24rounds (wordMem4 w)) (· = wordMem4 w') ∧ ∀ j, Runs (KeccakF1600_StatePermute (wordMem (w j))) (· = wordMem (w' j)) := by
  have h4 := C43_permutation4 w
  have h1 := fun j => C23_permutation (w j)
  have hm : ∀ (m4 : C (Mem Avx.V4)) (m1 : Fin 4 → C (Mem UInt64)) (kp : Fin 4 → List Bool),
      Runs m4 (fun s => ∃ w', s = wordMem4 w' ∧ ∀ j, wordBits (w' j) = kp j) → (∀ j, Runs (m1 j) (fun s => ∃ w', s = wordMem w' ∧ wordBits w' = kp j)) →
      ∃ w', Runs m4 (· = wordMem4 w') ∧ ∀ j, Runs (m1 j) (· = wordMem (w' j)) := by
    intro m4 m1 kp h4 h1
    obtain ⟨s, t, hs, hq⟩ := h4.exists_ok
    obtain ⟨w', e, hw⟩ := hq
    subst e
    subst hs
    refine ⟨w', rfl, fun j => (h1 j).mono fun s' hs' => ?_⟩
    obtain ⟨w1, rfl, e⟩ := hs'
    rw [wordBits_inj (e.trans (hw j).symm)]
  exact hm _ (fun j => KeccakF1600_StatePermute (wordMem (w j))) (fun j => keccakP (wordBits (w j))) h4 h1

/-- Known answer: the zero state in all four places. -/
example : ∃ w' : Fin 4 → Fin 25 → UInt64, Runs (Avx.PermuteAll_24rounds (wordMem4 fun _ _ => 0)) (· = wordMem4 w') ∧
    ∀ j, w' j 0 = 0xF1258F7940E1DDE7 ∧ w' j 24 = 0xEAF1FF7B5CECA249 := by
  obtain ⟨w', h4, h1⟩ := C43_agrees_with_ref fun _ _ => 0
  refine ⟨w', h4, fun j => ?_⟩
  have hk : Runs (KeccakF1600_StatePermute (wordMem fun _ => 0)) (fun s => s[0]? = some (some 0xF1258F7940E1DDE7) ∧ s[24]? = some (some 0xEAF1FF7B5CECA249)) := by
    decide +kernel
  have h1 := h1 j
  generalize KeccakF1600_StatePermute (wordMem fun _ => 0) = m at hk h1
  obtain ⟨s, t, rfl, hs⟩ := hk.exists_ok
  have h1 : s = wordMem (w' j) := h1
  subst h1
  simpa [wordMem] using hs

/-- C43. A defect of the source: the constants `rho8` and `rho56` are arrays of 64-bit words, which C aligns to 8 bytes, but they are read by an instruction that
needs 32-byte alignment. Unless the linker happens to place both at a multiple of 32, the permutation is undefined, whatever the state. -/
theorem C43_alignment (rho8 rho56 : Nat) (s : Mem Avx.V4) :
    (rho8 % 32 = 0 → rho56 % 32 = 0 → Avx.PermuteAll_24rounds_at rho8 rho56 s = Avx.PermuteAll_24rounds s) ∧
    (rho8 % 32 ≠ 0 ∨ rho56 % 32 ≠ 0 → Avx.PermuteAll_24rounds_at rho8 rho56 s = .ub .align) := by
  unfold Avx.PermuteAll_24rounds_at
  refine ⟨fun h1 h2 => if_pos ⟨h1, h2⟩, fun h => if_neg fun c => ?_⟩
  rcases h with h | h
  · exact h c.1
  · exact h c.2

/-- Addresses that are multiples of 8 only. -/
example : Avx.PermuteAll_24rounds_at 0x4008 0x4028 (wordMem4 fun _ _ => 0) = .ub .align := (C43_alignment _ _ _).2 (by decide)

/-! ## C44: SHAKE on four inputs -/

/-- The number of bytes of each input read by the absorb function for an input of length `n`: `n` rounded up to a multiple of 8. -/
def readLen (n : Nat) : Nat := (n + 7) / 8 * 8

/-- C44. `shake128x4`: each output is SHAKE128 of its input, for all inputs of one common length and every output length; nothing else is written; and this whatever
the bytes are that the function reads after the end of the inputs. -/
theorem C44_shake128x4 (junk : Fin 4 → Nat → UInt8) (out x : Fin 4 → Mem UInt8) (oo outlen inlen : Nat) (M : Fin 4 → List UInt8) (hM : ∀ j, (x j).Holds 0 (M j))
    (hn : ∀ j, (M j).length = inlen) (hx : ∀ j, readLen inlen ≤ (x j).size) (ho : ∀ j, oo + outlen ≤ (out j).size) :
    Runs (Avx.shake128x4 junk out oo outlen x inlen) (fun o => ∀ j, (out j).Wrote (o j) oo (SHAKE128 (M j) outlen)) := Avx.shake128x4_runs hM hn hx ho

/-- C44. `shake256x4`. -/
theorem C44_shake256x4 (junk : Fin 4 → Nat → UInt8) (out x : Fin 4 → Mem UInt8) (oo outlen inlen : Nat) (M : Fin 4 → List UInt8) (hM : ∀ j, (x j).Holds 0 (M j))
    (hn : ∀ j, (M j).length = inlen) (hx : ∀ j, readLen inlen ≤ (x j).size) (ho : ∀ j, oo + outlen ≤ (out j).size) :
    Runs (Avx.shake256x4 junk out oo outlen x inlen) (fun o => ∀ j, (out j).Wrote (o j) oo (SHAKE256 (M j) outlen)) := Avx.shake256x4_runs hM hn hx ho

/-- A string followed by `n` bytes that are not initialised. -/
def withRoom (l : List UInt8) (n : Nat) : Mem UInt8 := (l.map some ++ List.replicate n none).toArray

theorem holds_withRoom (l : List UInt8) (n : Nat) : (withRoom l n).Holds 0 l := by
  intro i hi
  simp [withRoom, List.getElem?_append, hi]

/-- A case: four different messages of 33 bytes in buffers of 64 bytes, as in `poly_getnoise_eta1_4x`. -/
example (junk : Fin 4 → Nat → UInt8) (σ : List UInt8) (hl : σ.length = 32) :
    Runs (Avx.shake256x4 junk (fun _ => Mem.uninit UInt8 200) 0 200 (fun j => withRoom (σ ++ [UInt8.ofNat j.val]) 31) 33)
      (fun o => ∀ j : Fin 4, (Mem.uninit UInt8 200).Wrote (o j) 0 (SHAKE256 (σ ++ [UInt8.ofNat j.val]) 200)) :=
  (C44_shake256x4 junk (fun _ => Mem.uninit UInt8 200) (fun j => withRoom (σ ++ [UInt8.ofNat j.val]) 31) 0 200 33 (fun j => σ ++ [UInt8.ofNat j.val])
    (fun j => holds_withRoom _ 31) (fun j => by simp [hl]) (fun j => by simp [withRoom, hl, readLen]) (fun j => by simp)).mono fun o h => h

/-- C44. The room after the inputs is needed: with input arrays that end with the input and a length that is not a multiple of 8, the functions read outside of the
arrays, for all inputs. (The declarations in fips202x4.h do not ask for any room.) -/
theorem C44_reads_past_input (junk : Fin 4 → Nat → UInt8) (out : Fin 4 → Mem UInt8) (oo outlen : Nat) (M : Fin 4 → List UInt8) (inlen : Nat)
    (hn : ∀ j, (M j).length = inlen) (h8 : inlen % 8 ≠ 0) :
    Avx.shake128x4 junk out oo outlen (fun j => Mem.ofList (M j)) inlen = .ub .oob ∧
    Avx.shake256x4 junk out oo outlen (fun j => Mem.ofList (M j)) inlen = .ub .oob :=
  ⟨Avx.shake128x4_oob (fun j => Mem.holds_ofList (M j)) hn h8 fun j => by rw [Mem.size_ofList, hn j],
   Avx.shake256x4_oob (fun j => Mem.holds_ofList (M j)) hn h8 fun j => by rw [Mem.size_ofList, hn j]⟩

/-- The two lengths that the library uses. -/
example : (33 % 8 ≠ 0) ∧ (34 % 8 ≠ 0) := by decide

end Verif.Props
