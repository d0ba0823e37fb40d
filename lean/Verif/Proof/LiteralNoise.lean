import Verif.Proof.Literal
import Verif.Proof.Correct

/-! # The algorithms of ML-KEM on literals -/

set_option autoImplicit false

namespace Verif.Proof
open Verif.Model Verif.Spec

def cbdT2 : List Nat := [0, 1, 1, 2, 3328, 0, 0, 1, 3328, 0, 0, 1, 3327, 3328, 3328, 0]

def cbdT3 : List Nat := [0, 1, 1, 2, 1, 2, 2, 3, 3328, 0, 0, 1, 0, 1, 1, 2, 3328, 0, 0, 1, 0, 1, 1, 2, 3327, 3328, 3328, 0, 3328, 0, 0, 1,
  3328, 0, 0, 1, 0, 1, 1, 2, 3327, 3328, 3328, 0, 3328, 0, 0, 1, 3327, 3328, 3328, 0, 3328, 0, 0, 1, 3326, 3327, 3327, 3328, 3327, 3328, 3328, 0]

theorem cbdT2_table : CbdTable 2 cbdT2 := by unfold CbdTable; decide +kernel
theorem cbdT3_table : CbdTable 3 cbdT3 := by unfold CbdTable; decide +kernel

/-- The padding of SHAKE256 after 33 bytes. -/
def padN33 : Nat := 0x1F + 2 ^ 823

theorem padN33_eq : padB 136 33 0x1F = nb (136 - 33) padN33 := by decide +kernel

theorem seed_nb {S n : Nat} (hS : S < 256 ^ 32) : nb 32 S ++ [UInt8.ofNat n] = nb 33 (S + 256 ^ 32 * n) := by rw [nb_single, nb_append hS]

theorem seed_lt {S n : Nat} (hS : S < 256 ^ 32) (hn : n < 256) : S + 256 ^ 32 * n < 256 ^ 33 := by
  rw [show (256 : Nat) ^ 33 = 256 ^ 32 * 256 from by rw [← Nat.pow_succ]]
  generalize (256 : Nat) ^ 32 = x at *
  have : x * n ≤ x * 255 := Nat.mul_le_mul_left _ (by omega)
  omega

theorem noise_lit3 {S n : Nat} {w w' w'' : List UInt64} {l a : List Nat} (hw : w.length = 25) (hw' : w'.length = 25) (hw'' : w''.length = 25)
    (h1 : KF (laneBytes w) = laneBytes w') (h2 : KF (laneBytes w') = laneBytes w'')
    (hS : S < 256 ^ 32) (hW : n < 256 ∧ laneNat w = (S + 256 ^ 32 * n) ^^^ (padN33 <<< (8 * 33))) (hl : allLt 64 l = true) (h256 : l.length = 256)
    (hN : packL 64 l = (laneNat w' % 256 ^ 136 + 256 ^ 136 * laneNat w'') % 64 ^ 256) (ha : l.map (fun c => cbdT3.getD c 0) = a) : noise 3 (nb 32 S) n = rqOf a := by
  unfold noise PRF
  rw [seed_nb hS, SHAKE256_eq, padded_one hw (by omega) (seed_lt hS hW.1) padN33_eq (by decide +kernel) hW.2,
    show 64 * 3 = 136 + 56 from rfl, kout_step hw' (by omega) (by omega) h1 (kout_lit hw'' (by omega) (by omega) h2)]
  exact cbd_lit cbdT3_table rfl rfl hl h256 hN ha

theorem noise_lit2 {S n : Nat} {w w' : List UInt64} {l a : List Nat} (hw : w.length = 25) (hw' : w'.length = 25)
    (h1 : KF (laneBytes w) = laneBytes w')
    (hS : S < 256 ^ 32) (hW : n < 256 ∧ laneNat w = (S + 256 ^ 32 * n) ^^^ (padN33 <<< (8 * 33))) (hl : allLt 16 l = true) (h256 : l.length = 256)
    (hN : packL 16 l = laneNat w' % 16 ^ 256) (ha : l.map (fun c => cbdT2.getD c 0) = a) : noise 2 (nb 32 S) n = rqOf a := by
  unfold noise PRF
  rw [seed_nb hS, SHAKE256_eq, padded_one hw (by omega) (seed_lt hS hW.1) padN33_eq (by decide +kernel) hW.2, kout_lit hw' (by omega) (by omega) h1]
  exact cbd_lit cbdT2_table rfl rfl hl h256 hN ha

/-! ## Vectors -/

theorem dot_start (c : Rq) (f g : Nat → Rq) : c + dotNTT 0 f g = c := by
  funext i
  simp [dotNTT]

theorem dot_step {k : Nat} {c d e a b : Rq} {f g : Nat → Rq} (h : c + dotNTT k f g = d) (hf : f k = a) (hg : g k = b) (m : d + MultiplyNTTs a b = e) :
    c + dotNTT (k + 1) f g = e := by
  rw [← m, ← h, ← hf, ← hg]
  funext i
  unfold dotNTT
  simp only [Pi.add_apply, Finset.sum_range_succ, add_assoc]

theorem concat_start (f : Nat → List UInt8) : concat 0 f = nb 0 0 := rfl

theorem concat_step {k n m X Y : Nat} {f : Nat → List UInt8} (h : concat k f = nb n X) (hf : f k = nb m Y) (hX : X < 256 ^ n) : concat (k + 1) f = nb (n + m) (X + 256 ^ n * Y) := by
  rw [← nb_append hX, ← h, ← hf]
  simp [concat, List.range_succ]

theorem nttInv_lit {g a : Rq} (h : NTT a = g) : NTTInv g = a := by rw [← h, nttInv_ntt]

theorem expand_lit {k N : Nat} {ρ : List UInt8} {A : Nat → Nat → Rq} (h : ∀ i < k, ∀ j < k, SampleNTT N (ρ ++ [UInt8.ofNat j, UInt8.ofNat i]) = some (A i j)) :
    ∃ A', ExpandA k N ρ = some A' ∧ ∀ i < k, ∀ j < k, A' i j = A i j :=
  ⟨_, expandA_some.2 ⟨fun i hi j hj => by rw [h i hi j hj]; rfl, rfl⟩, fun i hi j hj => by rw [h i hi j hj]; rfl⟩

/-- Bytes `a .. b` of a literal. -/
theorem bytes_lit {n N a b m M : Nat} (hb : b ≤ n) (hm : b - a = m) (h : N / 256 ^ a % 256 ^ m = M) : bytes (nb n N) a b = nb m M := by
  rw [nb_bytes hb, hm, ← nb_mod, h]

/-! ## The algorithms -/

theorem pke_keygen_of {P : Params} {N : Nat} {d ρ σ T S : List UInt8} {A : Nat → Nat → Rq} (hG : G (d ++ [UInt8.ofNat P.k]) = (ρ, σ)) (hA : ExpandA P.k N ρ = some A)
    (hT : concat P.k (fun i => ByteEncode12 (keyT P A σ i)) = T) (hS : concat P.k (fun i => ByteEncode12 (keyS P σ i)) = S) : K_PKE_KeyGen P N d = some (T ++ ρ, S) := by
  rw [K_PKE_KeyGen_eq, hG]
  dsimp only
  rw [hA, Option.map_some, keyOut, hT, hS]

theorem keygen_of {P : Params} {N : Nat} {d z ek s h : List UInt8} (hk : K_PKE_KeyGen P N d = some (ek, s)) (hh : H ek = h) :
    KeyGen_internal P N d z = some (ek, s ++ ek ++ h ++ z) := by
  unfold KeyGen_internal
  rw [hk, ← hh]
  rfl

theorem encrypt_of {P : Params} {N : Nat} {ek m r ρ U V : List UInt8} {A : Nat → Nat → Rq} (hρ : bytes ek (384 * P.k) (384 * P.k + 32) = ρ) (hA : ExpandA P.k N ρ = some A)
    (hU : concat P.k (fun i => ByteEncode P.du fun j => Compress P.du (encU P A r i j)) = U) (hV : (ByteEncode P.dv fun j => Compress P.dv (encV P (encT ek) m r j)) = V) :
    K_PKE_Encrypt P N ek m r = some (U ++ V) := by
  rw [K_PKE_Encrypt_eq, hρ, hA, Option.map_some, encOut, hU, hV]

theorem encaps_of {P : Params} {N : Nat} {ek m h K r c : List UInt8} (hh : H ek = h) (hg : G (m ++ h) = (K, r)) (hc : K_PKE_Encrypt P N ek m r = some c) :
    Encaps_internal P N ek m = some (K, c) := by
  unfold Encaps_internal
  rw [hh, hg]
  dsimp only
  rw [hc]
  rfl

theorem decaps_of {P : Params} {N : Nat} {dk c d e h m K r : List UInt8} (hd : bytes dk 0 (384 * P.k) = d) (he : bytes dk (384 * P.k) (768 * P.k + 32) = e)
    (hh : bytes dk (768 * P.k + 32) (768 * P.k + 64) = h) (hm : K_PKE_Decrypt P d c = m) (hg : G (m ++ h) = (K, r)) (hc : K_PKE_Encrypt P N e m r = some c) :
    Decaps_internal P N dk c = some K := by
  unfold Decaps_internal
  dsimp only
  rw [hd, he, hh, hm, hg]
  dsimp only
  rw [hc]
  exact congrArg some (if_pos rfl)

theorem reject_of {P : Params} {N : Nat} {dk c c' d e h z m K r K' : List UInt8} (hd : bytes dk 0 (384 * P.k) = d) (he : bytes dk (384 * P.k) (768 * P.k + 32) = e)
    (hh : bytes dk (768 * P.k + 32) (768 * P.k + 64) = h) (hz : bytes dk (768 * P.k + 64) (768 * P.k + 96) = z) (hm : K_PKE_Decrypt P d c = m) (hg : G (m ++ h) = (K, r))
    (hc : K_PKE_Encrypt P N e m r = some c') (hne : c ≠ c') (hj : J (z ++ c) = K') : Decaps_internal P N dk c = some K' := by
  unfold Decaps_internal
  dsimp only
  rw [hd, he, hh, hz, hm, hg, hj]
  dsimp only
  rw [hc]
  exact congrArg some (if_neg hne)

end Verif.Proof
