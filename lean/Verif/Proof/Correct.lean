import Verif.Proof.Kem
import Verif.Proof.NttPoly
import Verif.Props.Encode
import Verif.Spec.Noise

/-! # Facts about the specified algorithms: the iteration bound, the decryption noise -/

namespace Verif.Proof
open Verif.Model Verif.Spec

/-! ## The iteration bound -/

theorem expandA_some {k N : Nat} {ρ : List UInt8} {A : Nat → Nat → Rq} : ExpandA k N ρ = some A ↔
    (∀ i < k, ∀ j < k, (SampleNTT N (ρ ++ [UInt8.ofNat j, UInt8.ofNat i])).isSome) ∧ A = fun i j => (SampleNTT N (ρ ++ [UInt8.ofNat j, UInt8.ofNat i])).getD 0 := by
  unfold ExpandA
  by_cases h : ∀ i < k, ∀ j < k, (SampleNTT N (ρ ++ [UInt8.ofNat j, UInt8.ofNat i])).isSome
  · rw [if_pos h]; simp only [Option.some.injEq]; exact ⟨fun e => ⟨h, e.symm⟩, fun e => e.2.symm⟩
  · rw [if_neg h]; simp only [reduceCtorEq, false_iff]; exact fun e => h e.1

theorem expandA_mono {k N N' : Nat} (hN : N ≤ N') {ρ : List UInt8} {A : Nat → Nat → Rq} (h : ExpandA k N ρ = some A) :
    ∃ A', ExpandA k N' ρ = some A' ∧ ∀ i < k, ∀ j < k, A' i j = A i j := by
  obtain ⟨hs, rfl⟩ := expandA_some.1 h
  have key : ∀ i < k, ∀ j < k, SampleNTT N' (ρ ++ [UInt8.ofNat j, UInt8.ofNat i]) = SampleNTT N (ρ ++ [UInt8.ofNat j, UInt8.ofNat i]) := fun i hi j hj => by
    obtain ⟨f, hf⟩ := Option.isSome_iff_exists.1 (hs i hi j hj)
    rw [hf]; exact sampleNTT_mono N N' hN _ f hf
  refine ⟨_, expandA_some.2 ⟨fun i hi j hj => ?_, rfl⟩, fun i hi j hj => ?_⟩
  · rw [key i hi j hj]; exact hs i hi j hj
  · dsimp only; rw [key i hi j hj]

theorem dotNTT_congr {k : Nat} {f f' g g' : Nat → Rq} (hf : ∀ i < k, f i = f' i) (hg : ∀ i < k, g i = g' i) : dotNTT k f g = dotNTT k f' g' := by
  funext i
  unfold dotNTT
  exact Finset.sum_congr rfl fun j hj => by rw [hf j (Finset.mem_range.1 hj), hg j (Finset.mem_range.1 hj)]

theorem concat_congr {k : Nat} {f g : Nat → List UInt8} (h : ∀ i < k, f i = g i) : concat k f = concat k g := by
  unfold concat
  rw [List.flatMap_def, List.flatMap_def]
  exact congrArg _ (List.map_congr_left fun i hi => h i (List.mem_range.1 hi))

theorem K_PKE_KeyGen_mono {P : Params} {N N' : Nat} (hN : N ≤ N') {d : List UInt8} {o : List UInt8 × List UInt8} (h : K_PKE_KeyGen P N d = some o) :
    K_PKE_KeyGen P N' d = some o := by
  rw [K_PKE_KeyGen_eq] at h ⊢
  obtain ⟨A, hA, rfl⟩ := Option.map_eq_some_iff.1 h
  obtain ⟨A', hA', e⟩ := expandA_mono hN hA
  rw [hA', Option.map_some]
  unfold keyOut keyT
  rw [concat_congr fun i hi => by rw [dotNTT_congr (fun j hj => e i hi j hj) fun _ _ => rfl]]

theorem K_PKE_Encrypt_mono {P : Params} {N N' : Nat} (hN : N ≤ N') {ek m r c : List UInt8} (h : K_PKE_Encrypt P N ek m r = some c) :
    K_PKE_Encrypt P N' ek m r = some c := by
  rw [K_PKE_Encrypt_eq] at h ⊢
  obtain ⟨A, hA, rfl⟩ := Option.map_eq_some_iff.1 h
  obtain ⟨A', hA', e⟩ := expandA_mono hN hA
  rw [hA', Option.map_some]
  unfold encOut
  rw [concat_congr fun i hi => by unfold encU; rw [dotNTT_congr (fun j hj => e j hj i hi) fun _ _ => rfl]]
  rfl

theorem KeyGen_internal_mono {P : Params} {N N' : Nat} (hN : N ≤ N') {d z : List UInt8} {o : List UInt8 × List UInt8} (h : KeyGen_internal P N d z = some o) :
    KeyGen_internal P N' d z = some o := by
  unfold KeyGen_internal at h ⊢
  cases hk : K_PKE_KeyGen P N d with
  | none => rw [hk] at h; simp at h
  | some o' => rw [hk] at h; rw [K_PKE_KeyGen_mono hN hk]; exact h

theorem Encaps_internal_mono {P : Params} {N N' : Nat} (hN : N ≤ N') {ek m : List UInt8} {o : List UInt8 × List UInt8} (h : Encaps_internal P N ek m = some o) :
    Encaps_internal P N' ek m = some o := by
  unfold Encaps_internal at h ⊢
  generalize G (m ++ H ek) = g at *
  obtain ⟨K, r⟩ := g
  dsimp only at h ⊢
  cases hk : K_PKE_Encrypt P N ek m r with
  | none => rw [hk] at h; simp at h
  | some o' => rw [hk] at h; rw [K_PKE_Encrypt_mono hN hk]; exact h

theorem Decaps_internal_mono {P : Params} {N N' : Nat} (hN : N ≤ N') {dk c K : List UInt8} (h : Decaps_internal P N dk c = some K) :
    Decaps_internal P N' dk c = some K := by
  unfold Decaps_internal at h ⊢
  dsimp only at h ⊢
  generalize K_PKE_Decrypt P (bytes dk 0 (384 * P.k)) c = m at *
  generalize G _ = g at *
  obtain ⟨K', r⟩ := g
  dsimp only at h ⊢
  cases hk : K_PKE_Encrypt P N (bytes dk (384 * P.k) (768 * P.k + 32)) m r with
  | none => rw [hk] at h; simp at h
  | some o' => rw [hk] at h; rw [K_PKE_Encrypt_mono hN hk]; exact h

theorem iters_unbounded (N : Nat) : N ≤ iters N := by unfold iters; omega
theorem iters_mono {a b : Nat} (h : a ≤ b) : iters a ≤ iters b := by unfold iters; omega

/-! ## Algebra in T_q -/

local infixl:70 " ⊙ " => MultiplyNTTs

theorem mulT_comm (f g : Rq) : f ⊙ g = g ⊙ f := by
  funext k; unfold MultiplyNTTs; dsimp only; split <;> ring

theorem mulT_add (f g h : Rq) : f ⊙ (g + h) = f ⊙ g + f ⊙ h := by
  funext k; simp only [MultiplyNTTs, Pi.add_apply]; split <;> ring

theorem add_mulT (f g h : Rq) : (f + g) ⊙ h = f ⊙ h + g ⊙ h := by
  rw [mulT_comm, mulT_add, mulT_comm h f, mulT_comm h g]

theorem mulT_zero (f : Rq) : f ⊙ 0 = 0 := by
  funext k; simp [MultiplyNTTs]

theorem mulT_assoc (f g h : Rq) : f ⊙ g ⊙ h = f ⊙ (g ⊙ h) := by
  funext k
  unfold MultiplyNTTs
  dsimp only
  have e1 : 2 * (k.val / 2) / 2 = k.val / 2 := by omega
  have e2 : (2 * (k.val / 2) + 1) / 2 = k.val / 2 := by omega
  have e3 : 2 * (k.val / 2) % 2 = 0 := by omega
  have e4 : ¬ (2 * (k.val / 2) + 1) % 2 = 0 := by omega
  simp only [e1, e2, e3, e4, if_true, if_false]
  split <;> ring

theorem mulT_sum {ι : Type} (s : Finset ι) (f : Rq) (g : ι → Rq) : f ⊙ (∑ i ∈ s, g i) = ∑ i ∈ s, f ⊙ g i :=
  map_sum (AddMonoidHom.mk' (fun x => f ⊙ x) (mulT_add f)) g s

theorem sum_mulT {ι : Type} (s : Finset ι) (f : Rq) (g : ι → Rq) : (∑ i ∈ s, g i) ⊙ f = ∑ i ∈ s, g i ⊙ f := by
  rw [mulT_comm, mulT_sum]; exact Finset.sum_congr rfl fun i _ => mulT_comm _ _

theorem dot_eq (k : Nat) (f g : Nat → Rq) : dotNTT k f g = ∑ j ∈ Finset.range k, f j ⊙ g j := by
  funext i; rw [Finset.sum_apply]; rfl

theorem ntt_add (f g : Rq) : NTT (f + g) = NTT f + NTT g := by
  funext i
  simp only [NTT, Pi.add_apply, add_mul, Finset.sum_add_distrib]

theorem nttInv_add (f g : Rq) : NTTInv (f + g) = NTTInv f + NTTInv g := by
  apply ntt_injective; rw [ntt_add, ntt_nttInv, ntt_nttInv, ntt_nttInv]

theorem nttInv_sub (f g : Rq) : NTTInv (f - g) = NTTInv f - NTTInv g := by
  rw [eq_sub_iff_add_eq, ← nttInv_add, sub_add_cancel]

theorem nttInv_sum {ι : Type} (s : Finset ι) (g : ι → Rq) : NTTInv (∑ i ∈ s, g i) = ∑ i ∈ s, NTTInv (g i) :=
  map_sum (AddMonoidHom.mk' NTTInv nttInv_add) g s

theorem nttInv_mul (f g : Rq) : NTTInv (NTT f ⊙ NTT g) = mulRq f g := by
  rw [← ntt_mul, nttInv_ntt]

/-- Inner product of vectors over R_q. -/
theorem nttInv_dot (k : Nat) (f g : Nat → Rq) : NTTInv (dotNTT k (fun i => NTT (f i)) fun i => NTT (g i)) = ∑ i ∈ Finset.range k, mulRq (f i) (g i) := by
  rw [dot_eq, nttInv_sum]
  exact Finset.sum_congr rfl fun i _ => nttInv_mul _ _

/-- tᵀ y - sᵀ u = eᵀ y - sᵀ w for t = A s + e and u = Aᵀ y + w. -/
theorem noise_algebra (k : Nat) (A : Nat → Nat → Rq) (s e y w : Nat → Rq) :
    NTTInv (dotNTT k (fun i => dotNTT k (A i) (fun j => NTT (s j)) + NTT (e i)) fun i => NTT (y i)) -
      NTTInv (dotNTT k (fun i => NTT (s i)) fun i => NTT (NTTInv (dotNTT k (fun j => A j i) fun j => NTT (y j)) + w i)) =
    ∑ i ∈ Finset.range k, mulRq (e i) (y i) - ∑ i ∈ Finset.range k, mulRq (s i) (w i) := by
  have h1 : dotNTT k (fun i => dotNTT k (A i) (fun j => NTT (s j)) + NTT (e i)) (fun i => NTT (y i)) =
      (∑ i ∈ Finset.range k, ∑ j ∈ Finset.range k, A i j ⊙ NTT (s j) ⊙ NTT (y i)) + dotNTT k (fun i => NTT (e i)) (fun i => NTT (y i)) := by
    rw [dot_eq, dot_eq, ← Finset.sum_add_distrib]
    refine Finset.sum_congr rfl fun i _ => ?_
    rw [add_mulT, dot_eq, sum_mulT]
  have h2 : dotNTT k (fun i => NTT (s i)) (fun i => NTT (NTTInv (dotNTT k (fun j => A j i) fun j => NTT (y j)) + w i)) =
      (∑ j ∈ Finset.range k, ∑ i ∈ Finset.range k, A i j ⊙ NTT (s j) ⊙ NTT (y i)) + dotNTT k (fun i => NTT (s i)) (fun i => NTT (w i)) := by
    rw [dot_eq, dot_eq, ← Finset.sum_add_distrib]
    refine Finset.sum_congr rfl fun j _ => ?_
    rw [ntt_add, ntt_nttInv, mulT_add, dot_eq, mulT_sum]
    have : ∀ i ∈ Finset.range k, NTT (s j) ⊙ (A i j ⊙ NTT (y i)) = A i j ⊙ NTT (s j) ⊙ NTT (y i) := fun i _ => by rw [← mulT_assoc, mulT_comm (NTT (s j)) (A i j)]
    rw [Finset.sum_congr rfl this]
  have h3 : (∑ j ∈ Finset.range k, ∑ i ∈ Finset.range k, A i j ⊙ NTT (s j) ⊙ NTT (y i)) =
      ∑ i ∈ Finset.range k, ∑ j ∈ Finset.range k, A i j ⊙ NTT (s j) ⊙ NTT (y i) := Finset.sum_comm
  rw [h1, h2, h3, nttInv_add, nttInv_add, nttInv_dot, nttInv_dot, add_sub_add_left_eq_sub]

/-! ## Decryption of an encryption -/

theorem bytes_concat {k w : Nat} {f : Nat → List UInt8} (h : ∀ i, (f i).length = w) (R : List UInt8) {i : Nat} (hi : i < k) :
    bytes (concat k f ++ R) (w * i) (w * (i + 1)) = f i := by
  rw [bytes_slice, Nat.mul_succ, Nat.add_sub_cancel_left]
  exact slice_flatMap h R hi

theorem bytes_append_left {l r : List UInt8} {n : Nat} (hn : l.length = n) : bytes (l ++ r) 0 n = l := slice_append_left l r hn

theorem bytes_append_right {l r : List UInt8} {n m : Nat} (hn : l.length = n) (hm : n + r.length = m) : bytes (l ++ r) n m = r := by
  rw [bytes_slice]; exact slice_append_right l r hn (by omega)

/-- The value that K-PKE.Decrypt decodes. -/
theorem decrypt_value (P : Params) (hu : 0 < P.du) (hu' : P.du ≤ 11) (hv : 0 < P.dv) (hv' : P.dv ≤ 11) (A : Nat → Nat → Rq) (ρ σ m r : List UInt8) :
    K_PKE_Decrypt P (keyOut P ρ σ A).2 (encOut P (keyOut P ρ σ A).1 m r A) =
      ByteEncode 1 fun i => Compress 1 (Decompress 1 (ByteDecode 1 m i) + decryptionNoise P A σ m r i) := by
  have hc1 : (concat P.k fun i => ByteEncode P.du fun j => Compress P.du (encU P A r i j)).length = 32 * P.du * P.k :=
    concat_length fun i => byteEncode_length _ _
  have ht : ∀ i < P.k, encT (keyOut P ρ σ A).1 i = publicVec P A σ i := fun i hi => by
    unfold encT keyOut
    rw [bytes_concat (fun i => byteEncode12_length _) _ hi, byteDecode12_byteEncode12]
    rfl
  have hs : ∀ i < P.k, ByteDecode12 (bytes (keyOut P ρ σ A).2 (384 * i) (384 * (i + 1))) = NTT (noise P.η₁ σ i) := fun i hi => by
    unfold keyOut
    dsimp only
    rw [← List.append_nil (concat P.k _), bytes_concat (fun i => byteEncode12_length _) _ hi, byteDecode12_byteEncode12]
    rfl
  have hU : ∀ i < P.k, (fun j => Decompress P.du (ByteDecode P.du (bytes (concat P.k fun i => ByteEncode P.du fun j => Compress P.du (encU P A r i j))
      (32 * P.du * i) (32 * P.du * (i + 1))) j)) =
      NTTInv (dotNTT P.k (fun j => A j i) fun j => NTT (noise P.η₁ r j)) + (noise P.η₂ r (P.k + i) + roundErr P.du (cipherU P A r i)) := fun i hi => by
    rw [← List.append_nil (concat P.k _), bytes_concat (fun i => byteEncode_length _ _) _ hi, byteDecode_byteEncode _ _ fun i => compress_lt _ _]
    rw [← add_assoc]
    funext j
    show _ = cipherU P A r i j + (_ - cipherU P A r i j)
    rw [add_sub_cancel]
    rfl
  have hV : (fun j => Decompress P.dv (ByteDecode P.dv (ByteEncode P.dv fun j => Compress P.dv (encV P (encT (keyOut P ρ σ A).1) m r j)) j)) =
      cipherV P (publicVec P A σ) m r + roundErr P.dv (cipherV P (publicVec P A σ) m r) := by
    rw [byteDecode_byteEncode _ _ fun i => compress_lt _ _]
    have : encV P (encT (keyOut P ρ σ A).1) m r = cipherV P (publicVec P A σ) m r := by
      unfold encV cipherV
      rw [dotNTT_congr ht fun _ _ => rfl]
    rw [this]
    funext j
    show _ = cipherV P (publicVec P A σ) m r j + (_ - cipherV P (publicVec P A σ) m r j)
    rw [add_sub_cancel]
  unfold K_PKE_Decrypt
  dsimp only
  unfold encOut
  rw [bytes_append_left hc1, bytes_append_right hc1 (by rw [byteEncode_length]; ring), hV]
  rw [dotNTT_congr hs fun i hi => congrArg NTT (hU i hi)]
  refine congrArg (ByteEncode 1) (funext fun i => congrArg (Compress 1) ?_)
  have := congrFun (noise_algebra P.k A (fun i => noise P.η₁ σ i) (fun i => noise P.η₁ σ (P.k + i)) (fun i => noise P.η₁ r i)
    fun i => noise P.η₂ r (P.k + i) + roundErr P.du (cipherU P A r i)) i
  unfold decryptionNoise
  simp only [Pi.add_apply, Pi.sub_apply] at this ⊢
  generalize hcv : roundErr P.dv (cipherV P (publicVec P A σ) m r) = cv
  unfold cipherV publicVec
  simp only [Pi.add_apply]
  linear_combination this

theorem zq_centred (x : Zq) : ∃ z : Int, (z : Zq) = x ∧ -1664 ≤ z ∧ z ≤ 1664 := by
  have hv : ((x.val : Nat) : Zq) = x := ZMod.natCast_zmod_val x
  have hlt : x.val < 3329 := zq_val_lt
  by_cases h : x.val ≤ 1664
  · exact ⟨x.val, by rw [Int.cast_natCast, hv], by omega, by omega⟩
  · exact ⟨x.val - 3329, by rw [Int.cast_sub, Int.cast_natCast, hv, show ((3329 : Int) : Zq) = 0 from rfl, sub_zero], by omega, by omega⟩

theorem decrypt_iff (m : List UInt8) (hm : m.length = 32) (f : Rq) :
    (ByteEncode 1 fun i => Compress 1 (Decompress 1 (ByteDecode 1 m i) + f i)) = m ↔ WithinThreshold m f := by
  have hlt : ∀ i, ByteDecode 1 m i < 2 := fun i => by unfold ByteDecode; exact bitsVal_lt 1 _
  have key : ∀ i, Compress 1 (Decompress 1 (ByteDecode 1 m i) + f i) = ByteDecode 1 m i ↔
      ∃ z : Int, (z : Zq) = f i ∧ -832 ≤ z ∧ z ≤ (if ByteDecode 1 m i = 1 then 831 else 832) := fun i => by
    obtain ⟨x, hz, hb⟩ := zq_centred (f i)
    obtain ⟨b, hbit⟩ : ∃ b : Bool, ByteDecode 1 m i = b.toNat := by
      have := hlt i
      rcases (by omega : ByteDecode 1 m i = 0 ∨ ByteDecode 1 m i = 1) with h | h
      · exact ⟨false, h⟩
      · exact ⟨true, h⟩
    have e1 : (ByteDecode 1 m i = 1) ↔ b = true := by rw [hbit]; cases b <;> simp
    simp only [e1]
    rw [hbit]
    constructor
    · intro h
      rw [← hz] at h
      exact ⟨_, hz, (Props.C19_bit b _ hb).1 h⟩
    · rintro ⟨z, hz', h1, h2⟩
      rw [← hz']
      exact (Props.C19_bit b z (by split at h2 <;> omega)).2 ⟨h1, h2⟩
  constructor
  · intro h i
    rw [← key]
    have := congrFun (byteDecode_byteEncode 1 (fun i => Compress 1 (Decompress 1 (ByteDecode 1 m i) + f i)) fun i => compress_lt _ _) i
    rw [h] at this
    exact this.symm
  · intro h
    rw [funext fun i => (key i).2 (h i)]
    exact byteEncode_byteDecode 1 m (by omega) (by omega)

/-! ## Decapsulation of an encapsulation -/

theorem sampleNTT_unique {N N' : Nat} {B : List UInt8} {f f' : Rq} (h : SampleNTT N B = some f) (h' : SampleNTT N' B = some f') : f = f' := by
  rcases Nat.le_total N N' with hN | hN
  · have := sampleNTT_mono N N' hN B f h
    rw [h'] at this
    exact (Option.some.inj this).symm
  · have := sampleNTT_mono N' N hN B f' h'
    rw [h] at this
    exact Option.some.inj this

theorem expandA_entries {k N N' : Nat} {ρ : List UInt8} {A A' : Nat → Nat → Rq}
    (hA : ∀ i < k, ∀ j < k, SampleNTT N (ρ ++ [UInt8.ofNat j, UInt8.ofNat i]) = some (A i j)) (h : ExpandA k N' ρ = some A') :
    ∀ i < k, ∀ j < k, A' i j = A i j := fun i hi j hj => by
  obtain ⟨hs, rfl⟩ := expandA_some.1 h
  obtain ⟨f, hf⟩ := Option.isSome_iff_exists.1 (hs i hi j hj)
  dsimp only
  rw [hf]
  exact sampleNTT_unique hf (hA i hi j hj)

theorem keyOut_congr {P : Params} {ρ σ : List UInt8} {A A' : Nat → Nat → Rq} (e : ∀ i < P.k, ∀ j < P.k, A' i j = A i j) : keyOut P ρ σ A' = keyOut P ρ σ A := by
  unfold keyOut keyT
  rw [concat_congr fun i hi => by rw [dotNTT_congr (fun j hj => e i hi j hj) fun _ _ => rfl]]

theorem encOut_congr {P : Params} {ek m r : List UInt8} {A A' : Nat → Nat → Rq} (e : ∀ i < P.k, ∀ j < P.k, A' i j = A i j) : encOut P ek m r A' = encOut P ek m r A := by
  unfold encOut
  rw [concat_congr fun i hi => by unfold encU; rw [dotNTT_congr (fun j hj => e j hj i hi) fun _ _ => rfl]]
  rfl

theorem keygen_inv {P : Params} {N : Nat} {d z ek dk : List UInt8} (h : KeyGen_internal P N d z = some (ek, dk)) :
    ∃ dkPKE, K_PKE_KeyGen P N d = some (ek, dkPKE) ∧ dk = dkPKE ++ ek ++ H ek ++ z := by
  unfold KeyGen_internal at h
  cases hk : K_PKE_KeyGen P N d with
  | none => rw [hk] at h; simp at h
  | some o =>
    rw [hk] at h
    obtain ⟨ek', dk'⟩ := o
    have h : (ek', dk' ++ ek' ++ H ek' ++ z) = (ek, dk) := Option.some.inj h
    simp only [Prod.mk.injEq] at h
    obtain ⟨rfl, rfl⟩ := h
    exact ⟨dk', rfl, rfl⟩

theorem encaps_inv {P : Params} {N : Nat} {ek m K c : List UInt8} (h : Encaps_internal P N ek m = some (K, c)) :
    K = (G (m ++ H ek)).1 ∧ K_PKE_Encrypt P N ek m (G (m ++ H ek)).2 = some c := by
  unfold Encaps_internal at h
  generalize G (m ++ H ek) = g at *
  obtain ⟨K', r⟩ := g
  dsimp only at h ⊢
  cases hk : K_PKE_Encrypt P N ek m r with
  | none => rw [hk] at h; simp at h
  | some o =>
    rw [hk] at h
    have h : (K', o) = (K, c) := Option.some.inj h
    simp only [Prod.mk.injEq] at h
    exact ⟨h.1.symm, by rw [h.2]⟩

/-- K-PKE: decryption returns the message exactly when the noise is within the threshold. -/
theorem decrypt_encrypt_iff {P : Params} (hu : 0 < P.du) (hu' : P.du ≤ 11) (hv : 0 < P.dv) (hv' : P.dv ≤ 11) {N N1 N2 : Nat} {d m r ek dk c : List UInt8}
    {A : Nat → Nat → Rq} (hA : ∀ i < P.k, ∀ j < P.k, SampleNTT N ((G (d ++ [UInt8.ofNat P.k])).1 ++ [UInt8.ofNat j, UInt8.ofNat i]) = some (A i j))
    (hm : m.length = 32) (hk : K_PKE_KeyGen P N1 d = some (ek, dk)) (hc : K_PKE_Encrypt P N2 ek m r = some c) :
    K_PKE_Decrypt P dk c = m ↔ WithinThreshold m (decryptionNoise P A (G (d ++ [UInt8.ofNat P.k])).2 m r) := by
  rw [K_PKE_KeyGen_eq] at hk
  obtain ⟨A1, hA1, hk⟩ := Option.map_eq_some_iff.1 hk
  rw [keyOut_congr (expandA_entries hA hA1)] at hk
  rw [K_PKE_Encrypt_eq] at hc
  obtain ⟨A2, hA2, hc⟩ := Option.map_eq_some_iff.1 hc
  have hρ : bytes ek (384 * P.k) (384 * P.k + 32) = (G (d ++ [UInt8.ofNat P.k])).1 := by
    have := congrArg Prod.fst hk
    dsimp only at this
    rw [← this]
    exact bytes_append_right (concat_length fun i => byteEncode12_length _) (by rw [G_fst_length])
  rw [hρ] at hA2
  rw [encOut_congr (expandA_entries hA hA2)] at hc
  have h1 := congrArg Prod.fst hk
  have h2 := congrArg Prod.snd hk
  dsimp only at h1 h2
  rw [← hc, ← h1, ← h2, decrypt_value P hu hu' hv hv', decrypt_iff m hm]

theorem bytes_mid {l x r : List UInt8} {a b : Nat} (ha : l.length = a) (hb : a + x.length = b) : bytes (l ++ (x ++ r)) a b = x := by
  subst ha; subst hb
  rw [bytes, Nat.add_sub_cancel_left, List.drop_left, List.take_left]

/-- The four parts of the decapsulation key. -/
theorem dk_parts {k : Nat} {s ek h z : List UInt8} (hs : s.length = 384 * k) (he : ek.length = 384 * k + 32) (hh : h.length = 32) (hz : z.length = 32) :
    bytes (s ++ ek ++ h ++ z) 0 (384 * k) = s ∧ bytes (s ++ ek ++ h ++ z) (384 * k) (768 * k + 32) = ek ∧
    bytes (s ++ ek ++ h ++ z) (768 * k + 32) (768 * k + 64) = h ∧ bytes (s ++ ek ++ h ++ z) (768 * k + 64) (768 * k + 96) = z := by
  refine ⟨?_, ?_, ?_, ?_⟩
  · rw [List.append_assoc, List.append_assoc]; exact bytes_append_left hs
  · rw [List.append_assoc, List.append_assoc]; exact bytes_mid hs (by omega)
  · rw [List.append_assoc (s ++ ek)]; exact bytes_mid (by rw [List.length_append]; omega) (by omega)
  · exact bytes_append_right (by simp only [List.length_append]; omega) (by omega)

theorem kem_correct {P : Params} (hu : 0 < P.du) (hu' : P.du ≤ 11) (hv : 0 < P.dv) (hv' : P.dv ≤ 11) {N N1 N2 N3 : Nat} (h23 : N2 ≤ N3) {d z m ek dk K c : List UInt8}
    {A : Nat → Nat → Rq} (hA : ∀ i < P.k, ∀ j < P.k, SampleNTT N ((G (d ++ [UInt8.ofNat P.k])).1 ++ [UInt8.ofNat j, UInt8.ofNat i]) = some (A i j))
    (hz : z.length = 32) (hm : m.length = 32) (hk : KeyGen_internal P N1 d z = some (ek, dk)) (he : Encaps_internal P N2 ek m = some (K, c))
    (hn : WithinThreshold m (decryptionNoise P A (G (d ++ [UInt8.ofNat P.k])).2 m (G (m ++ H ek)).2)) :
    Decaps_internal P N3 dk c = some K := by
  obtain ⟨s, hk', rfl⟩ := keygen_inv hk
  obtain ⟨rfl, he'⟩ := encaps_inv he
  have hdec := (decrypt_encrypt_iff hu hu' hv hv' hA hm hk' he').2 hn
  obtain ⟨l1, l2⟩ := keygen_length hk'
  obtain ⟨p1, p2, p3, p4⟩ := dk_parts l2 l1 (show (H ek).length = 32 from SHA3_256_length ek) hz
  unfold Decaps_internal
  dsimp only
  rw [p1, p2, p3, p4, hdec]
  rw [K_PKE_Encrypt_mono h23 he']
  show some (if c = c then _ else _) = _
  rw [if_pos rfl]

end Verif.Proof
