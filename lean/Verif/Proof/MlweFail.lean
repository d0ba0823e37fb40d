import Verif.Proof.Mlwe
import Verif.Proof.Failure

/-! # K-PKE with a uniform matrix: decryption failures -/

set_option autoImplicit false

namespace Verif.Proof
open Finset Verif.Spec

theorem byteList_length {n : Nat} (b : Bytes n) : (byteList b).length = n := List.length_ofFn

theorem getD_get {l : List UInt8} {i : Nat} (h : i < l.length) : l.getD i 0 = l[i] := by
  rw [List.getD_eq_getElem?_getD, List.getElem?_eq_getElem h]
  rfl

theorem byteList_get {n : Nat} (b : Bytes n) (i : Fin n) : (byteList b).getD i.val 0 = UInt8.ofNat (b i).val := by
  rw [getD_get (by rw [byteList_length]; exact i.isLt)]
  exact List.getElem_ofFn _

theorem listBytes_byteList {n : Nat} (b : Bytes n) : listBytes n (byteList b) = b := by
  funext i
  unfold listBytes
  rw [byteList_get]
  have := (b i).isLt
  refine Fin.ext ?_
  show (UInt8.ofNat (b i).val).toNat % 256 = _
  rw [UInt8.toNat_ofNat']
  show (b i).val % 256 % 256 = (b i).val
  rw [Nat.mod_eq_of_lt this, Nat.mod_eq_of_lt this]

theorem byteList_listBytes {n : Nat} (l : List UInt8) (h : l.length = n) : byteList (listBytes n l) = l := by
  refine List.ext_getElem (by rw [byteList_length, h]) fun i h1 h2 => ?_
  rw [← getD_get h1]
  refine (byteList_get (listBytes n l) ⟨i, by omega⟩).trans ?_
  unfold listBytes
  dsimp only
  rw [getD_get h2]
  refine UInt8.toNat_inj.1 ?_
  have := l[i].toNat_lt
  rw [UInt8.toNat_ofNat']
  show l[i].toNat % 256 % 256 = _
  rw [Nat.mod_mod, Nat.mod_eq_of_lt this]

theorem pkePack_length (P : Params) (u : Nat → Rq) (v : Rq) : (pkePack P u v).length = 32 * (P.du * P.k + P.dv) := by
  unfold pkePack
  rw [List.length_append, byteEncode_length, concat_length fun i => byteEncode_length _ _]
  ring

/-- The value that K-PKE.Decrypt decodes. -/
theorem pke_decrypt_value (P : Params) (A : Nat → Nat → Rq) (m : List UInt8) (s e y e1 : Nat → Rq) (e2 : Rq) :
    K_PKE_Decrypt P (pkeDk P s) (pkePack P (pkeU P A y e1) (pkeV P (pkeDecodeT (pkeEk P (pkeT P A s e))) y e2 + pkeMu m)) =
      ByteEncode 1 fun i => Compress 1 (Decompress 1 (ByteDecode 1 m i) + noiseTerm P A m s e y e1 e2 i) := by
  have hc1 : (concat P.k fun i => ByteEncode P.du fun j => Compress P.du (pkeU P A y e1 i j)).length = 32 * P.du * P.k :=
    concat_length fun i => byteEncode_length _ _
  have hs : ∀ i < P.k, ByteDecode12 (bytes (pkeDk P s) (384 * i) (384 * (i + 1))) = NTT (s i) := fun i hi => by
    unfold pkeDk
    rw [← List.append_nil (concat P.k _), bytes_concat (fun i => byteEncode12_length _) _ hi, byteDecode12_byteEncode12]
  have hU : ∀ i < P.k, (fun j => Decompress P.du (ByteDecode P.du (bytes (concat P.k fun i => ByteEncode P.du fun j => Compress P.du (pkeU P A y e1 i j))
      (32 * P.du * i) (32 * P.du * (i + 1))) j)) =
      NTTInv (dotNTT P.k (fun j => A j i) fun j => NTT (y j)) + (e1 i + roundErr P.du (pkeU P A y e1 i)) := fun i hi => by
    rw [← List.append_nil (concat P.k _), bytes_concat (fun i => byteEncode_length _ _) _ hi, byteDecode_byteEncode _ _ fun i => compress_lt _ _]
    rw [← add_assoc]
    funext j
    show _ = pkeU P A y e1 i j + (_ - pkeU P A y e1 i j)
    rw [add_sub_cancel]
  have ht : pkeV P (pkeDecodeT (pkeEk P (pkeT P A s e))) y e2 = pkeV P (pkeT P A s e) y e2 := by
    unfold pkeV
    rw [dotNTT_congr (fun i hi => pkeDecodeT_ek P _ i hi) fun _ _ => rfl]
  have hV : (fun j => Decompress P.dv (ByteDecode P.dv (ByteEncode P.dv fun j => Compress P.dv ((pkeV P (pkeT P A s e) y e2 + pkeMu m) j)) j)) =
      (pkeV P (pkeT P A s e) y e2 + pkeMu m) + roundErr P.dv (pkeV P (pkeT P A s e) y e2 + pkeMu m) := by
    rw [byteDecode_byteEncode _ _ fun i => compress_lt _ _]
    generalize pkeV P (pkeT P A s e) y e2 + pkeMu m = v
    funext j
    show _ = v j + (_ - v j)
    rw [add_sub_cancel]
  rw [ht]
  unfold K_PKE_Decrypt
  dsimp only
  unfold pkePack
  rw [bytes_append_left hc1, bytes_append_right hc1 (by rw [byteEncode_length]; ring), hV]
  rw [dotNTT_congr hs fun i hi => congrArg NTT (hU i hi)]
  refine congrArg (ByteEncode 1) (funext fun i => congrArg (Compress 1) ?_)
  have := congrFun (noise_algebra P.k A s e y fun i => e1 i + roundErr P.du (pkeU P A y e1 i)) i
  have hn : noiseTerm P A m s e y e1 e2 = ∑ i ∈ range P.k, mulRq (e i) (y i) + e2 + roundErr P.dv (pkeV P (pkeT P A s e) y e2 + pkeMu m) -
    ∑ i ∈ range P.k, mulRq (s i) (e1 i + roundErr P.du (pkeU P A y e1 i)) := rfl
  rw [hn]
  simp only [Pi.add_apply, Pi.sub_apply] at this ⊢
  generalize hcv : roundErr P.dv (pkeV P (pkeT P A s e) y e2 + pkeMu m) = cv
  have hm : pkeMu m i = Decompress 1 (ByteDecode 1 m i) := rfl
  have hv : pkeV P (pkeT P A s e) y e2 i = NTTInv (dotNTT P.k (fun i => dotNTT P.k (A i) (fun j => NTT (s j)) + NTT (e i)) fun i => NTT (y i)) i + e2 i := rfl
  rw [hm, hv]
  linear_combination this

/-- The byte strings of a key pair and of an encryption. -/
def splitNoise (P : Params) : PkeKey P × PkeCoins P ≃ (Fin P.k → Fin P.k → Rq) × NoiseBytes P where
  toFun x := (x.1.1, ⟨x.1.2.1, x.1.2.2, x.2.1, x.2.2.1, x.2.2.2⟩)
  invFun x := ((x.1, x.2.s, x.2.e), x.2.y, x.2.e1, x.2.e2)
  left_inv _ := rfl
  right_inv _ := rfl

theorem mlPke_dec (P : Params) (x : PkeKey P × PkeCoins P) (m : Bytes 32) :
    (mlPke P).dec x.1 ((mlPke P).enc ((mlPke P).ek x.1) m x.2) ≠ m → ¬ WithinThreshold (byteList m) (noiseOf P (matOf (splitNoise P x).1) (byteList m) (splitNoise P x).2) := by
  intro h hw
  refine h ?_
  have hd := pke_decrypt_value P (matOf x.1.1) (byteList m) (cbdVec P.η₁ x.1.2.1) (cbdVec P.η₁ x.1.2.2) (cbdVec P.η₁ x.2.1) (cbdVec P.η₂ x.2.2.1) (SamplePolyCBD P.η₂ (byteList x.2.2.2))
  have hd := hd.trans ((decrypt_iff (byteList m) (byteList_length m) _).2 hw)
  show listBytes 32 (K_PKE_Decrypt P (pkeDk P (cbdVec P.η₁ x.1.2.1)) (byteList (listBytes _ _))) = m
  rw [byteList_listBytes _ (pkePack_length _ _ _)]
  exact (congrArg (listBytes 32) hd).trans (listBytes_byteList m)

/-- From a count of the failures to their probability. -/
theorem failProb_le (P : Params) (B : Nat)
    (h : Set.ncard {x : (Fin P.k → Fin P.k → Rq) × NoiseBytes P | ∃ m, ¬ WithinThreshold m (noiseOf P (matOf x.1) m x.2)} * 2 ^ B ≤ Nat.card ((Fin P.k → Fin P.k → Rq) × NoiseBytes P)) :
    failProb (mlPke P) ≤ 1 / 2 ^ B := by
  classical
  unfold failProb
  have h1 : E (fun x : PkeKey P × PkeCoins P => ind (∃ m, (mlPke P).dec x.1 ((mlPke P).enc ((mlPke P).ek x.1) m x.2) ≠ m)) ≤
      E fun x : (Fin P.k → Fin P.k → Rq) × NoiseBytes P => ind (∃ m, ¬ WithinThreshold m (noiseOf P (matOf x.1) m x.2)) := by
    rw [← E_equiv (splitNoise P)]
    exact E_mono fun x => ind_mono fun ⟨m, hm⟩ => ⟨byteList m, mlPke_dec P x m hm⟩
  refine h1.trans ?_
  have hc : ∀ S : Set ((Fin P.k → Fin P.k → Rq) × NoiseBytes P), ∑ x, ind (x ∈ S) = ((S.ncard : Nat) : ℚ) := fun S => by
    unfold ind
    rw [Finset.sum_boole, Set.ncard_eq_toFinset_card' S]
    congr 2
    ext x
    simp
  unfold E
  rw [Nat.card_eq_fintype_card] at h
  have hcs := hc {x | ∃ m, ¬ WithinThreshold m (noiseOf P (matOf x.1) m x.2)}
  refine (congrArg (· / _) hcs).trans_le ?_
  have : Nonempty (NoiseBytes P) := ⟨⟨fun _ _ => 0, fun _ _ => 0, fun _ _ => 0, fun _ _ => 0, fun _ => 0⟩⟩
  have hpos : (0 : ℚ) < Fintype.card ((Fin P.k → Fin P.k → Rq) × NoiseBytes P) := Nat.cast_pos.2 Fintype.card_pos
  rw [div_le_div_iff₀ hpos (by positivity), one_mul]
  exact_mod_cast h

end Verif.Proof
