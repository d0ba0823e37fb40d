import Verif.Spec.EkString
import Verif.Proof.AnonCodes

/-! # Encapsulation keys and random strings -/

set_option autoImplicit false

namespace Verif.Proof
open Finset Verif.Spec

/-- The string with the given 12-bit integers and the given seed. -/
def packInts (P : Params) (x : (Fin P.k → Fin 256 → Fin 4096) × Bytes 32) : EkString P :=
  listBytes _ ((concat P.k fun i => ByteEncode 12 fun j => if h : i < P.k then (x.1 ⟨i, h⟩ j).val else 0) ++ byteList x.2)

theorem packInts_list (P : Params) (x : (Fin P.k → Fin 256 → Fin 4096) × Bytes 32) :
    byteList (packInts P x) = (concat P.k fun i => ByteEncode 12 fun j => if h : i < P.k then (x.1 ⟨i, h⟩ j).val else 0) ++ byteList x.2 := by
  refine byteList_listBytes _ ?_
  rw [List.length_append, concat_length fun i => byteEncode_length _ _, byteList_length]

theorem packInts_bytes (P : Params) (x : (Fin P.k → Fin 256 → Fin 4096) × Bytes 32) (i : Nat) (hi : i < P.k) :
    bytes (byteList (packInts P x)) (384 * i) (384 * (i + 1)) = ByteEncode 12 fun j => (x.1 ⟨i, hi⟩ j).val := by
  rw [packInts_list, bytes_concat (w := 384) (fun i => byteEncode_length 12 _) _ hi]
  simp only [dif_pos hi]

theorem packInts_decode (P : Params) (x : (Fin P.k → Fin 256 → Fin 4096) × Bytes 32) (i : Fin P.k) (j : Fin 256) :
    ByteDecode 12 (bytes (byteList (packInts P x)) (384 * i.val) (384 * (i.val + 1))) j = (x.1 i j).val := by
  rw [packInts_bytes P x i.val i.isLt, byteDecode_byteEncode 12 _ fun j => (x.1 i j).isLt]

theorem packInts_injective (P : Params) : Function.Injective (packInts P) := fun x y h => by
  refine Prod.ext (funext fun i => funext fun j => Fin.ext ?_) ?_
  · rw [← packInts_decode P x i j, h, packInts_decode]
  · have e : ∀ z, bytes (byteList (packInts P z)) (384 * P.k) (384 * P.k + 32) = byteList z.2 := fun z => by
      rw [packInts_list]
      exact bytes_append_right (concat_length (w := 384) fun i => byteEncode_length 12 _) (by rw [byteList_length])
    rw [← listBytes_byteList x.2, ← e x, h, e, listBytes_byteList]

theorem packInts_bijective (P : Params) : Function.Bijective (packInts P) := by
  rw [Fintype.bijective_iff_injective_and_card]
  refine ⟨packInts_injective P, ?_⟩
  simp only [Fintype.card_prod, Fintype.card_fun, Fintype.card_fin]
  rw [show (4096 : Nat) = 2 ^ 12 from rfl, show (256 : Nat) ^ 32 = 2 ^ (8 * 32) from by norm_num, ← pow_mul, ← pow_mul, ← pow_add]
  rw [show (2 : Nat) ^ (12 * (256 * P.k) + 8 * 32) = (2 ^ 8) ^ (384 * P.k + 32) from by rw [← pow_mul]; congr 1; ring]
  rfl

theorem zq_cast_val (n : Nat) : ((n : Zq)).val = n % 3329 := ZMod.val_natCast _ _

theorem encode_eq_iff (F : Fin 256 → Nat) (hF : ∀ j, F j < 4096) : ByteEncode12 (ByteDecode12 (ByteEncode 12 F)) = ByteEncode 12 F ↔ ∀ j, F j < 3329 := by
  have e : ByteEncode12 (ByteDecode12 (ByteEncode 12 F)) = ByteEncode 12 fun j => F j % 3329 := by
    unfold ByteEncode12 ByteDecode12
    rw [byteDecode_byteEncode 12 F hF]
    simp only [zq_cast_val]
  rw [e]
  constructor
  · intro h j
    have h2 := congrArg (ByteDecode 12) h
    rw [byteDecode_byteEncode 12 F hF, byteDecode_byteEncode 12 _ fun j => lt_of_le_of_lt (Nat.mod_le _ _) (hF j)] at h2
    have := congrFun h2 j
    omega
  · intro h
    congr 1
    funext j
    exact Nat.mod_eq_of_lt (h j)

theorem concat_inj {k w : Nat} {f g : Nat → List UInt8} (hf : ∀ i, (f i).length = w) (hg : ∀ i, (g i).length = w) (h : concat k f = concat k g) : ∀ i < k, f i = g i := fun i hi => by
  have e := bytes_concat hf [] hi
  rw [h, bytes_concat hg [] hi] at e
  exact e.symm

theorem check_packInts (P : Params) (x : (Fin P.k → Fin 256 → Fin 4096) × Bytes 32) : modulusCheck P (byteList (packInts P x)) ↔ ∀ i j, (x.1 i j).val < 3329 := by
  unfold modulusCheck
  have hl : bytes (byteList (packInts P x)) 0 (384 * P.k) = concat P.k fun i => ByteEncode 12 fun j => if h : i < P.k then (x.1 ⟨i, h⟩ j).val else 0 := by
    rw [packInts_list]
    exact bytes_append_left (concat_length (w := 384) fun i => byteEncode_length 12 _)
  rw [hl]
  constructor
  · intro h i
    have h2 := concat_inj (w := 384) (fun i => byteEncode12_length _) (fun i => byteEncode_length 12 _) h i.val i.isLt
    rw [packInts_bytes P x i.val i.isLt] at h2
    simp only [dif_pos i.isLt] at h2
    exact (encode_eq_iff _ fun j => (x.1 i j).isLt).1 h2
  · intro h
    refine concat_congr fun i hi => ?_
    rw [packInts_bytes P x i hi]
    simp only [dif_pos hi]
    exact (encode_eq_iff _ fun j => (x.1 ⟨i, hi⟩ j).isLt).2 (h ⟨i, hi⟩)

/-- An element of Z_q as a 12-bit integer. -/
def zqInt (a : Zq) : Fin 4096 := ⟨a.val, lt_trans zq_val_lt (by norm_num)⟩

theorem packInts_ekOf (P : Params) (t : Fin P.k → Rq) (ρ : Bytes 32) : byteList (packInts P (fun i j => zqInt (t i j), ρ)) = ekOf P t ρ := by
  rw [packInts_list]
  unfold ekOf pkeEk ByteEncode12
  refine congrArg (· ++ byteList ρ) (concat_congr fun i hi => ?_)
  simp only [dif_pos hi]
  rfl

/-- The integers below q among the 12-bit integers. -/
theorem sum_below {ι : Type} [Fintype ι] [DecidableEq ι] (F : (ι → Fin 4096) → ℚ) :
    (∑ x : ι → Fin 4096, ind (∀ i, (x i).val < 3329) * F x) = ∑ y : ι → Zq, F fun i => zqInt (y i) := by
  have hinj : Function.Injective fun (y : ι → Zq) i => zqInt (y i) := fun y z h => funext fun i => by
    have := congrArg Fin.val (congrFun h i)
    exact ZMod.val_injective 3329 this
  rw [← Finset.sum_image (s := Finset.univ) (g := fun (y : ι → Zq) i => zqInt (y i)) (f := F) fun a _ b _ h => hinj h]
  rw [← Finset.sum_filter_add_sum_filter_not Finset.univ (fun x : ι → Fin 4096 => x ∈ Finset.image (fun (y : ι → Zq) i => zqInt (y i)) Finset.univ)]
  have m : ∀ x : ι → Fin 4096, x ∈ Finset.image (fun (y : ι → Zq) i => zqInt (y i)) Finset.univ ↔ ∀ i, (x i).val < 3329 := fun x => by
    rw [Finset.mem_image]
    constructor
    · rintro ⟨y, -, rfl⟩ i
      exact zq_val_lt
    · intro h
      refine ⟨fun i => ((x i).val : Zq), Finset.mem_univ _, funext fun i => Fin.ext ?_⟩
      show (((x i).val : Zq)).val = _
      rw [zq_cast_val, Nat.mod_eq_of_lt (h i)]
  have z : (∑ x ∈ Finset.univ.filter (fun x : ι → Fin 4096 => ¬ x ∈ Finset.image (fun (y : ι → Zq) i => zqInt (y i)) Finset.univ), ind (∀ i, (x i).val < 3329) * F x) = 0 := by
    refine Finset.sum_eq_zero fun x hx => ?_
    have := (Finset.mem_filter.1 hx).2
    rw [m] at this
    unfold ind
    rw [if_neg this, zero_mul]
  rw [z, add_zero, Finset.filter_mem_eq_inter, Finset.univ_inter]
  refine Finset.sum_congr rfl fun x hx => ?_
  have := (m x).1 hx
  unfold ind
  rw [if_pos this, one_mul]

theorem E_below {ι : Type} [Fintype ι] [DecidableEq ι] (F : (ι → Fin 4096) → ℚ) :
    E (fun x : ι → Fin 4096 => ind (∀ i, (x i).val < 3329) * F x) = (3329 / 4096) ^ Fintype.card ι * E fun y : ι → Zq => F fun i => zqInt (y i) := by
  unfold E
  rw [sum_below, Fintype.card_fun, Fintype.card_fun, Fintype.card_fin, ZMod.card]
  push_cast
  rw [div_pow]
  have : (3329 : ℚ) ^ Fintype.card ι ≠ 0 := by positivity
  field_simp

/-- A string that passes the check is an encapsulation key of a uniform vector and a uniform seed. -/
theorem E_check (P : Params) (D : List UInt8 → ℚ) :
    E (fun c : EkString P => ind (modulusCheck P (byteList c)) * D (byteList c)) =
      (3329 / 4096) ^ (256 * P.k) * E fun x : (Fin P.k → Rq) × Bytes 32 => D (ekOf P x.1 x.2) := by
  rw [← E_equiv (Equiv.ofBijective _ (packInts_bijective P))]
  have e : ∀ x, ind (modulusCheck P (byteList (Equiv.ofBijective _ (packInts_bijective P) x))) * D (byteList (Equiv.ofBijective _ (packInts_bijective P) x)) =
      ind (∀ i j, (x.1 i j).val < 3329) * D (byteList (packInts P x)) := fun x => by
    rw [Equiv.ofBijective_apply]
    exact congrArg (ind · * _) (propext (check_packInts P x))
  rw [funext e, E_prod, E_prod]
  rw [← E_equiv (Equiv.curry (Fin P.k) (Fin 256) (Fin 4096))]
  have e2 : ∀ y : Fin P.k × Fin 256 → Fin 4096, (E fun ρ : Bytes 32 => ind (∀ i j, (Equiv.curry (Fin P.k) (Fin 256) (Fin 4096) y i j).val < 3329) *
      D (byteList (packInts P (Equiv.curry (Fin P.k) (Fin 256) (Fin 4096) y, ρ)))) =
      ind (∀ i, (y i).val < 3329) * E fun ρ : Bytes 32 => D (byteList (packInts P (fun i j => y (i, j), ρ))) := fun y => by
    rw [E_mul]
    have : (∀ i j, (Equiv.curry (Fin P.k) (Fin 256) (Fin 4096) y i j).val < 3329) ↔ ∀ i, (y i).val < 3329 := ⟨fun h i => h i.1 i.2, fun h i j => h (i, j)⟩
    exact congrArg (ind · * _) (propext this)
  rw [funext e2, E_below (ι := Fin P.k × Fin 256) fun y => E fun ρ : Bytes 32 => D (byteList (packInts P (fun i j => y (i, j), ρ)))]
  rw [Fintype.card_prod, Fintype.card_fin, Fintype.card_fin, mul_comm P.k]
  congr 1
  rw [← E_equiv (Equiv.curry (Fin P.k) (Fin 256) Zq)]
  refine congrArg E (funext fun y => congrArg E (funext fun ρ => ?_))
  rw [← packInts_ekOf]
  rfl

/-- NTT of the entries of a vector as a bijection. -/
def vecNtt (k : Nat) : (Fin k → Rq) ≃ (Fin k → Rq) := ⟨fun t i => NTT (t i), fun t i => NTTInv (t i), fun t => funext fun i => nttInv_ntt (t i), fun t => funext fun i => ntt_nttInv (t i)⟩

/-- The keys. -/
theorem ek_seed {P : Params} (mat : Bytes 32 → Fin P.k → Fin P.k → Rq) (D : List UInt8 → ℚ) :
    (E fun x => D (ekFrom P mat x)) - (E fun x : (Fin P.k → Rq) × Bytes 32 => D (ekOf P x.1 x.2)) = distAdv (prfKey P) (noiseTest P mat D) + seedAdv mat (vectorTest D) := by
  have h1 : (E fun x => D (ekFrom P mat x)) = E fun σ => noiseTest P mat D (prfKey P σ) := by
    rw [E_prod, E_comm]
    rfl
  have h2 : E (noiseTest P mat D) = seedReal mat (vectorTest D) := by
    unfold noiseTest seedReal
    rw [E_comm, ← E_prod fun x : Bytes 32 × KeyNoise P => D (((seedPke P mat).ek (x.1, x.2)).2 ++ byteList x.1)]
    refine congrArg E (funext fun x => ?_)
    rw [seed_ek]
    rfl
  have h3 : seedUniform (vectorTest (P := P) D) = E fun x : (Fin P.k → Rq) × Bytes 32 => D (ekOf P x.1 x.2) := by
    unfold seedUniform vectorTest
    rw [E_prod (α := Bytes 32) (β := Fin P.k → Rq), E_prod (α := Fin P.k → Rq) (β := Bytes 32), E_comm (α := Fin P.k → Rq) (β := Bytes 32)]
    refine congrArg E (funext fun ρ => ?_)
    exact (E_equiv (vecNtt P.k) fun t => D (ekOf P t ρ))
  unfold distAdv seedAdv
  rw [h1, h2, h3]
  ring

end Verif.Proof
