import Verif.Proof.EkString
import Verif.Props.SecuritySeed
import Verif.Props.AvxKem

/-! # C89: encapsulation keys and random strings

The modulus check of FIPS 203, section 7.2, which the code does not make (C31): it accepts exactly the encodings of vectors over Z_q. Every key that the code generates passes it; of all strings of
the same length the fraction (3329/4096)^(256 k) passes. So keys are told from random strings almost certainly and without effort. From a random string that passes, a key
cannot be told except by breaking PRF or Module-LWE. -/

set_option autoImplicit false

namespace Verif.Props
open Verif.Spec Verif.Proof Verif.Model Finset

/-! ## The check -/

/-- C89. A string of the right length passes the check if and only if its 12-bit integers are below q. -/
theorem C89_check (P : Params) (ek : List UInt8) (hl : ek.length = 384 * P.k + 32) :
    modulusCheck P ek ↔ ∀ i < P.k, ∀ j, ByteDecode 12 (bytes ek (384 * i) (384 * (i + 1))) j < 3329 := by
  obtain ⟨x, hx⟩ := (packInts_bijective P).2 (listBytes _ ek)
  have h : ek = byteList (packInts P x) := by rw [hx, byteList_listBytes _ hl]
  rw [h, check_packInts]
  constructor
  · intro k i hi j
    rw [packInts_decode P x ⟨i, hi⟩ j]
    exact k ⟨i, hi⟩ j
  · intro k i j
    rw [← packInts_decode P x i j]
    exact k i.val i.isLt j

/-- C89. And if and only if it is the encoding of a vector over Z_q and a seed. -/
theorem C89_encoding (P : Params) (ek : List UInt8) (hl : ek.length = 384 * P.k + 32) : modulusCheck P ek ↔ ∃ t ρ, ek = ekOf P t ρ := by
  obtain ⟨x, hx⟩ := (packInts_bijective P).2 (listBytes _ ek)
  have h : ek = byteList (packInts P x) := by rw [hx, byteList_listBytes _ hl]
  constructor
  · intro k
    rw [h, check_packInts] at k
    refine ⟨fun i j => ((x.1 i j).val : Zq), x.2, ?_⟩
    rw [← packInts_ekOf, h]
    refine congrArg byteList (congrArg (packInts P) (Prod.ext (funext fun i => funext fun j => Fin.ext ?_) rfl))
    show _ = (((x.1 i j).val : Zq)).val
    rw [zq_cast_val, Nat.mod_eq_of_lt (k i j)]
  · rintro ⟨t, ρ, rfl⟩
    rw [← packInts_ekOf, check_packInts]
    exact fun i j => zq_val_lt

/-- C89. And if and only if reduction modulo q does not change it (see C31). -/
theorem C89_reduced (P : Params) (ek : List UInt8) (hl : ek.length = 384 * P.k + 32) : modulusCheck P ek ↔ reducedKey P ek = ek := by
  have e : ek = bytes ek 0 (384 * P.k) ++ bytes ek (384 * P.k) (384 * P.k + 32) := by
    unfold bytes
    rw [List.drop_zero, Nat.sub_zero, Nat.add_sub_cancel_left, List.take_of_length_le (l := ek.drop (384 * P.k)) (by rw [List.length_drop]; omega), List.take_append_drop]
  unfold modulusCheck reducedKey
  constructor
  · intro h
    rw [h]
    exact e.symm
  · intro h
    have h2 := h.trans e
    exact (List.append_inj h2 (by rw [concat_length (w := 384) fun i => byteEncode12_length _, bytes_length (by omega) (by omega)]; omega)).1

/-- C89. The keys of the standard pass the check. -/
theorem C89_keygen (P : Params) (N : Nat) (d z ek dk : List UInt8) (h : KeyGen_internal P N d z = some (ek, dk)) : ek.length = 384 * P.k + 32 ∧ modulusCheck P ek := by
  have hk : ∃ s, K_PKE_KeyGen P N d = some (ek, s) := by
    unfold KeyGen_internal at h
    cases e : K_PKE_KeyGen P N d with
    | none => rw [e] at h; cases h
    | some x =>
      rw [e] at h
      have h2 : some (x.1, x.2 ++ x.1 ++ H x.1 ++ z) = some (ek, dk) := h
      have h3 := congrArg Prod.fst (Option.some.inj h2)
      exact ⟨x.2, congrArg some (Prod.ext h3 rfl)⟩
  obtain ⟨s, hk⟩ := hk
  rw [C75_keygen] at hk
  obtain ⟨A, -, hA⟩ := Option.map_eq_some_iff.1 hk
  have he := congrArg Prod.fst hA
  dsimp only at he
  have hl : (G (d ++ [UInt8.ofNat P.k])).1.length = 32 := by
    unfold G
    rw [List.length_take, SHA3_512_length]
    rfl
  have hlen : ek.length = 384 * P.k + 32 := by
    rw [← he, List.length_append, hl]
    unfold pkeEk
    rw [concat_length (w := 384) fun i => byteEncode12_length _]
  refine ⟨hlen, (C89_encoding P ek hlen).2 ⟨fun i => pkeT P A (fun i => noise P.η₁ (G (d ++ [UInt8.ofNat P.k])).2 i) (fun i => noise P.η₁ (G (d ++ [UInt8.ofNat P.k])).2 (P.k + i)) i.val,
    listBytes 32 (G (d ++ [UInt8.ofNat P.k])).1, ?_⟩⟩
  rw [← he]
  unfold ekOf
  rw [byteList_listBytes _ hl]
  refine congrArg (· ++ _) (pkeEk_congr fun i hi => ?_)
  rw [dif_pos hi]

/-- C89. So do the keys that the code generates, in both builds. -/
theorem C89_ref_keypair (p : ParamSet) (fuel : Nat) (pk sk coins : Mem UInt8) (d z : List UInt8) (hd : coins.Holds 0 d) (hdl : d.length = 32) (hz : coins.Holds 32 z) (hzl : z.length = 32)
    (hpk : ekLen (fips p) ≤ pk.size) (hsk : dkLen (fips p) ≤ sk.size) (v : Mem UInt8 × Mem UInt8 × Int) (t : Trace) (hr : crypto_kem_keypair_derand p fuel pk sk coins = .ok v t) :
    ∃ ek, pk.Wrote v.1 0 ek ∧ ek.length = ekLen (fips p) ∧ modulusCheck (fips p) ek := by
  obtain ⟨⟨ek, dk⟩, ho, h1, _, _⟩ := ok_of_runsO (keypair_ref p fuel pk sk coins d z hd hdl hz hzl hpk hsk) hr
  have h := C89_keygen _ _ _ _ _ _ ho
  exact ⟨ek, h1, h.1, h.2⟩

theorem C89_avx_keypair (p : ParamSet) (junk : Junk) (fuel : Nat) (pk sk coins : Mem UInt8) (d z : List UInt8) (hd : coins.Holds 0 d) (hdl : d.length = 32) (hz : coins.Holds 32 z) (hzl : z.length = 32)
    (hpk : ekLen (fips p) ≤ pk.size) (hsk : dkLen (fips p) ≤ sk.size) (v : Mem UInt8 × Mem UInt8 × Int) (t : Trace) (hr : Avx.crypto_kem_keypair_derand p junk fuel pk sk coins = .ok v t) :
    ∃ ek, pk.Wrote v.1 0 ek ∧ ek.length = ekLen (fips p) ∧ modulusCheck (fips p) ek := by
  obtain ⟨⟨ek, dk⟩, ho, h1, _, _⟩ := ok_of_runsO (keypair_avx p junk fuel pk sk coins d z hd hdl hz hzl hpk hsk) hr
  have h := C89_keygen _ _ _ _ _ _ ho
  exact ⟨ek, h1, h.1, h.2⟩

/-! ## Random strings -/

/-- C89. A random string that passes the check is the encoding of a uniform vector and a uniform seed; the fraction that passes is (3329/4096)^(256 k). -/
theorem C89_conditional (P : Params) (D : List UInt8 → ℚ) : E (fun c : EkString P => ind (modulusCheck P (byteList c)) * D (byteList c)) =
    (3329 / 4096) ^ (256 * P.k) * E fun x : (Fin P.k → Rq) × Bytes 32 => D (ekOf P x.1 x.2) := E_check P D

theorem C89_fraction (P : Params) : E (fun c : EkString P => ind (modulusCheck P (byteList c))) = (3329 / 4096) ^ (256 * P.k) := by
  have h := C89_conditional P fun _ => 1
  simp only [mul_one] at h
  rw [E_const, mul_one] at h
  exact h

/-- C89. How small that is. -/
theorem C89_rare : E (fun c : EkString ML_KEM_512 => ind (modulusCheck ML_KEM_512 (byteList c))) < 1 / 2 ^ 153 ∧
    E (fun c : EkString ML_KEM_768 => ind (modulusCheck ML_KEM_768 (byteList c))) < 1 / 2 ^ 229 ∧
    E (fun c : EkString ML_KEM_1024 => ind (modulusCheck ML_KEM_1024 (byteList c))) < 1 / 2 ^ 306 := by
  have h : ∀ a b : Nat, 3329 ^ a * 2 ^ b < 4096 ^ a → ((3329 / 4096 : ℚ)) ^ a < 1 / 2 ^ b := fun a b h => by
    rw [div_pow, div_lt_div_iff₀ (by positivity) (by positivity), one_mul]
    exact_mod_cast h
  rw [C89_fraction, C89_fraction, C89_fraction]
  exact ⟨h 512 153 (by decide +kernel), h 768 229 (by decide +kernel), h 1024 306 (by decide +kernel)⟩

/-- C89. The check tells keys from random strings: for every matrix, exactly with this advantage. -/
theorem C89_told (P : Params) (mat : Bytes 32 → Fin P.k → Fin P.k → Rq) :
    (E fun x => ind (modulusCheck P (ekFrom P mat x))) - E (fun c : EkString P => ind (modulusCheck P (byteList c))) = 1 - (3329 / 4096) ^ (256 * P.k) := by
  rw [C89_fraction]
  congr 1
  refine Eq.trans (congrArg E (funext fun x => ?_)) (E_const 1)
  refine if_pos ?_
  have e : ekFrom P mat x = ekOf P (fun i => pkeT P (matOf (mat x.1)) (cbdVec P.η₁ (prfKey P x.2).1) (cbdVec P.η₁ (prfKey P x.2).2) i.val) x.1 := by
    unfold ekFrom ekOf
    refine congrArg (· ++ byteList x.1) (pkeEk_congr fun i hi => ?_)
    rw [dif_pos hi]
  rw [e]
  refine (C89_encoding P _ ?_).2 ⟨_, _, rfl⟩
  rw [← packInts_ekOf, byteList_length]

/-! ## Pseudorandomness -/

/-- C89. A test tells the keys from the encodings of uniform vectors and seeds exactly as well as the distinguishers made from it break PRF and Module-LWE. -/
theorem C89_pseudorandom (P : Params) (mat : Bytes 32 → Fin P.k → Fin P.k → Rq) (D : List UInt8 → ℚ) :
    (E fun x => D (ekFrom P mat x)) - (E fun x : (Fin P.k → Rq) × Bytes 32 => D (ekOf P x.1 x.2)) = distAdv (prfKey P) (noiseTest P mat D) + seedAdv mat (vectorTest D) := ek_seed mat D

/-- C89. So the keys are, up to these advantages, random strings under the condition that they pass the check. -/
theorem C89_like_strings (P : Params) (mat : Bytes 32 → Fin P.k → Fin P.k → Rq) (D : List UInt8 → ℚ) :
    (E fun x => D (ekFrom P mat x)) = E (fun c : EkString P => ind (modulusCheck P (byteList c)) * D (byteList c)) / E (fun c : EkString P => ind (modulusCheck P (byteList c))) +
      (distAdv (prfKey P) (noiseTest P mat D) + seedAdv mat (vectorTest D)) := by
  rw [C89_conditional, C89_fraction, mul_div_cancel_left₀ _ (by positivity), ← C89_pseudorandom]
  ring

/-- C89. The keys of these statements are those of the standard, with the halves of G(d ‖ k) as the seeds. -/
theorem C89_standard (P : Params) (N : Nat) (d : List UInt8) (ρ σ : Bytes 32) (hG : G (d ++ [UInt8.ofNat P.k]) = (byteList ρ, byteList σ)) (hA : (ExpandA P.k N (byteList ρ)).isSome) :
    ∃ dk, K_PKE_KeyGen P N d = some (ekFrom P (expandMat P N) (ρ, σ), dk) := by
  obtain ⟨dk, h, -⟩ := C80_keygen P N d ρ σ hG hA
  exact ⟨dk, h⟩

/-! ## Cases -/

/-- A string that passes and one that does not. -/
example : modulusCheck ML_KEM_512 (List.replicate 800 0) ∧ ¬ modulusCheck ML_KEM_512 (List.replicate 800 255) := by
  rw [C89_check _ _ (by decide +kernel), C89_check _ _ (by decide +kernel)]
  refine ⟨fun i hi j => ?_, fun h => ?_⟩
  · have : bytes (List.replicate 800 (0 : UInt8)) (384 * i) (384 * (i + 1)) = List.replicate 384 0 := by
      unfold bytes
      have : i < 2 := hi
      rw [List.drop_replicate, List.take_replicate]
      congr 1
      omega
    rw [this]
    revert j
    decide +kernel
  · have := h 0 (by decide) 0
    revert this
    decide +kernel

/-- The least key that fails, 3329 as the first integer, and the greatest integer that passes. -/
example : ByteDecode 12 (0x01 :: 0x0D :: List.replicate 382 0) 0 = 3329 ∧ ByteDecode 12 (0x00 :: 0x0D :: List.replicate 382 0) 0 = 3328 := by decide +kernel

example (N : Nat) : (E fun x => ind (modulusCheck ML_KEM_768 (ekFrom ML_KEM_768 (expandMat ML_KEM_768 N) x))) - E (fun c : EkString ML_KEM_768 => ind (modulusCheck ML_KEM_768 (byteList c))) =
    1 - (3329 / 4096) ^ 768 := C89_told ML_KEM_768 _

/-- A key of the standard passes. -/
example : ∃ ek dk, KeyGen_internal ML_KEM_512 168 (List.replicate 32 0) (List.replicate 32 0) = some (ek, dk) ∧ modulusCheck ML_KEM_512 ek := by
  obtain ⟨ek, dk, h⟩ := kat_keygen (List.replicate 32 0)
  exact ⟨ek, dk, h, (C89_keygen _ _ _ _ _ _ h).2⟩

end Verif.Props
