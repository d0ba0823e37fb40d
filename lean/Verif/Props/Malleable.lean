import Verif.Props.Pke
import Verif.Proof.KatKem2

/-! # C93: what K-PKE does not protect against

Flipping a bit of a ciphertext, and using the same coins for two messages. ML-KEM excludes both: it compares the ciphertext with the encryption of the message, and derives the coins from the message. The
theorems say that these measures are needed: the encryption scheme inside gives way to both, for every key and every message. -/

set_option autoImplicit false

namespace Verif.Props
open Verif.Model Verif.Spec Verif.Proof

/-- The polynomial w that K-PKE.Decrypt (algorithm 15, line 6) compresses to the message. -/
def decValue (P : Params) (dk c : List UInt8) : Rq :=
  let c1 := bytes c 0 (32 * P.du * P.k)
  let c2 := bytes c (32 * P.du * P.k) (32 * (P.du * P.k + P.dv))
  let u : Nat → Rq := fun i j => Decompress P.du (ByteDecode P.du (bytes c1 (32 * P.du * i) (32 * P.du * (i + 1))) j)
  let v : Rq := fun j => Decompress P.dv (ByteDecode P.dv c2 j)
  let s' := fun i => ByteDecode12 (bytes dk (384 * i) (384 * (i + 1)))
  v - NTTInv (dotNTT P.k s' fun i => NTT (u i))

theorem decrypt_decValue (P : Params) (dk c : List UInt8) : K_PKE_Decrypt P dk c = ByteEncode 1 fun i => Compress 1 (decValue P dk c i) := rfl

theorem decrypt_bit (P : Params) (dk c : List UInt8) (j : Fin 256) : ByteDecode 1 (K_PKE_Decrypt P dk c) j = Compress 1 (decValue P dk c j) := by
  rw [decrypt_decValue, byteDecode_byteEncode _ _ fun _ => compress_lt _ _]

/-! ## Bits of a part of a string -/

theorem bytesToBits_bytes (c : List UInt8) (a b k : Nat) (hk : k < 8 * (b - a)) : BytesToBits (bytes c a b) k = BytesToBits c (8 * a + k) := by
  have h1 : (8 * a + k) / 8 = a + k / 8 := by omega
  have h2 : (8 * a + k) % 8 = k % 8 := by omega
  have h3 : (bytes c a b).getD (k / 8) 0 = c.getD (a + k / 8) 0 := by
    unfold bytes
    rw [List.getD_eq_getElem?_getD, List.getD_eq_getElem?_getD, List.getElem?_take_of_lt (by omega), List.getElem?_drop]
  unfold BytesToBits
  rw [h1, h2, h3]

theorem bitsVal_congr {n : Nat} {b b' : Nat → Bool} (h : ∀ j < n, b j = b' j) : bitsVal n b = bitsVal n b' := by
  unfold bitsVal
  exact Finset.sum_congr rfl fun j hj => by rw [h j (Finset.mem_range.1 hj)]

theorem bitsVal_flip {n : Nat} {b b' : Nat → Bool} (h : ∀ j < n + 1, b' j = (b j ^^ decide (j = n))) : bitsVal (n + 1) b' = (bitsVal (n + 1) b + 2 ^ n) % 2 ^ (n + 1) := by
  have e : bitsVal n b' = bitsVal n b := bitsVal_congr fun j hj => by rw [h j (by omega), decide_eq_false (by omega), Bool.xor_false]
  have hl := bitsVal_lt n b
  have hn := h n (by omega)
  have s : ∀ b : Nat → Bool, bitsVal (n + 1) b = bitsVal n b + (b n).toNat * 2 ^ n := fun b => Finset.sum_range_succ _ _
  rw [s, s, e, hn]
  simp only [decide_true, Bool.xor_true]
  rw [pow_succ]
  generalize 2 ^ n = N at *
  cases b n
  · simp only [Bool.not_false, Bool.toNat_true, Bool.toNat_false]
    rw [Nat.mod_eq_of_lt (by omega)]
    omega
  · simp only [Bool.not_true, Bool.toNat_true, Bool.toNat_false]
    rw [show bitsVal n b + 1 * N + N = bitsVal n b + N * 2 by omega, Nat.add_mod_right, Nat.mod_eq_of_lt (by omega)]
    omega

theorem bitsVal_flip' {d : Nat} (hd : 0 < d) {b b' : Nat → Bool} (h : ∀ j < d, b' j = (b j ^^ decide (j = d - 1))) : bitsVal d b' = (bitsVal d b + 2 ^ (d - 1)) % 2 ^ d := by
  obtain ⟨n, rfl⟩ : ∃ n, d = n + 1 := ⟨d - 1, by omega⟩
  exact bitsVal_flip h

/-! ## Flipping a bit -/

/-- The place, in a ciphertext, of the highest bit of coefficient `n` of v. -/
def topBit (P : Params) (n : Fin 256) : Nat := 256 * P.du * P.k + n.val * P.dv + (P.dv - 1)

/-- `c'` is `c` with bit `b` flipped. -/
def Flipped (c c' : List UInt8) (b : Nat) : Prop := c'.length = c.length ∧ ∀ j, BytesToBits c' j = (BytesToBits c j ^^ decide (j = b))

theorem decompress_half (p : ParamSet) (y : Nat) (hy : y < 2 ^ (fips p).dv) :
    Decompress (fips p).dv ((y + 2 ^ ((fips p).dv - 1)) % 2 ^ (fips p).dv) = Decompress (fips p).dv y + 1664 ∨
    Decompress (fips p).dv ((y + 2 ^ ((fips p).dv - 1)) % 2 ^ (fips p).dv) = Decompress (fips p).dv y + 1665 := by
  have hv : ∀ y, Decompress (fips p).dv y = (((3329 * y + 2 ^ ((fips p).dv - 1)) / 2 ^ ((fips p).dv - 1 + 1) : Nat) : Zq) := fun y => by cases p <;> exact decompress_nat _ y
  rw [hv, hv]
  clear hv
  revert y
  cases p <;> decide +kernel

theorem flip_value (p : ParamSet) (dk c c' : List UInt8) (n : Fin 256) (h : ∀ j, BytesToBits c' j = (BytesToBits c j ^^ decide (j = topBit (fips p) n))) :
    (∀ j, j ≠ n → decValue (fips p) dk c' j = decValue (fips p) dk c j) ∧
      (decValue (fips p) dk c' n = decValue (fips p) dk c n + 1664 ∨ decValue (fips p) dk c' n = decValue (fips p) dk c n + 1665) := by
  have hd : 0 < (fips p).dv := by cases p <;> decide
  have half := decompress_half p
  generalize fips p = P at *
  have hU : ∀ i < P.k, (fun j => Decompress P.du (ByteDecode P.du (bytes (bytes c' 0 (32 * P.du * P.k)) (32 * P.du * i) (32 * P.du * (i + 1))) j)) =
      fun j => Decompress P.du (ByteDecode P.du (bytes (bytes c 0 (32 * P.du * P.k)) (32 * P.du * i) (32 * P.du * (i + 1))) j) := fun i hi => by
    funext j
    congr 1
    unfold ByteDecode
    refine bitsVal_congr fun t ht => ?_
    have hj : j.val * P.du + P.du ≤ 256 * P.du := by
      calc j.val * P.du + P.du = (j.val + 1) * P.du := by ring
        _ ≤ 256 * P.du := Nat.mul_le_mul_right _ j.isLt
    have hik : 32 * P.du * (i + 1) ≤ 32 * P.du * P.k := Nat.mul_le_mul_left _ hi
    have hm : 32 * P.du * (i + 1) = 32 * P.du * i + 32 * P.du := Nat.mul_succ _ _
    have h256 : 8 * (32 * P.du) = 256 * P.du := by ring
    have hK : 256 * P.du * P.k = 8 * (32 * P.du * P.k) := by ring
    have b1 : j.val * P.du + t < 8 * (32 * P.du * (i + 1) - 32 * P.du * i) := by omega
    have b2 : 8 * (32 * P.du * i) + (j.val * P.du + t) < 8 * (32 * P.du * P.k - 0) := by omega
    rw [bytesToBits_bytes _ _ _ _ b1, bytesToBits_bytes _ _ _ _ b2, bytesToBits_bytes _ _ _ _ b1, bytesToBits_bytes _ _ _ _ b2, h,
      decide_eq_false (by unfold topBit; omega), Bool.xor_false]
  have hV : ∀ j t : Nat, j < 256 → t < P.dv → ∀ c : List UInt8, BytesToBits (bytes c (32 * P.du * P.k) (32 * (P.du * P.k + P.dv))) (j * P.dv + t) =
      BytesToBits c (256 * P.du * P.k + j * P.dv + t) := fun j t hj ht c => by
    have h1 : j * P.dv + P.dv ≤ 256 * P.dv := by
      calc j * P.dv + P.dv = (j + 1) * P.dv := by ring
        _ ≤ 256 * P.dv := Nat.mul_le_mul_right _ hj
    have h2 : 32 * (P.du * P.k + P.dv) = 32 * P.du * P.k + 32 * P.dv := by ring
    have h3 : 8 * (32 * P.du * P.k) = 256 * P.du * P.k := by ring
    rw [bytesToBits_bytes _ _ _ _ (by omega), h3, Nat.add_assoc]
  have hdot : ∀ j, decValue P dk c' j - decValue P dk c j = Decompress P.dv (ByteDecode P.dv (bytes c' (32 * P.du * P.k) (32 * (P.du * P.k + P.dv))) j) -
      Decompress P.dv (ByteDecode P.dv (bytes c (32 * P.du * P.k) (32 * (P.du * P.k + P.dv))) j) := fun j => by
    unfold decValue
    dsimp only
    rw [dotNTT_congr (fun _ _ => rfl) fun i hi => congrArg NTT (hU i hi)]
    simp only [Pi.sub_apply]
    ring
  constructor
  · intro j hj
    have e : ByteDecode P.dv (bytes c' (32 * P.du * P.k) (32 * (P.du * P.k + P.dv))) j = ByteDecode P.dv (bytes c (32 * P.du * P.k) (32 * (P.du * P.k + P.dv))) j := by
      unfold ByteDecode
      refine bitsVal_congr fun t ht => ?_
      rw [hV _ _ j.isLt ht, hV _ _ j.isLt ht, h, decide_eq_false, Bool.xor_false]
      unfold topBit
      intro e
      have e : j.val * P.dv + t = n.val * P.dv + (P.dv - 1) := by omega
      have e1 : (j.val * P.dv + t) / P.dv = j.val := by rw [Nat.mul_comm, Nat.mul_add_div hd, Nat.div_eq_of_lt ht]; omega
      have e2 : (n.val * P.dv + (P.dv - 1)) / P.dv = n.val := by rw [Nat.mul_comm, Nat.mul_add_div hd, Nat.div_eq_of_lt (by omega)]; omega
      exact hj (Fin.ext (by rw [← e1, e, e2]))
    have := hdot j
    rw [e, sub_self] at this
    exact sub_eq_zero.1 this
  · have e : ByteDecode P.dv (bytes c' (32 * P.du * P.k) (32 * (P.du * P.k + P.dv))) n =
        (ByteDecode P.dv (bytes c (32 * P.du * P.k) (32 * (P.du * P.k + P.dv))) n + 2 ^ (P.dv - 1)) % 2 ^ P.dv := by
      unfold ByteDecode
      have : ∀ t < P.dv, BytesToBits (bytes c' (32 * P.du * P.k) (32 * (P.du * P.k + P.dv))) (n.val * P.dv + t) =
          (BytesToBits (bytes c (32 * P.du * P.k) (32 * (P.du * P.k + P.dv))) (n.val * P.dv + t) ^^ decide (t = P.dv - 1)) := fun t ht => by
        rw [hV _ _ n.isLt ht, hV _ _ n.isLt ht, h]
        congr 1
        unfold topBit
        exact decide_eq_decide.2 ⟨fun e => by omega, fun e => by omega⟩
      exact bitsVal_flip' hd this
    have := hdot n
    rw [e] at this
    rcases half _ (byteDecode_lt P.dv (bytes c (32 * P.du * P.k) (32 * (P.du * P.k + P.dv))) n) with h | h
    · left
      rw [h] at this
      linear_combination this
    · right
      rw [h] at this
      linear_combination this

theorem compress1_half (w : Zq) (h1 : w ≠ 832) (h2 : w ≠ -832) : Compress 1 (w + 1664) = 1 - Compress 1 w ∧ Compress 1 (w + 1665) = 1 - Compress 1 w := by
  rw [compress1, compress1, compress1]
  revert w
  decide +kernel

theorem compress1_lt (w : Zq) : Compress 1 w < 2 := compress_lt 1 w

/-- C93. Flipping the highest bit of coefficient `n` of v in a ciphertext flips bit `n` of the message that K-PKE.Decrypt gives and no other, for every secret key and every ciphertext, unless the value that is
rounded to this bit is one of two of the 3329. -/
theorem C93_flip (p : ParamSet) (dk c c' : List UInt8) (n : Fin 256) (h : Flipped c c' (topBit (fips p) n)) (hw : decValue (fips p) dk c n ≠ 832 ∧ decValue (fips p) dk c n ≠ -832) (j : Fin 256) :
    ByteDecode 1 (K_PKE_Decrypt (fips p) dk c') j = if j = n then 1 - ByteDecode 1 (K_PKE_Decrypt (fips p) dk c) j else ByteDecode 1 (K_PKE_Decrypt (fips p) dk c) j := by
  obtain ⟨h1, h2⟩ := flip_value p dk c c' n h.2
  rw [decrypt_bit, decrypt_bit]
  by_cases e : j = n
  · subst e
    rw [if_pos rfl]
    rcases h2 with h2 | h2
    · rw [h2, (compress1_half _ hw.1 hw.2).1]
    · rw [h2, (compress1_half _ hw.1 hw.2).2]
  · rw [if_neg e, h1 j e]

/-- What is rounded when an encryption is decrypted. -/
theorem decValue_encrypt (P : Params) (A : Nat → Nat → Rq) (ρ σ m r : List UInt8) (i : Fin 256) :
    decValue P (keyOut P ρ σ A).2 (encOut P (keyOut P ρ σ A).1 m r A) i = Decompress 1 (ByteDecode 1 m i) + decryptionNoise P A σ m r i := by
  have hc1 : (concat P.k fun i => ByteEncode P.du fun j => Compress P.du (encU P A r i j)).length = 32 * P.du * P.k :=
    concat_length fun i => byteEncode_length _ _
  have ht : ∀ i < P.k, encT (keyOut P ρ σ A).1 i = publicVec P A σ i := fun i hi => by
    unfold encT keyOut
    rw [bytes_concat (fun i => byteEncode12_length _) _ hi, byteDecode12_byteEncode12]
    rfl
  have hs : ∀ i < P.k, ByteDecode12 (bytes (keyOut P ρ σ A).2 (384 * i) (384 * (i + 1))) = NTT (noise P.η₁ σ i) := fun i hi => by
    unfold keyOut
    dsimp only
    rw [← List.append_nil (concat P.k _), bytes_concat (fun i => byteEncode12_length _) _ hi, byteDecode12_byteEncode12]
    rfl
  have hU : ∀ i < P.k, (fun j => Decompress P.du (ByteDecode P.du (bytes (concat P.k fun i => ByteEncode P.du fun j => Compress P.du (encU P A r i j))
      (32 * P.du * i) (32 * P.du * (i + 1))) j)) =
      NTTInv (dotNTT P.k (fun j => A j i) fun j => NTT (noise P.η₁ r j)) + (noise P.η₂ r (P.k + i) + roundErr P.du (cipherU P A r i)) := fun i hi => by
    rw [← List.append_nil (concat P.k _), bytes_concat (fun i => byteEncode_length _ _) _ hi, byteDecode_byteEncode _ _ fun i => compress_lt _ _]
    rw [← add_assoc]
    funext j
    show _ = cipherU P A r i j + (_ - cipherU P A r i j)
    rw [add_sub_cancel]
    rfl
  have hV : (fun j => Decompress P.dv (ByteDecode P.dv (ByteEncode P.dv fun j => Compress P.dv (encV P (encT (keyOut P ρ σ A).1) m r j)) j)) =
      cipherV P (publicVec P A σ) m r + roundErr P.dv (cipherV P (publicVec P A σ) m r) := by
    rw [byteDecode_byteEncode _ _ fun i => compress_lt _ _]
    have : encV P (encT (keyOut P ρ σ A).1) m r = cipherV P (publicVec P A σ) m r := by
      unfold encV cipherV
      rw [dotNTT_congr ht fun _ _ => rfl]
    rw [this]
    funext j
    show _ = cipherV P (publicVec P A σ) m r j + (_ - cipherV P (publicVec P A σ) m r j)
    rw [add_sub_cancel]
  unfold decValue
  dsimp only
  unfold encOut
  rw [bytes_append_left hc1, bytes_append_right hc1 (by rw [byteEncode_length]; ring), hV]
  rw [dotNTT_congr hs fun i hi => congrArg NTT (hU i hi)]
  have := congrFun (noise_algebra P.k A (fun i => noise P.η₁ σ i) (fun i => noise P.η₁ σ (P.k + i)) (fun i => noise P.η₁ r i)
    fun i => noise P.η₂ r (P.k + i) + roundErr P.du (cipherU P A r i)) i
  unfold decryptionNoise
  simp only [Pi.add_apply, Pi.sub_apply] at this ⊢
  generalize hcv : roundErr P.dv (cipherV P (publicVec P A σ) m r) = cv
  unfold cipherV publicVec
  simp only [Pi.add_apply]
  linear_combination this

theorem encrypt_value {P : Params} {N N1 N2 : Nat} {d m r ek dk c : List UInt8} {A : Nat → Nat → Rq}
    (hA : ∀ i < P.k, ∀ j < P.k, SampleNTT N ((G (d ++ [UInt8.ofNat P.k])).1 ++ [UInt8.ofNat j, UInt8.ofNat i]) = some (A i j))
    (hk : K_PKE_KeyGen P N1 d = some (ek, dk)) (hc : K_PKE_Encrypt P N2 ek m r = some c) (i : Fin 256) :
    decValue P dk c i = Decompress 1 (ByteDecode 1 m i) + decryptionNoise P A (G (d ++ [UInt8.ofNat P.k])).2 m r i := by
  rw [K_PKE_KeyGen_eq] at hk
  obtain ⟨A1, hA1, hk⟩ := Option.map_eq_some_iff.1 hk
  rw [keyOut_congr (expandA_entries hA hA1)] at hk
  rw [K_PKE_Encrypt_eq] at hc
  obtain ⟨A2, hA2, hc⟩ := Option.map_eq_some_iff.1 hc
  have hρ : bytes ek (384 * P.k) (384 * P.k + 32) = (G (d ++ [UInt8.ofNat P.k])).1 := by
    have := congrArg Prod.fst hk
    dsimp only at this
    rw [← this]
    exact bytes_append_right (concat_length fun i => byteEncode12_length _) (by rw [G_fst_length])
  rw [hρ] at hA2
  rw [encOut_congr (expandA_entries hA hA2)] at hc
  have h1 := congrArg Prod.fst hk
  have h2 := congrArg Prod.snd hk
  dsimp only at h1 h2
  rw [← hc, ← h1, ← h2]
  exact decValue_encrypt P A _ _ m r i

/-- C93. So whoever sees the encryption of a message can turn it, without any key, into a ciphertext that decrypts to the message with one bit flipped, at a place of their choice: for every key pair, every
message and all coins, if the message is decrypted correctly and the noise is not exactly 832 or -832. -/
theorem C93_malleable (p : ParamSet) (N N1 N2 : Nat) (d m r ek dk c c' : List UInt8) (A : Nat → Nat → Rq) (n : Fin 256)
    (hA : ∀ i < (fips p).k, ∀ j < (fips p).k, SampleNTT N ((G (d ++ [UInt8.ofNat (fips p).k])).1 ++ [UInt8.ofNat j, UInt8.ofNat i]) = some (A i j))
    (hk : K_PKE_KeyGen (fips p) N1 d = some (ek, dk)) (hc : K_PKE_Encrypt (fips p) N2 ek m r = some c) (hm : K_PKE_Decrypt (fips p) dk c = m)
    (hn : decryptionNoise (fips p) A (G (d ++ [UInt8.ofNat (fips p).k])).2 m r n ≠ 832 ∧ decryptionNoise (fips p) A (G (d ++ [UInt8.ofNat (fips p).k])).2 m r n ≠ -832)
    (h : Flipped c c' (topBit (fips p) n)) : K_PKE_Decrypt (fips p) dk c' = ByteEncode 1 fun j => if j = n then 1 - ByteDecode 1 m j else ByteDecode 1 m j := by
  have hv := encrypt_value hA hk hc n
  have hb : ByteDecode 1 m n = Compress 1 (decValue (fips p) dk c n) := by rw [← decrypt_bit, hm]
  have e0 : Decompress 1 0 = 0 := by unfold Decompress; simp
  have hw : decValue (fips p) dk c n ≠ 832 ∧ decValue (fips p) dk c n ≠ -832 := by
    constructor
    · intro e
      rw [hb, e, compress1, if_neg (by decide), e0, zero_add] at hv
      exact hn.1 hv.symm
    · intro e
      rw [hb, e, compress1, if_neg (by decide), e0, zero_add] at hv
      exact hn.2 hv.symm
  rw [← byteEncode_byteDecode 1 (K_PKE_Decrypt (fips p) dk c') (by rw [decrypt_decValue, byteEncode_length]) (by decide)]
  refine congrArg _ (funext fun j => ?_)
  rw [C93_flip p dk c c' n h hw j, hm]

/-! ## The same coins twice -/

/-- The compressed coefficients of v in a ciphertext. -/
def codeV (P : Params) (c : List UInt8) : Fin 256 → Nat := ByteDecode P.dv (bytes c (32 * P.du * P.k) (32 * (P.du * P.k + P.dv)))

/-- The message in `c'` from the message in `c`: the bits differ where the compressed coefficients differ. -/
def otherMsg (P : Params) (m c c' : List UInt8) : List UInt8 := ByteEncode 1 fun j => if codeV P c j = codeV P c' j then ByteDecode 1 m j else 1 - ByteDecode 1 m j

theorem compress_half (p : ParamSet) (x : Zq) : Compress (fips p).dv (x + 1665) ≠ Compress (fips p).dv x := by
  rw [compress_nat, compress_nat]
  revert x
  cases p <;> decide +kernel

theorem codeV_enc (P : Params) (ek m r : List UInt8) (A : Nat → Nat → Rq) (j : Fin 256) : codeV P (encOut P ek m r A) j = Compress P.dv (encV P (encT ek) m r j) := by
  have hc1 : (concat P.k fun i => ByteEncode P.du fun j => Compress P.du (encU P A r i j)).length = 32 * P.du * P.k :=
    concat_length fun i => byteEncode_length _ _
  unfold codeV encOut
  rw [bytes_append_right hc1 (by rw [byteEncode_length]; ring), byteDecode_byteEncode _ _ fun i => compress_lt _ _]

/-- C93. Two encryptions with the same key and the same coins agree in u, and whoever knows one message knows the other: for every key string, all messages and all coins. -/
theorem C93_reuse (p : ParamSet) (N N' : Nat) (ek m m' r c c' : List UInt8) (hm' : m'.length = 32) (h : K_PKE_Encrypt (fips p) N ek m r = some c)
    (h' : K_PKE_Encrypt (fips p) N' ek m' r = some c') : bytes c 0 (32 * (fips p).du * (fips p).k) = bytes c' 0 (32 * (fips p).du * (fips p).k) ∧ m' = otherMsg (fips p) m c c' := by
  have half := compress_half p
  generalize fips p = P at *
  have g := K_PKE_Encrypt_mono (Nat.le_max_left N N') h
  have g' := K_PKE_Encrypt_mono (Nat.le_max_right N N') h'
  rw [K_PKE_Encrypt_eq] at g g'
  obtain ⟨A, hA, e⟩ := Option.map_eq_some_iff.1 g
  obtain ⟨A', hA', e'⟩ := Option.map_eq_some_iff.1 g'
  obtain rfl : A = A' := Option.some.inj (hA.symm.trans hA')
  have hc1 : (concat P.k fun i => ByteEncode P.du fun j => Compress P.du (encU P A r i j)).length = 32 * P.du * P.k :=
    concat_length fun i => byteEncode_length _ _
  constructor
  · rw [← e, ← e']
    unfold encOut
    rw [bytes_append_left hc1, bytes_append_left hc1]
  · rw [← byteEncode_byteDecode 1 m' (by rw [hm']) (by decide)]
    unfold otherMsg
    refine congrArg _ (funext fun j => ?_)
    rw [← e, ← e', codeV_enc, codeV_enc]
    obtain ⟨x, hx⟩ : ∃ x : Zq, ∀ m, encV P (encT ek) m r j = x + Decompress 1 (ByteDecode 1 m j) := ⟨_, fun m => rfl⟩
    rw [hx, hx]
    have l := byteDecode_lt 1 m j
    have l' := byteDecode_lt 1 m' j
    generalize ByteDecode 1 m j = b at *
    generalize ByteDecode 1 m' j = b' at *
    have e0 : Decompress 1 0 = 0 := by unfold Decompress; simp
    have e1 : Decompress 1 1 = 1665 := by rw [decompress_nat (d := 0)]; rfl
    rcases (by omega : b = 0 ∨ b = 1) with rfl | rfl <;> rcases (by omega : b' = 0 ∨ b' = 1) with rfl | rfl
    · rw [if_pos rfl]
    · rw [e0, e1, add_zero, if_neg fun e => half x e.symm]
    · rw [e0, e1, add_zero, if_neg (half x)]
    · rw [if_pos rfl]

/-! ## The code -/

/-- C93. The same for `indcpa_dec` of both builds. -/
theorem C93_code_flip (p : ParamSet) (m cm cm' sk : Mem UInt8) (mo : Nat) (c c' dk : List UInt8) (n : Fin 256) (hc : cm.Holds 0 c) (hc' : cm'.Holds 0 c') (hl : c.length = ctLen (fips p))
    (h : Flipped c c' (topBit (fips p) n)) (hsk : sk.Holds 0 dk) (hdk : dk.length = 384 * (fips p).k) (hm : mo + 32 ≤ m.size)
    (hw : decValue (fips p) dk c n ≠ 832 ∧ decValue (fips p) dk c n ≠ -832) :
    ∃ M M' : List UInt8, M.length = 32 ∧ M'.length = 32 ∧ (∀ j, ByteDecode 1 M' j = if j = n then 1 - ByteDecode 1 M j else ByteDecode 1 M j) ∧
      Runs (indcpa_dec p m mo cm sk) (fun s => m.Wrote s mo M) ∧ Runs (indcpa_dec p m mo cm' sk) (fun s => m.Wrote s mo M') ∧
      Runs (Avx.indcpa_dec p m mo cm sk) (fun s => m.Wrote s mo M) ∧ Runs (Avx.indcpa_dec p m mo cm' sk) (fun s => m.Wrote s mo M') := by
  have hl' : c'.length = ctLen (fips p) := h.1.trans hl
  exact ⟨_, _, decrypt_length _ _ _, decrypt_length _ _ _, C93_flip p dk c c' n h hw, C58_dec p m cm sk mo c dk hc hl hsk hdk hm, C58_dec p m cm' sk mo c' dk hc' hl' hsk hdk hm,
    C58_dec_avx p m cm sk mo c dk hc hl hsk hdk hm, C58_dec_avx p m cm' sk mo c' dk hc' hl' hsk hdk hm⟩

/-- C93. Two calls of `indcpa_enc` of the reference build with the same public key and the same coins: the second message is a function of the first message and the two ciphertexts. -/
theorem C93_ref_reuse (p : ParamSet) (f f' : Nat) (c c' m m' pk pk' co co' : Mem UInt8) (mo mo' po po' ro ro' : Nat) (ek M M' r : List UInt8) (hm : m.Holds mo M) (hml : M.length = 32)
    (hm' : m'.Holds mo' M') (hml' : M'.length = 32) (hpk : pk.Holds po ek) (hpk' : pk'.Holds po' ek) (hpkl : ek.length = 384 * (fips p).k + 32) (hr : co.Holds ro r) (hr' : co'.Holds ro' r)
    (hrl : r.length = 32) (hc : ctLen (fips p) ≤ c.size) (hc' : ctLen (fips p) ≤ c'.size) (v v' : Mem UInt8) (t t' : Trace) (h : indcpa_enc p f c m mo pk po co ro = .ok v t)
    (h' : indcpa_enc p f' c' m' mo' pk' po' co' ro' = .ok v' t') : ∃ ct ct', c.Wrote v 0 ct ∧ c'.Wrote v' 0 ct' ∧ M' = otherMsg (fips p) M ct ct' := by
  obtain ⟨ct, g, w⟩ := ok_of_runsO (pke_enc_ref p f c m pk co mo po ro ek M r hm hml hpk hpkl hr hrl hc) h
  obtain ⟨ct', g', w'⟩ := ok_of_runsO (pke_enc_ref p f' c' m' pk' co' mo' po' ro' ek M' r hm' hml' hpk' hpkl hr' hrl hc') h'
  exact ⟨ct, ct', w, w', (C93_reuse p _ _ ek M M' r ct ct' hml' g g').2⟩

/-- C93. The same for the AVX2 build. -/
theorem C93_avx_reuse (p : ParamSet) (junk junk' : Junk) (f f' : Nat) (c c' m m' pk pk' co co' : Mem UInt8) (mo mo' po po' ro ro' : Nat) (ek M M' r : List UInt8) (hm : m.Holds mo M) (hml : M.length = 32)
    (hm' : m'.Holds mo' M') (hml' : M'.length = 32) (hpk : pk.Holds po ek) (hpk' : pk'.Holds po' ek) (hpkl : ek.length = 384 * (fips p).k + 32) (hr : co.Holds ro r) (hr' : co'.Holds ro' r)
    (hrl : r.length = 32) (hc : ctLen (fips p) ≤ c.size) (hc' : ctLen (fips p) ≤ c'.size) (v v' : Mem UInt8) (t t' : Trace) (h : Avx.indcpa_enc p junk f c m mo pk po co ro = .ok v t)
    (h' : Avx.indcpa_enc p junk' f' c' m' mo' pk' po' co' ro' = .ok v' t') : ∃ ct ct', c.Wrote v 0 ct ∧ c'.Wrote v' 0 ct' ∧ M' = otherMsg (fips p) M ct ct' := by
  obtain ⟨ct, g, w⟩ := ok_of_runsO (pke_enc_avx p junk f c m pk co mo po ro ek M r hm hml hpk hpkl hr hrl hc) h
  obtain ⟨ct', g', w'⟩ := ok_of_runsO (pke_enc_avx p junk' f' c' m' pk' co' mo' po' ro' ek M' r hm' hml' hpk' hpkl hr' hrl hc') h'
  exact ⟨ct, ct', w, w', (C93_reuse p _ _ ek M M' r ct ct' hml' g g').2⟩

/-- A case: two messages encrypted with the same coins to a key for which the sampling ends. -/
example (M M' r : List UInt8) (hM : M'.length = 32) : ∃ ct ct', K_PKE_Encrypt ML_KEM_512 168 (List.replicate 768 0 ++ katRho) M r = some ct ∧
    K_PKE_Encrypt ML_KEM_512 168 (List.replicate 768 0 ++ katRho) M' r = some ct' ∧ M' = otherMsg ML_KEM_512 M ct ct' := by
  obtain ⟨ct, h⟩ := kat_encrypt (ek := List.replicate 768 0 ++ katRho) (by decide +kernel) M r
  obtain ⟨ct', h'⟩ := kat_encrypt (ek := List.replicate 768 0 ++ katRho) (by decide +kernel) M' r
  exact ⟨ct, ct', h, h', (C93_reuse .k2 _ _ _ M M' r ct ct' hM h h').2⟩

theorem getD_zeros (n i : Nat) : (List.replicate n (0 : UInt8)).getD i 0 = 0 := by
  rw [List.getD_eq_getElem?_getD, List.getElem?_replicate]
  split <;> rfl

theorem bits_zeros (n j : Nat) : BytesToBits (List.replicate n (0 : UInt8)) j = false := by
  unfold BytesToBits
  rw [getD_zeros]
  simp

theorem bytes_zeros (n a b : Nat) : ∃ n', bytes (List.replicate n (0 : UInt8)) a b = List.replicate n' 0 := by
  unfold bytes
  rw [List.drop_replicate, List.take_replicate]
  exact ⟨_, rfl⟩

theorem byteDecode_zeros (d n : Nat) (j : Fin 256) : ByteDecode d (List.replicate n (0 : UInt8)) j = 0 := by
  unfold ByteDecode bitsVal
  exact Finset.sum_eq_zero fun t _ => by dsimp only; rw [bits_zeros]; simp

theorem decValue_zeros (P : Params) (n n' : Nat) : decValue P (List.replicate n 0) (List.replicate n' 0) = 0 := by
  have hd : ∀ d, Decompress d 0 = 0 := fun d => by unfold Decompress; simp
  unfold decValue
  dsimp only
  have hs : ∀ i < P.k, ByteDecode12 (bytes (List.replicate n 0) (384 * i) (384 * (i + 1))) = 0 := fun i _ => by
    obtain ⟨x, e⟩ := bytes_zeros n (384 * i) (384 * (i + 1))
    rw [e]
    funext j
    unfold ByteDecode12
    rw [byteDecode_zeros]
    rfl
  rw [dotNTT_congr hs fun _ _ => rfl, show (dotNTT P.k (fun _ => 0) fun i => NTT fun j => Decompress P.du (ByteDecode P.du (bytes (bytes (List.replicate n' 0) 0 (32 * P.du * P.k))
    (32 * P.du * i) (32 * P.du * (i + 1))) j)) = 0 from by
      rw [dot_eq]
      exact Finset.sum_eq_zero fun i _ => by rw [mulT_comm, mulT_zero]]
  obtain ⟨x, e⟩ := bytes_zeros n' (32 * P.du * P.k) (32 * (P.du * P.k + P.dv))
  rw [e]
  funext j
  have hz : NTTInv 0 = 0 := by
    have := nttInv_sub 0 0
    rwa [sub_self, sub_self] at this
  rw [hz, sub_zero, byteDecode_zeros, hd]
  rfl

theorem flip_bits (a b j : Nat) : BytesToBits (List.replicate a 0 ++ (8 :: List.replicate b 0)) j = decide (j = 8 * a + 3) := by
  unfold BytesToBits
  by_cases h : j / 8 = a
  · have e : (List.replicate a (0 : UInt8) ++ (8 :: List.replicate b 0)).getD (j / 8) 0 = 8 := by
      rw [h, List.getD_eq_getElem?_getD, List.getElem?_append_right (by rw [List.length_replicate]), List.length_replicate, Nat.sub_self]
      rfl
    rw [e]
    obtain ⟨t, ht, rfl⟩ : ∃ t, t < 8 ∧ j = 8 * a + t := ⟨j % 8, Nat.mod_lt _ (by decide), by omega⟩
    have e1 : (8 * a + t) % 8 = t := by omega
    have e2 : decide (8 * a + t = 8 * a + 3) = decide (t = 3) := decide_eq_decide.2 (by omega)
    rw [e1, e2]
    clear e1 e2 e h
    revert t
    decide
  · have e : (List.replicate a (0 : UInt8) ++ (8 :: List.replicate b 0)).getD (j / 8) 0 = 0 := by
      rw [List.getD_eq_getElem?_getD]
      rcases Nat.lt_or_gt_of_ne h with h | h
      · rw [List.getElem?_append_left (by rw [List.length_replicate]; exact h), ← List.getD_eq_getElem?_getD, getD_zeros]
      · rw [List.getElem?_append_right (by rw [List.length_replicate]; omega), List.length_replicate, List.getElem?_cons, if_neg (by omega), ← List.getD_eq_getElem?_getD, getD_zeros]
    rw [e, decide_eq_false (by omega)]
    simp

/-- The ciphertext of zeros and the one with a 1 as highest bit of coefficient 6 of v (bit 5147, in byte 643). -/
theorem flip_case : Flipped (List.replicate 768 0) (List.replicate 643 0 ++ (8 :: List.replicate 124 0)) (topBit ML_KEM_512 6) := by
  constructor
  · rw [List.length_append, List.length_cons, List.length_replicate, List.length_replicate, List.length_replicate]
  · intro j
    rw [flip_bits, bits_zeros, Bool.false_xor]
    exact decide_eq_decide.2 Iff.rfl

/-- A case of flipping: with the secret key of zeros the ciphertext of zeros has a message without bit 6, the other ciphertext one with bit 6 and the same other bits. -/
example (j : Fin 256) : ByteDecode 1 (K_PKE_Decrypt ML_KEM_512 (List.replicate 768 0) (List.replicate 768 0)) 6 = 0 ∧
    ByteDecode 1 (K_PKE_Decrypt ML_KEM_512 (List.replicate 768 0) (List.replicate 643 0 ++ (8 :: List.replicate 124 0))) j = if j = 6 then 1 else 0 := by
  have z : ∀ j, ByteDecode 1 (K_PKE_Decrypt ML_KEM_512 (List.replicate 768 0) (List.replicate 768 0)) j = 0 := fun j => by
    rw [decrypt_bit, decValue_zeros, compress1, Pi.zero_apply]
    decide
  refine ⟨z 6, ?_⟩
  have := C93_flip .k2 (List.replicate 768 0) _ _ 6 flip_case (by
    have e : decValue (fips .k2) (List.replicate 768 0) (List.replicate 768 0) = 0 := decValue_zeros _ _ _
    rw [e]
    decide) j
  rw [show fips .k2 = ML_KEM_512 from rfl, z] at this
  exact this

theorem kat2_value : decValue ML_KEM_512 (nb 768 kat2SN) (nb 768 kat2CtN) = rqOf (weave kat2w0 kat2w1) := by
  have c1 : bytes (nb 768 kat2CtN) 0 640 = nb 640 (kat2CtN % 256 ^ 640) := bytes_lit (by omega) rfl (by decide +kernel)
  have c2 : bytes (nb 768 kat2CtN) 640 768 = nb 128 kat2Cv := bytes_lit (by omega) rfl (by decide +kernel)
  show ((fun j => Decompress 4 (ByteDecode 4 (bytes (nb 768 kat2CtN) 640 768) j)) -
    NTTInv (dotNTT 2 (fun i => ByteDecode12 (bytes (nb 768 kat2SN) (384 * i) (384 * (i + 1)))) (fun i => NTT (fun j => Decompress 10 (ByteDecode 10 (bytes (bytes (nb 768 kat2CtN) 0 640) (320 * i) (320 * (i + 1))) j))))) = _
  rw [c1, c2, kat2vz_eq, kat2_w, kat2w_eq]

theorem malleable_case {N : Nat} {d m r ek dk c c' : List UInt8} {A : Nat → Nat → Rq}
    (hA : ∀ i < ML_KEM_512.k, ∀ j < ML_KEM_512.k, SampleNTT N ((G (d ++ [UInt8.ofNat ML_KEM_512.k])).1 ++ [UInt8.ofNat j, UInt8.ofNat i]) = some (A i j))
    (hk : K_PKE_KeyGen ML_KEM_512 N d = some (ek, dk)) (hc : K_PKE_Encrypt ML_KEM_512 N ek m r = some c) (hm : K_PKE_Decrypt ML_KEM_512 dk c = m) (hw : decValue ML_KEM_512 dk c 0 = 1699)
    (h : Flipped c c' (topBit ML_KEM_512 0)) : K_PKE_Decrypt ML_KEM_512 dk c' = ByteEncode 1 fun j => if j = 0 then 1 - ByteDecode 1 m j else ByteDecode 1 m j := by
  have e1 : Decompress 1 1 = 1665 := by rw [decompress_nat (d := 0)]; rfl
  have hb : ByteDecode 1 m 0 = 1 := by
    rw [← hm, decrypt_bit, hw, compress1]
    decide
  have hv := encrypt_value (P := ML_KEM_512) hA hk hc 0
  rw [hw, hb, e1] at hv
  have hn : decryptionNoise ML_KEM_512 A (G (d ++ [UInt8.ofNat ML_KEM_512.k])).2 m r 0 = 34 := by linear_combination -hv
  exact C93_malleable .k2 N N N d m r ek dk c c' A 0 hA hk hc hm ⟨fun e => absurd (hn.symm.trans e) (by decide), fun e => absurd (hn.symm.trans e) (by decide)⟩ h

theorem kat2_value0 : decValue ML_KEM_512 (nb 768 kat2SN) (nb 768 kat2CtN) 0 = 1699 := by
  have h0 : rqOf (weave kat2w0 kat2w1) 0 = 1699 := by decide +kernel
  rw [kat2_value, h0]

theorem kat2_matrix (i : Nat) (hi : i < ML_KEM_512.k) (j : Nat) (hj : j < ML_KEM_512.k) :
    SampleNTT 168 ((G (nb 32 katDN ++ [UInt8.ofNat ML_KEM_512.k])).1 ++ [UInt8.ofNat j, UInt8.ofNat i]) = some (kat2A i j) := by
  rw [show G (nb 32 katDN ++ [UInt8.ofNat ML_KEM_512.k]) = (nb 32 kat2RhoN, nb 32 kat2SigN) from kat2_g]
  exact kat2_sample i hi j hj

theorem kat2_pair : K_PKE_KeyGen ML_KEM_512 168 (nb 32 katDN) = some (nb 800 kat2EkN, nb 768 kat2SN) := kat2_pke_keygen.trans (by rw [kat2_ek])

/-- A case of flipping a bit of an encryption: the key pair, the message and the coins of the known answer of ML-KEM-512. The value that is rounded to bit 0 is 1699. -/
example (c' : List UInt8) (h : Flipped (nb 768 kat2CtN) c' (topBit ML_KEM_512 0)) :
    K_PKE_Decrypt ML_KEM_512 (nb 768 kat2SN) c' = ByteEncode 1 fun j => if j = 0 then 1 - ByteDecode 1 (nb 32 katMN) j else ByteDecode 1 (nb 32 katMN) j :=
  malleable_case kat2_matrix kat2_pair kat2_encrypt kat2_decrypt kat2_value0 h

end Verif.Props
