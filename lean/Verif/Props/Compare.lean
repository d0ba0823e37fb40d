import Verif.Proof.Compare
import Verif.Props.Verify
import Verif.Props.AvxPack

/-! # C96: the comparison in decapsulation must cover every byte of the ciphertext

`crypto_kem_dec` (line 161 of ref/kem.c and of avx2/kem.c) compares the KYBER_CIPHERTEXTBYTES bytes of the ciphertext with those of the
re-encryption. C03 and C50 say that it follows Decaps_internal, so that it compares all of them. Here: with a comparison that does not look at
some byte, whichever that is, decapsulation would give the shared secret for a second ciphertext, since every byte of a ciphertext has a bit
that K-PKE.Decrypt ignores unless the noise is large. An attack that may ask for decapsulations of other ciphertexts than its own (C82) would
learn the secret with one question. -/

set_option autoImplicit false

namespace Verif.Props
open Verif.Model Verif.Spec Verif.Proof

/-- ML-KEM.Decaps_internal (algorithm 18) with `cmp c c'` in place of `c = c'`. -/
def decapsWith (cmp : List UInt8 → List UInt8 → Bool) (P : Params) (N : Nat) (dk c : List UInt8) : Option (List UInt8) := do
  let dkPKE := bytes dk 0 (384 * P.k)
  let ekPKE := bytes dk (384 * P.k) (768 * P.k + 32)
  let h := bytes dk (768 * P.k + 32) (768 * P.k + 64)
  let z := bytes dk (768 * P.k + 64) (768 * P.k + 96)
  let m' := K_PKE_Decrypt P dkPKE c
  let (K', r') := G (m' ++ h)
  let K'' := J (z ++ c)
  let c' ← K_PKE_Encrypt P N ekPKE m' r'
  pure (if cmp c c' then K' else K'')

/-- `x` and `y` are strings of the same length that are equal outside byte `i`. -/
def EqualBut (i : Nat) (x y : List UInt8) : Prop := x.length = y.length ∧ ∀ j, j ≠ i → x[j]? = y[j]?

/-- `cmp` does not look at byte `i` of its first argument. -/
def Ignores (cmp : List UInt8 → List UInt8 → Bool) (i : Nat) : Prop := ∀ x x' y, EqualBut i x x' → cmp x y = cmp x' y

/-- Every coefficient of `f` has a representative of absolute value at most 620 (the threshold for decryption is 832). -/
def WithinMargin (f : Rq) : Prop := ∀ i, ∃ z : Int, -620 ≤ z ∧ z ≤ 620 ∧ f i = (z : Zq)

/-- With the comparison of all bytes it is Decaps_internal. -/
theorem C96_full (P : Params) (N : Nat) (dk c : List UInt8) : decapsWith (fun x y => decide (x = y)) P N dk c = Decaps_internal P N dk c := by
  unfold decapsWith Decaps_internal
  simp only [decide_eq_true_eq]

/-- C96. In every byte of a ciphertext there is a bit, the same one for all keys and all ciphertexts, that decryption ignores
when no value that it rounds is more than 620 away from the value of a bit. -/
theorem C96_bit (p : ParamSet) (i : Nat) (hi : i < ctLen (fips p)) : ∃ b, b / 8 = i ∧ ∀ s, SmallKey (fips p) s → ∀ c c', Flipped c c' b →
    (∀ j, ClearValue (decValue (fips p) (keyOfSmall (fips p) s) c j)) → K_PKE_Decrypt (fips p) (keyOfSmall (fips p) s) c' = K_PKE_Decrypt (fips p) (keyOfSmall (fips p) s) c := by
  obtain ⟨b, hb, h⟩ := low_bit (fips p) (by cases p <;> decide) (by cases p <;> decide) (by cases p <;> decide) i hi
  refine ⟨b, hb, fun s hs c c' hf hcl => ?_⟩
  rw [decrypt_decValue, decrypt_decValue]
  refine congrArg _ (funext fun j => ?_)
  obtain ⟨δ, h1, h2, h3⟩ := h s hs c c' hf j
  exact compress_clear (hcl j) h1 h2 h3

/-- C96. For every key pair, every encapsulation whose noise is within the margin and every byte of the ciphertext there is another
ciphertext, which differs in a bit of that byte only, such that decapsulation gives the shared secret with every comparison that
accepts equal strings and ignores the byte. Decaps_internal gives the rejection secret. -/
theorem C96_byte (p : ParamSet) (N N1 N2 N3 : Nat) (h23 : N2 ≤ N3) (d z m ek dk K c : List UInt8) (A : Nat → Nat → Rq)
    (hA : ∀ i < (fips p).k, ∀ j < (fips p).k, SampleNTT N ((G (d ++ [UInt8.ofNat (fips p).k])).1 ++ [UInt8.ofNat j, UInt8.ofNat i]) = some (A i j))
    (hz : z.length = 32) (hm : m.length = 32) (hk : KeyGen_internal (fips p) N1 d z = some (ek, dk)) (he : Encaps_internal (fips p) N2 ek m = some (K, c))
    (hn : WithinMargin (decryptionNoise (fips p) A (G (d ++ [UInt8.ofNat (fips p).k])).2 m (G (m ++ H ek)).2)) (i : Nat) (hi : i < ctLen (fips p)) :
    ∃ c', c' ≠ c ∧ EqualBut i c' c ∧ (∀ cmp, (∀ x, cmp x x = true) → Ignores cmp i → decapsWith cmp (fips p) N3 dk c' = some K) ∧
      Decaps_internal (fips p) N3 dk c' = some (J (z ++ c')) := by
  obtain ⟨sk, hk', rfl⟩ := keygen_inv hk
  obtain ⟨rfl, he'⟩ := encaps_inv he
  have hw := encrypt_value hA hk' he'
  have hdec : K_PKE_Decrypt (fips p) sk c = m := (decrypt_encrypt_iff (by cases p <;> decide) (by cases p <;> decide) (by cases p <;> decide) (by cases p <;> decide) hA hm hk' he').2 fun j => by
    obtain ⟨z, h1, h2, h3⟩ := hn j
    exact ⟨z, h3.symm, by omega, by split <;> omega⟩
  have hcl : ∀ j, ClearValue (decValue (fips p) sk c j) := fun j => by
    obtain ⟨z, h1, h2, h3⟩ := hn j
    have hb : ByteDecode 1 m j < 2 := bitsVal_lt 1 _
    refine ⟨decide (ByteDecode 1 m j = 1), z, h1, h2, ?_⟩
    rw [hw, h3]
    congr 2
    rcases (by omega : ByteDecode 1 m j = 0 ∨ ByteDecode 1 m j = 1) with h | h <;> rw [h] <;> rfl
  obtain ⟨s, hs, hsk⟩ := keygen_small hk'
  obtain ⟨l1, l2⟩ := keygen_length hk'
  obtain ⟨p1, p2, p3, p4⟩ := dk_parts l2 l1 (show (H ek).length = 32 from SHA3_256_length ek) hz
  have hl : c.length = ctLen (fips p) := encrypt_length he'
  obtain ⟨b, hb, h⟩ := C96_bit p i hi
  have hbl : b / 8 < c.length := by omega
  have hd' : K_PKE_Decrypt (fips p) sk (flipBit c b) = m := by
    rw [← hdec, hsk]
    rw [hsk] at hcl
    exact h s hs c _ (flipBit_flipped c b hbl) hcl
  have hE : EqualBut i (flipBit c b) c := ⟨flipBit_length c b, fun j hj => flipBit_other c b j (by omega)⟩
  have hne := flipBit_ne c b hbl
  refine ⟨flipBit c b, hne, hE, fun cmp hr hg => ?_, ?_⟩
  · unfold decapsWith
    dsimp only
    rw [p1, p2, p3, p4, hd', K_PKE_Encrypt_mono h23 he']
    show some (if cmp (flipBit c b) c then _ else _) = _
    rw [hg _ _ c hE, hr, if_pos rfl]
  · unfold Decaps_internal
    dsimp only
    rw [p1, p2, p3, p4, hd', K_PKE_Encrypt_mono h23 he']
    show some (if flipBit c b = c then _ else _) = _
    rw [if_neg hne]

/-- C96. Comparing the first `n` bytes only is not enough, whatever `n` less than the length. -/
theorem C96_prefix (p : ParamSet) (N N1 N2 N3 : Nat) (h23 : N2 ≤ N3) (d z m ek dk K c : List UInt8) (A : Nat → Nat → Rq)
    (hA : ∀ i < (fips p).k, ∀ j < (fips p).k, SampleNTT N ((G (d ++ [UInt8.ofNat (fips p).k])).1 ++ [UInt8.ofNat j, UInt8.ofNat i]) = some (A i j))
    (hz : z.length = 32) (hm : m.length = 32) (hk : KeyGen_internal (fips p) N1 d z = some (ek, dk)) (he : Encaps_internal (fips p) N2 ek m = some (K, c))
    (hn : WithinMargin (decryptionNoise (fips p) A (G (d ++ [UInt8.ofNat (fips p).k])).2 m (G (m ++ H ek)).2)) (n : Nat) (hi : n < ctLen (fips p)) :
    ∃ c', c' ≠ c ∧ decapsWith (fun x y => decide (x.take n = y.take n)) (fips p) N3 dk c' = some K ∧ Decaps_internal (fips p) N3 dk c' = some (J (z ++ c')) := by
  obtain ⟨c', h1, -, h3, h4⟩ := C96_byte p N N1 N2 N3 h23 d z m ek dk K c A hA hz hm hk he hn n hi
  refine ⟨c', h1, h3 _ (fun x => decide_eq_true rfl) fun x x' y h => ?_, h4⟩
  have : x.take n = x'.take n := List.ext_getElem? fun j => by
    by_cases hj : j < n
    · rw [List.getElem?_take_of_lt hj, List.getElem?_take_of_lt hj, h.2 j (by omega)]
    · rw [List.getElem?_take, List.getElem?_take, if_neg hj, if_neg hj]
  simp only [this]

/-- C96. `verify` of both builds with the length `n` is the comparison of the first `n` bytes of C96_prefix. -/
theorem C96_verify (a b : Mem UInt8) (ao bo : Nat) (x y : List UInt8) (n : Nat) (ha : a.Holds ao x) (hb : b.Holds bo y) (hx : n ≤ x.length) (hy : n ≤ y.length) :
    Runs (verify a ao b bo n) (fun r => r = if x.take n = y.take n then 0 else 1) ∧ Runs (Avx.verify a ao b bo n) (fun r => r = if x.take n = y.take n then 0 else 1) := by
  have hl : ∀ x : List UInt8, n ≤ x.length → (x.take n).length = n := fun x h => by rw [List.length_take]; omega
  have hp : ∀ (m : Mem UInt8) (o : Nat) (x : List UInt8), n ≤ x.length → m.Holds o x → m.Holds o (x.take n) := fun m o x h hm i hi => by
    rw [hl x h] at hi
    rw [List.getElem_take]
    exact hm i (by omega)
  have h1 := C27_verify a b ao bo (x.take n) (y.take n) ((hl x hx).trans (hl y hy).symm) (hp _ _ _ hx ha) (hp _ _ _ hy hb)
  have h2 := C42_verify a b ao bo (x.take n) (y.take n) ((hl x hx).trans (hl y hy).symm) (hp _ _ _ hx ha) (hp _ _ _ hy hb)
  rw [hl x hx] at h1 h2
  exact ⟨h1, h2⟩

/-! ## Cases -/

theorem zero_clear (p : ParamSet) (j : Fin 256) : ClearValue (decValue (fips p) (keyOfSmall (fips p) fun _ _ => 0) (List.replicate (ctLen (fips p)) 0) j) := by
  have hm : ∀ g : Rq, mulRq (fun _ => ((0 : Int) : Zq)) g = 0 := fun g => by
    funext k
    unfold mulRq
    simp
  have hb : ∀ n k, BytesToBits (List.replicate n 0) k = false := fun n k => by
    unfold BytesToBits
    rw [List.getD_eq_getElem?_getD, List.getElem?_replicate]
    split <;> simp
  have hdv : 0 < (fips p).dv := by cases p <;> decide
  have hV : valV (fips p) (List.replicate (ctLen (fips p)) 0) j = 0 := by
    unfold valV ByteDecode
    have e : bitsVal (fips p).dv (fun t => BytesToBits (bytes (List.replicate (ctLen (fips p)) 0) (32 * (fips p).du * (fips p).k) (32 * ((fips p).du * (fips p).k + (fips p).dv))) (j.val * (fips p).dv + t)) = 0 := by
      refine (bitsVal_congr fun t ht => ?_).trans (Finset.sum_eq_zero fun t _ => by rw [Bool.toNat_false, Nat.zero_mul] : bitsVal _ (fun _ => false) = 0)
      rw [v_bit _ _ j.isLt ht, hb]
    rw [e]
    obtain ⟨d, hd⟩ : ∃ d, (fips p).dv = d + 1 := ⟨(fips p).dv - 1, by omega⟩
    rw [hd, decompress_nat, Nat.mul_zero, Nat.zero_add, Nat.div_eq_of_lt (Nat.pow_lt_pow_right (by decide) (Nat.lt_succ_self _)), Nat.cast_zero]
  refine ⟨false, 0, by decide, by decide, ?_⟩
  rw [decValue_small, Finset.sum_congr rfl fun l _ => hm _, Finset.sum_const_zero, sub_zero, hV, show Bool.toNat false = 0 from rfl, decompress_nat (d := 0)]
  rfl

/-- A value within 620 of 0 or of 1665, as a residue. -/
def nearBit (w : Zq) : Bool := decide (w.val ≤ 620 ∨ 1045 ≤ w.val ∧ w.val ≤ 2285 ∨ 2709 ≤ w.val)

theorem near_noise (w : Zq) (h : nearBit w = true) : ∃ z : Int, -620 ≤ z ∧ z ≤ 620 ∧ w - Decompress 1 (Compress 1 w) = (z : Zq) := by
  have hw : w = ((w.val : Int) : Zq) := by rw [Int.cast_natCast, ZMod.natCast_zmod_val]
  have h0 : Decompress 1 0 = 0 := by rw [decompress_nat (d := 0)]; rfl
  have h1 : Decompress 1 1 = ((1665 : Int) : Zq) := by rw [decompress_nat (d := 0)]; rfl
  have hq : ((3329 : Int) : Zq) = 0 := by decide
  have h := of_decide_eq_true h
  have hlt := zq_val_lt (a := w)
  rw [compress1]
  rcases h with h | h | h
  · refine ⟨w.val, by omega, by omega, ?_⟩
    rw [if_neg (by omega), h0, sub_zero]; exact hw
  · refine ⟨w.val - 1665, by omega, by omega, ?_⟩
    rw [if_pos (by omega), h1, Int.cast_sub, ← hw]
  · refine ⟨w.val - 3329, by omega, by omega, ?_⟩
    rw [if_neg (by omega), h0, sub_zero, Int.cast_sub, hq, sub_zero]; exact hw

theorem margin_case {P : Params} {N N1 N2 : Nat} {d m r ek dk c : List UInt8} {A : Nat → Nat → Rq} {w : Rq}
    (hA : ∀ i < P.k, ∀ j < P.k, SampleNTT N ((G (d ++ [UInt8.ofNat P.k])).1 ++ [UInt8.ofNat j, UInt8.ofNat i]) = some (A i j))
    (hk : K_PKE_KeyGen P N1 d = some (ek, dk)) (hc : K_PKE_Encrypt P N2 ek m r = some c) (hd : K_PKE_Decrypt P dk c = m) (hv : decValue P dk c = w) (hw : ∀ i, nearBit (w i) = true) :
    WithinMargin (decryptionNoise P A (G (d ++ [UInt8.ofNat P.k])).2 m r) := fun i => by
  have h := encrypt_value hA hk hc i
  rw [← hd, decrypt_bit, hd, hv] at h
  obtain ⟨z, h1, h2, h3⟩ := near_noise _ (hw i)
  exact ⟨z, h1, h2, by linear_combination h3 - h⟩

theorem kat2_near : ∀ i, nearBit (rqOf (weave kat2w0 kat2w1) i) = true := by decide +kernel

theorem compare_case {d z m ek dk sk K c : List UInt8} {A : Nat → Nat → Rq} {w : Rq}
    (hA : ∀ i < ML_KEM_512.k, ∀ j < ML_KEM_512.k, SampleNTT 168 ((G (d ++ [UInt8.ofNat ML_KEM_512.k])).1 ++ [UInt8.ofNat j, UInt8.ofNat i]) = some (A i j))
    (hz : z.length = 32) (hm : m.length = 32) (hp : K_PKE_KeyGen ML_KEM_512 168 d = some (ek, sk)) (hk : KeyGen_internal ML_KEM_512 168 d z = some (ek, dk)) (he : Encaps_internal ML_KEM_512 168 ek m = some (K, c))
    (hd : K_PKE_Decrypt ML_KEM_512 sk c = m) (hv : decValue ML_KEM_512 sk c = w) (hw : ∀ i, nearBit (w i) = true) (n : Nat) (hn : n < 768) :
    (∃ c', c' ≠ c ∧ EqualBut n c' c ∧ (∀ cmp, (∀ x, cmp x x = true) → Ignores cmp n → decapsWith cmp ML_KEM_512 168 dk c' = some K) ∧ Decaps_internal ML_KEM_512 168 dk c' = some (J (z ++ c'))) ∧
      ∃ c', c' ≠ c ∧ decapsWith (fun x y => decide (x.take n = y.take n)) ML_KEM_512 168 dk c' = some K ∧ Decaps_internal ML_KEM_512 168 dk c' = some (J (z ++ c')) :=
  ⟨C96_byte .k2 168 168 168 168 (Nat.le_refl _) d z m ek dk K c A hA hz hm hk he (margin_case hA hp (encaps_inv he).2 hd hv hw) n hn,
    C96_prefix .k2 168 168 168 168 (Nat.le_refl _) d z m ek dk K c A hA hz hm hk he (margin_case hA hp (encaps_inv he).2 hd hv hw) n hn⟩

/-- A case: the key pair and the encapsulation of the known answer of ML-KEM-512. All 256 values are within the margin, so the secret can be had with
another ciphertext if any one of the 768 bytes, or all after some byte, were left out of the comparison. -/
example (n : Nat) (hn : n < 768) : (∃ c', c' ≠ nb 768 kat2CtN ∧ EqualBut n c' (nb 768 kat2CtN) ∧
      (∀ cmp, (∀ x, cmp x x = true) → Ignores cmp n → decapsWith cmp ML_KEM_512 168 (nb 1632 kat2DkN) c' = some (nb 32 kat2KN)) ∧
      Decaps_internal ML_KEM_512 168 (nb 1632 kat2DkN) c' = some (J (nb 32 katZN ++ c'))) ∧
    ∃ c', c' ≠ nb 768 kat2CtN ∧ decapsWith (fun x y => decide (x.take n = y.take n)) ML_KEM_512 168 (nb 1632 kat2DkN) c' = some (nb 32 kat2KN) ∧
      Decaps_internal ML_KEM_512 168 (nb 1632 kat2DkN) c' = some (J (nb 32 katZN ++ c')) :=
  compare_case kat2_matrix (nb_length _ _) (nb_length _ _) kat2_pair kat2_keygen kat2_encaps kat2_decrypt kat2_value kat2_near n hn

/-- A case of C96_bit: the zero key and the zero ciphertext, for all parameter sets; every value is that of the bit 0. -/
example (p : ParamSet) (i : Nat) (hi : i < ctLen (fips p)) : ∃ b, b / 8 = i ∧ ∀ c', Flipped (List.replicate (ctLen (fips p)) 0) c' b →
    K_PKE_Decrypt (fips p) (keyOfSmall (fips p) fun _ _ => 0) c' = K_PKE_Decrypt (fips p) (keyOfSmall (fips p) fun _ _ => 0) (List.replicate (ctLen (fips p)) 0) := by
  obtain ⟨b, hb, h⟩ := C96_bit p i hi
  exact ⟨b, hb, fun c' hf => h _ (fun _ _ => ⟨by simp, by simp⟩) _ _ hf fun j => zero_clear p j⟩

/-- `verify` with the length 2 on two strings of three bytes that differ in the last. -/
example : Runs (verify (Mem.ofList [1, 2, 3]) 0 (Mem.ofList [1, 2, 4]) 0 2) (fun r => r = 0) ∧ Runs (verify (Mem.ofList [1, 2, 3]) 0 (Mem.ofList [1, 2, 4]) 0 3) (fun r => r = 1) :=
  ⟨(C96_verify _ _ 0 0 [1, 2, 3] [1, 2, 4] 2 (Mem.holds_ofList _) (Mem.holds_ofList _) (by decide) (by decide)).1,
    (C96_verify _ _ 0 0 [1, 2, 3] [1, 2, 4] 3 (Mem.holds_ofList _) (Mem.holds_ofList _) (by decide) (by decide)).1⟩

/-- With the full comparison the second argument of C96_byte is out of reach: equality does not ignore any byte. -/
example (i : Nat) : ¬ Ignores (fun x y => decide (x = y)) i := fun h => by
  have := h (List.replicate (i + 1) 0) ((List.replicate (i + 1) 0).set i 1) (List.replicate (i + 1) 0) ⟨by simp, fun j hj => by rw [List.getElem?_set, if_neg fun e => hj e.symm]⟩
  simp only [decide_true, eq_comm (a := true), decide_eq_true_eq] at this
  have h2 := congrArg (fun l => l[i]?) this
  simp at h2

end Verif.Props
