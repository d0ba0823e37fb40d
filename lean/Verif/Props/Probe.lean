import Verif.Props.KeyParts
import Verif.Props.Pke
import Verif.Proof.Cbd

/-! # C92: what decryption without the comparison of the ciphertexts gives away

The public-key encryption scheme inside ML-KEM may not be used on ciphertexts of unknown origin. The theorems say how far it is from that: `3 k` ciphertexts, the same for all keys, whose decryptions by
`indcpa_dec` of either build determine the secret key, so that it can be computed by the formula `recoverKey`; `2 k` ciphertexts are too few, also if each is chosen after the answers to the ones before. Nor
does it help to return only a hash of the message, as `crypto_kem_dec` would if it left out the comparison in kem.c: `1536 k` ciphertexts then give the secret key, or a collision of the hash. -/

set_option autoImplicit false

namespace Verif.Props
open Verif.Model Verif.Spec Verif.Proof

/-- The ciphertext with `a` as coefficient 0 of polynomial `i` of u, zeros as all other coefficients of u, and `b` as v (all compressed). -/
def probe (P : Params) (i a : Nat) (b : Fin 256 → Nat) : List UInt8 :=
  concat P.k (fun j => ByteEncode P.du fun n => if j = i ∧ n = 0 then a else 0) ++ ByteEncode P.dv b

/-- The polynomials `s` are a secret key of K-PKE: coefficients between -η and η. -/
def SmallKey (P : Params) (s : Nat → Fin 256 → Int) : Prop := ∀ i n, -P.η₁ ≤ s i n ∧ s i n ≤ P.η₁

/-- The secret key of K-PKE made of the polynomials `s` (algorithm 13, line 20). -/
def keyOfSmall (P : Params) (s : Nat → Fin 256 → Int) : List UInt8 := concat P.k fun i => ByteEncode12 (NTT fun n => ((s i n : Int) : Zq))

theorem C92_length (P : Params) (i a : Nat) (b : Fin 256 → Nat) : (probe P i a b).length = ctLen P := by
  unfold probe ctLen
  rw [List.length_append, concat_length (fun i => byteEncode_length _ _), byteEncode_length]
  ring

theorem mulRq_const (f : Rq) (c : Zq) : mulRq f (fun n => if n = 0 then c else 0) = fun n => f n * c := by
  funext n
  unfold mulRq
  rw [Finset.sum_eq_single n]
  · rw [Finset.sum_eq_single 0]
    · simp
    · intro j _ hj
      simp [hj]
    · simp
  · intro i _ hi
    apply Finset.sum_eq_zero
    intro j _
    by_cases hj : j = 0
    · subst hj
      have h1 : ¬ (i.val + (0 : Fin 256).val = n.val) := by
        intro h; exact hi (Fin.ext (by simpa using h))
      have h2 : ¬ (i.val + (0 : Fin 256).val = n.val + 256) := by
        intro h
        have := i.isLt
        have h0 : (0 : Fin 256).val = 0 := rfl
        omega
      rw [if_neg h1, if_neg h2]
    · simp [hj]
  · simp

theorem mulRq_zero (f : Rq) : mulRq f (fun _ => 0) = 0 := by
  funext n
  unfold mulRq
  simp

theorem decompress_zero (d : Nat) : Decompress d 0 = 0 := by
  unfold Decompress
  simp

/-- What decryption does with such a ciphertext. -/
theorem decrypt_probe (P : Params) (s : Nat → Fin 256 → Int) {i a : Nat} {b : Fin 256 → Nat} (hi : i < P.k) (ha : a < 2 ^ P.du) (hb : ∀ n, b n < 2 ^ P.dv) :
    K_PKE_Decrypt P (keyOfSmall P s) (probe P i a b) = ByteEncode 1 fun n => Compress 1 (Decompress P.dv (b n) - (s i n : Zq) * Decompress P.du a) := by
  have hc1 : (concat P.k fun j => ByteEncode P.du fun n => if j = i ∧ n = 0 then a else 0).length = 32 * P.du * P.k :=
    concat_length fun i => byteEncode_length _ _
  have hs : ∀ j < P.k, ByteDecode12 (bytes (keyOfSmall P s) (384 * j) (384 * (j + 1))) = NTT fun n => ((s j n : Int) : Zq) := fun j hj => by
    unfold keyOfSmall
    rw [← List.append_nil (concat P.k _), bytes_concat (fun i => byteEncode12_length _) _ hj, byteDecode12_byteEncode12]
  have hU : ∀ j < P.k, (fun n => Decompress P.du (ByteDecode P.du (bytes (concat P.k fun j => ByteEncode P.du fun n => if j = i ∧ n = 0 then a else 0)
      (32 * P.du * j) (32 * P.du * (j + 1))) n)) = fun n => if j = i then (if n = 0 then Decompress P.du a else 0) else 0 := fun j hj => by
    rw [← List.append_nil (concat P.k _), bytes_concat (fun i => byteEncode_length _ _) _ hj, byteDecode_byteEncode _ _ fun n => by
      split
      · exact ha
      · exact Nat.two_pow_pos _]
    funext n
    by_cases h : j = i <;> by_cases h' : n = 0 <;> simp [h, h', decompress_zero]
  unfold K_PKE_Decrypt
  dsimp only
  unfold probe
  rw [bytes_append_left hc1, bytes_append_right hc1 (by rw [byteEncode_length]; ring), byteDecode_byteEncode _ _ hb,
    dotNTT_congr hs fun j hj => congrArg NTT (hU j hj), nttInv_dot P.k (fun j n => ((s j n : Int) : Zq)) fun j n => if j = i then (if n = 0 then Decompress P.du a else 0) else 0,
    Finset.sum_eq_single_of_mem i (Finset.mem_range.2 hi) fun j _ hj => by simp only [hj, if_false]; exact mulRq_zero _]
  simp only [if_true]
  rw [mulRq_const]
  rfl

/-! ## Three ciphertexts for each polynomial of the secret -/

/-- The coefficient of u and the coefficients of v that make bit `e` of `3 + s` appear as message bit, for every coefficient `s` of the secret. -/
def probeCode : ParamSet → Nat → Nat × Nat
  | .k4, 0 => (1024, 16) | .k4, 1 => (1440, 21) | .k4, _ => (1707, 8)
  | _, 0 => (512, 8) | _, 1 => (726, 10) | _, _ => (854, 4)

/-- Ciphertext `e` (0, 1, 2) for polynomial `i` of the secret. It does not depend on the key. -/
def keyProbe (p : ParamSet) (i e : Nat) : List UInt8 := probe (fips p) i (probeCode p e).1 fun _ => (probeCode p e).2

/-- The secret key from the messages: the bits of the coefficients, plus 3, are bits of the three messages. -/
def recoverKey (P : Params) (m : Nat → Nat → List UInt8) : List UInt8 :=
  keyOfSmall P fun i n => (ByteDecode 1 (m i 0) n + 2 * ByteDecode 1 (m i 1) n + 4 * ByteDecode 1 (m i 2) n : Int) - 3

theorem probeCode_lt (p : ParamSet) (e : Nat) : (probeCode p e).1 < 2 ^ (fips p).du ∧ (probeCode p e).2 < 2 ^ (fips p).dv := by
  unfold probeCode
  split <;> (try cases p) <;> first | contradiction | decide

/-- Message bit `e` for a coefficient `x`. -/
theorem probeCode_bit (p : ParamSet) (x : Int) (h : -3 ≤ x) (h' : x ≤ 3) :
    (Compress 1 (Decompress (fips p).dv (probeCode p 0).2 - (x : Zq) * Decompress (fips p).du (probeCode p 0).1) +
      2 * Compress 1 (Decompress (fips p).dv (probeCode p 1).2 - (x : Zq) * Decompress (fips p).du (probeCode p 1).1) +
      4 * Compress 1 (Decompress (fips p).dv (probeCode p 2).2 - (x : Zq) * Decompress (fips p).du (probeCode p 2).1) : Int) - 3 = x := by
  have hv : ∀ y, Decompress (fips p).dv y = (((3329 * y + 2 ^ ((fips p).dv - 1)) / 2 ^ ((fips p).dv - 1 + 1) : Nat) : Zq) := fun y => by cases p <;> exact decompress_nat _ y
  have hu : ∀ y, Decompress (fips p).du y = (((3329 * y + 2 ^ ((fips p).du - 1)) / 2 ^ ((fips p).du - 1 + 1) : Nat) : Zq) := fun y => by cases p <;> exact decompress_nat _ y
  simp only [compress1, hv, hu]
  have hx : x = -3 ∨ x = -2 ∨ x = -1 ∨ x = 0 ∨ x = 1 ∨ x = 2 ∨ x = 3 := by omega
  rcases hx with rfl | rfl | rfl | rfl | rfl | rfl | rfl <;> cases p <;> decide +kernel

/-- C92. For every secret key with small coefficients the messages give the key. -/
theorem C92_small (p : ParamSet) (s : Nat → Fin 256 → Int) (hs : SmallKey (fips p) s) :
    recoverKey (fips p) (fun i e => K_PKE_Decrypt (fips p) (keyOfSmall (fips p) s) (keyProbe p i e)) = keyOfSmall (fips p) s := by
  have hη : (fips p).η₁ ≤ 3 := by cases p <;> decide
  unfold recoverKey
  conv_rhs => unfold keyOfSmall
  conv_lhs => unfold keyOfSmall
  refine concat_congr fun i hi => congrArg ByteEncode12 (congrArg NTT (funext fun n => congrArg _ ?_))
  have e : ∀ e, ByteDecode 1 (K_PKE_Decrypt (fips p) (keyOfSmall (fips p) s) (keyProbe p i e)) n =
      Compress 1 (Decompress (fips p).dv (probeCode p e).2 - (s i n : Zq) * Decompress (fips p).du (probeCode p e).1) := fun e => by
    unfold keyProbe
    rw [decrypt_probe _ _ hi (probeCode_lt p e).1 fun _ => (probeCode_lt p e).2, byteDecode_byteEncode _ _ fun _ => compress_lt _ _]
  have := hs i n
  have e0 := e 0
  have e1 := e 1
  have e2 := e 2
  show (ByteDecode 1 (K_PKE_Decrypt (fips p) (keyOfSmall (fips p) s) (keyProbe p i 0)) n + 2 * ByteDecode 1 (K_PKE_Decrypt (fips p) (keyOfSmall (fips p) s) (keyProbe p i 1)) n +
    4 * ByteDecode 1 (K_PKE_Decrypt (fips p) (keyOfSmall (fips p) s) (keyProbe p i 2)) n : Int) - 3 = s i n
  rw [e0, e1, e2]
  exact probeCode_bit p (s i n) (by omega) (by omega)

/-- The secret keys of K-PKE have this form. -/
theorem keygen_small {P : Params} {N : Nat} {d ek dk : List UInt8} (h : K_PKE_KeyGen P N d = some (ek, dk)) : ∃ s, SmallKey P s ∧ dk = keyOfSmall P s := by
  rw [K_PKE_KeyGen_eq, Option.map_eq_some_iff] at h
  obtain ⟨A, _, h⟩ := h
  refine ⟨fun i n => cbdInt P.η₁ (PRF P.η₁ (G (d ++ [UInt8.ofNat P.k])).2 (UInt8.ofNat i)) n.val, fun i n => cbdInt_bounds _ _ _, ?_⟩
  have h2 : (keyOut P (G (d ++ [UInt8.ofNat P.k])).1 (G (d ++ [UInt8.ofNat P.k])).2 A).2 = dk := congrArg Prod.snd h
  rw [← h2]
  unfold keyOut keyOfSmall keyS noise
  exact concat_congr fun i _ => congrArg ByteEncode12 (congrArg NTT (funext fun n => (cbdInt_zq _ _ n).symm))

/-- C92. The decryptions of the `3 k` ciphertexts `keyProbe p i e`, which do not depend on the key, give the secret key of every key pair. -/
theorem C92_recover (p : ParamSet) (N : Nat) (d ek dk : List UInt8) (h : K_PKE_KeyGen (fips p) N d = some (ek, dk)) :
    recoverKey (fips p) (fun i e => K_PKE_Decrypt (fips p) dk (keyProbe p i e)) = dk := by
  obtain ⟨s, hs, rfl⟩ := keygen_small h
  exact C92_small p s hs

/-! ## The code -/

theorem keyOfSmall_length (P : Params) (s : Nat → Fin 256 → Int) : (keyOfSmall P s).length = 384 * P.k :=
  concat_length fun _ => byteEncode12_length _

theorem dec_probes (p : ParamSet) (N : Nat) (d ek dk : List UInt8) (h : K_PKE_KeyGen (fips p) N d = some (ek, dk)) (m sk : Mem UInt8) (mo : Nat) (hsk : sk.Holds 0 dk) (hm : mo + 32 ≤ m.size)
    (c : Nat → Nat → Mem UInt8) (hc : ∀ i < (fips p).k, ∀ e < 3, (c i e).Holds 0 (keyProbe p i e)) :
    ∃ msg : Nat → Nat → List UInt8, recoverKey (fips p) msg = dk ∧ ∀ i < (fips p).k, ∀ e < 3, Runs (indcpa_dec p m mo (c i e) sk) (fun s => m.Wrote s mo (msg i e)) ∧
      Runs (Avx.indcpa_dec p m mo (c i e) sk) (fun s => m.Wrote s mo (msg i e)) := by
  have hl : dk.length = 384 * (fips p).k := by
    obtain ⟨s, _, rfl⟩ := keygen_small h
    exact keyOfSmall_length _ _
  exact ⟨fun i e => K_PKE_Decrypt (fips p) dk (keyProbe p i e), C92_recover p N d ek dk h, fun i hi e he =>
    ⟨C58_dec p m (c i e) sk mo (keyProbe p i e) dk (hc i hi e he) (C92_length _ _ _ _) hsk hl hm, C58_dec_avx p m (c i e) sk mo (keyProbe p i e) dk (hc i hi e he) (C92_length _ _ _ _) hsk hl hm⟩⟩

/-- C92. When `indcpa_keypair_derand` of the reference build has made a key pair, the messages that `indcpa_dec` of either build writes for the `3 k` ciphertexts give the secret key. -/
theorem C92_ref (p : ParamSet) (fuel : Nat) (pk sk coins : Mem UInt8) (d : List UInt8) (hd : coins.Holds 0 d) (hdl : d.length = 32) (hpk : 384 * (fips p).k + 32 ≤ pk.size)
    (hsk : 384 * (fips p).k ≤ sk.size) (v : Mem UInt8 × Mem UInt8) (t : Trace) (hr : indcpa_keypair_derand p fuel pk sk coins = .ok v t) (m : Mem UInt8) (mo : Nat) (hm : mo + 32 ≤ m.size)
    (c : Nat → Nat → Mem UInt8) (hc : ∀ i < (fips p).k, ∀ e < 3, (c i e).Holds 0 (keyProbe p i e)) :
    ∃ msg : Nat → Nat → List UInt8, sk.Wrote v.2 0 (recoverKey (fips p) msg) ∧ ∀ i < (fips p).k, ∀ e < 3,
      Runs (indcpa_dec p m mo (c i e) v.2) (fun s => m.Wrote s mo (msg i e)) ∧ Runs (Avx.indcpa_dec p m mo (c i e) v.2) (fun s => m.Wrote s mo (msg i e)) := by
  obtain ⟨⟨ek, dk⟩, ho, _, h2⟩ := ok_of_runsO (pke_keypair_ref p fuel pk sk coins d hd hdl hpk hsk) hr
  obtain ⟨msg, e, h⟩ := dec_probes p _ d ek dk ho m v.2 mo h2.holds hm c hc
  exact ⟨msg, by rw [e]; exact h2, h⟩

/-- C92. The same for a key pair that the AVX2 build has made. -/
theorem C92_avx (p : ParamSet) (junk : Junk) (fuel : Nat) (pk sk coins : Mem UInt8) (d : List UInt8) (hd : coins.Holds 0 d) (hdl : d.length = 32) (hpk : 384 * (fips p).k + 32 ≤ pk.size)
    (hsk : 384 * (fips p).k ≤ sk.size) (v : Mem UInt8 × Mem UInt8) (t : Trace) (hr : Avx.indcpa_keypair_derand p junk fuel pk sk coins = .ok v t) (m : Mem UInt8) (mo : Nat)
    (hm : mo + 32 ≤ m.size) (c : Nat → Nat → Mem UInt8) (hc : ∀ i < (fips p).k, ∀ e < 3, (c i e).Holds 0 (keyProbe p i e)) :
    ∃ msg : Nat → Nat → List UInt8, sk.Wrote v.2 0 (recoverKey (fips p) msg) ∧ ∀ i < (fips p).k, ∀ e < 3,
      Runs (indcpa_dec p m mo (c i e) v.2) (fun s => m.Wrote s mo (msg i e)) ∧ Runs (Avx.indcpa_dec p m mo (c i e) v.2) (fun s => m.Wrote s mo (msg i e)) := by
  obtain ⟨⟨ek, dk⟩, ho, _, h2⟩ := ok_of_runsO (pke_keypair_avx p junk fuel pk sk coins d hd hdl hpk hsk) hr
  obtain ⟨msg, e, h⟩ := dec_probes p _ d ek dk ho m v.2 mo h2.holds hm c hc
  exact ⟨msg, by rw [e]; exact h2, h⟩

/-! ## Fewer ciphertexts -/

/-- The answers to the first `n` ciphertexts of a strategy that chooses each from the answers before. -/
def answers (P : Params) (dk : List UInt8) (ask : List (List UInt8) → List UInt8) : Nat → List (List UInt8)
  | 0 => []
  | n + 1 => answers P dk ask n ++ [K_PKE_Decrypt P dk (ask (answers P dk ask n))]

theorem answers_length (P : Params) (dk : List UInt8) (ask : List (List UInt8) → List UInt8) (n : Nat) : (answers P dk ask n).length = n := by
  induction n with
  | zero => rfl
  | succ n ih => rw [answers, List.length_append, ih]; rfl

theorem answers_mem (P : Params) (dk : List UInt8) (ask : List (List UInt8) → List UInt8) (n : Nat) : ∀ x ∈ answers P dk ask n, x.length = 32 := by
  induction n with
  | zero => intro x h; cases h
  | succ n ih =>
    intro x h
    rw [answers, List.mem_append] at h
    rcases h with h | h
    · exact ih x h
    · rw [List.mem_singleton.1 h]
      unfold K_PKE_Decrypt
      exact byteEncode_length _ _

theorem keyOfSmall_inj (P : Params) (hη : P.η₁ ≤ 3) {s s' : Nat → Fin 256 → Int} (hs : SmallKey P s) (hs' : SmallKey P s') (h : keyOfSmall P s = keyOfSmall P s') {i : Nat} (hi : i < P.k) (n : Fin 256) :
    s i n = s' i n := by
  have e : ∀ s : Nat → Fin 256 → Int, ByteDecode12 (bytes (keyOfSmall P s) (384 * i) (384 * (i + 1))) = NTT fun n => ((s i n : Int) : Zq) := fun s => by
    unfold keyOfSmall
    rw [← List.append_nil (concat P.k _), bytes_concat (fun i => byteEncode12_length _) _ hi, byteDecode12_byteEncode12]
  have h1 := congrFun (ntt_injective ((e s).symm.trans ((congrArg (fun l => ByteDecode12 (bytes l (384 * i) (384 * (i + 1)))) h).trans (e s')))) n
  rw [ZMod.intCast_eq_intCast_iff_dvd_sub] at h1
  have := hs i n
  have := hs' i n
  omega

/-- A vector of numbers from -2 to 2 as small polynomials. -/
def smallOf {k : Nat} (x : Fin k → Fin 256 → Fin 5) : Nat → Fin 256 → Int := fun i n => if h : i < k then ((x ⟨i, h⟩ n).val : Int) - 2 else 0

theorem card_lt (k n : Nat) (hk : 0 < k) (hn : n ≤ 2 * k) : (2 ^ 256) ^ n < (5 ^ 256) ^ k := by
  calc (2 ^ 256) ^ n ≤ (2 ^ 256) ^ (2 * k) := Nat.pow_le_pow_right (by decide) hn
    _ = ((2 ^ 256) ^ 2) ^ k := by rw [pow_mul]
    _ < (5 ^ 256) ^ k := Nat.pow_lt_pow_left (by decide +kernel) (by omega)

theorem msg_ext {l l' : List UInt8} (h : l.length = 32) (h' : l'.length = 32) (hb : ∀ b : Fin 256, BytesToBits l b.val = BytesToBits l' b.val) : l = l' := by
  have e : ByteDecode 1 l = ByteDecode 1 l' := by
    funext b
    unfold ByteDecode bitsVal
    simp only [Finset.sum_range_one, mul_one, add_zero, hb]
  rw [← byteEncode_byteDecode 1 l (by rw [h]) Nat.one_pos, e, byteEncode_byteDecode 1 l' (by rw [h']) Nat.one_pos]

theorem list_ext_bits {L L' : List (List UInt8)} {n : Nat} (h : L.length = n) (h' : L'.length = n) (hm : ∀ x ∈ L, x.length = 32) (hm' : ∀ x ∈ L', x.length = 32)
    (hb : ∀ (j : Fin n) (b : Fin 256), BytesToBits (L.getD j.val []) b.val = BytesToBits (L'.getD j.val []) b.val) : L = L' := by
  refine List.ext_getElem (h.trans h'.symm) fun j h1 h2 => msg_ext (hm _ (List.getElem_mem h1)) (hm' _ (List.getElem_mem h2)) fun b => ?_
  have := hb ⟨j, h ▸ h1⟩ b
  simp only [List.getD_eq_getElem?_getD, List.getElem?_eq_getElem h1, List.getElem?_eq_getElem h2, Option.getD_some] at this
  exact this

/-- C92. `2 k` ciphertexts are not enough: however they are chosen, there are two secret keys with the same answers. -/
theorem C92_needed (p : ParamSet) (ask : List (List UInt8) → List UInt8) (n : Nat) (hn : n ≤ 2 * (fips p).k) :
    ∃ s s', SmallKey (fips p) s ∧ SmallKey (fips p) s' ∧ keyOfSmall (fips p) s ≠ keyOfSmall (fips p) s' ∧
      answers (fips p) (keyOfSmall (fips p) s) ask n = answers (fips p) (keyOfSmall (fips p) s') ask n := by
  have hη : (fips p).η₁ ≤ 3 ∧ 2 ≤ (fips p).η₁ ∧ 0 < (fips p).k := by cases p <;> decide
  generalize fips p = P at *
  have small : ∀ x : Fin P.k → Fin 256 → Fin 5, SmallKey P (smallOf x) := fun x i n => by
    unfold smallOf
    split
    · rename_i h
      have := (x ⟨i, h⟩ n).isLt
      omega
    · omega
  have hcard : Fintype.card (Fin n → Fin 256 → Bool) < Fintype.card (Fin P.k → Fin 256 → Fin 5) := by
    simp only [Fintype.card_fun, Fintype.card_fin, Fintype.card_bool]
    exact card_lt _ _ hη.2.2 hn
  obtain ⟨x, y, hxy, hF⟩ := Fintype.exists_ne_map_eq_of_card_lt
    (fun (x : Fin P.k → Fin 256 → Fin 5) (j : Fin n) (b : Fin 256) => BytesToBits ((answers P (keyOfSmall P (smallOf x)) ask n).getD j.val []) b.val) hcard
  refine ⟨smallOf x, smallOf y, small x, small y, fun h => hxy ?_, ?_⟩
  · funext i m
    have := keyOfSmall_inj _ hη.1 (small x) (small y) h i.isLt m
    unfold smallOf at this
    rw [dif_pos i.isLt, dif_pos i.isLt] at this
    have e : ((x i m).val : Int) - 2 = (y i m).val - 2 := this
    exact Fin.ext (by omega)
  · exact list_ext_bits (answers_length _ _ _ _) (answers_length _ _ _ _) (answers_mem _ _ _ _) (answers_mem _ _ _ _) fun j b => congrFun (congrFun hF j) b

/-! ## Only the question whether the message is a given one -/

/-- The message with bit `n` set and no other. -/
def unitMsg (n : Fin 256) : List UInt8 := ByteEncode 1 fun j => if j = n then 1 else 0
/-- The message without bits. -/
def zeroMsg : List UInt8 := ByteEncode 1 fun _ => 0

/-- The compressed coefficient of v for `t = 0`. -/
def coeffBase : ParamSet → Nat
  | .k4 => 21
  | _ => 9

/-- The ciphertext that tells whether coefficient `n` of polynomial `i` of the secret is at least `t - 2`. -/
def coeffProbe (p : ParamSet) (i : Nat) (n : Fin 256) (t : Nat) : List UInt8 :=
  probe (fips p) i 64 fun j => if j = n then coeffBase p + t else 0

/-- The secret key from the answers `y i n t` to the questions whether coefficient `n` of polynomial `i` is at least `t - 2`, for `t` from 0 to 5. -/
def keyOfAnswers (P : Params) (y : Nat → Fin 256 → Nat → Bool) : List UInt8 := keyOfSmall P fun i n => ((List.range 6).countP (y i n) : Int) - 3

theorem coeff_bits (p : ParamSet) (x : Int) (h : -3 ≤ x) (h' : x ≤ 3) (t : Nat) (ht : t < 6) :
    Compress 1 (Decompress (fips p).dv (coeffBase p + t) - (x : Zq) * Decompress (fips p).du 64) = (if (t : Int) ≤ x + 2 then 1 else 0) ∧
      Compress 1 (Decompress (fips p).dv 0 - (x : Zq) * Decompress (fips p).du 64) = 0 := by
  have hv : ∀ y, Decompress (fips p).dv y = (((3329 * y + 2 ^ ((fips p).dv - 1)) / 2 ^ ((fips p).dv - 1 + 1) : Nat) : Zq) := fun y => by cases p <;> exact decompress_nat _ y
  have hu : ∀ y, Decompress (fips p).du y = (((3329 * y + 2 ^ ((fips p).du - 1)) / 2 ^ ((fips p).du - 1 + 1) : Nat) : Zq) := fun y => by cases p <;> exact decompress_nat _ y
  simp only [compress1, hv, hu]
  have hx : x = -3 ∨ x = -2 ∨ x = -1 ∨ x = 0 ∨ x = 1 ∨ x = 2 ∨ x = 3 := by omega
  have hT : ∀ t < 6, ∀ x ∈ [-3, -2, -1, 0, 1, 2, (3 : Int)], (if 833 ≤ ((((3329 * (coeffBase p + t) + 2 ^ ((fips p).dv - 1)) / 2 ^ ((fips p).dv - 1 + 1) : Nat) : Zq) -
      (x : Zq) * (((3329 * 64 + 2 ^ ((fips p).du - 1)) / 2 ^ ((fips p).du - 1 + 1) : Nat) : Zq)).val ∧ ((((3329 * (coeffBase p + t) + 2 ^ ((fips p).dv - 1)) /
      2 ^ ((fips p).dv - 1 + 1) : Nat) : Zq) - (x : Zq) * (((3329 * 64 + 2 ^ ((fips p).du - 1)) / 2 ^ ((fips p).du - 1 + 1) : Nat) : Zq)).val ≤ 2496 then 1 else 0) =
      (if (t : Int) ≤ x + 2 then 1 else 0) := by cases p <;> decide +kernel
  refine ⟨hT t ht x (by simpa using hx), ?_⟩
  rcases hx with rfl | rfl | rfl | rfl | rfl | rfl | rfl <;> cases p <;> decide +kernel

theorem unit_ne_zero (n : Fin 256) : zeroMsg ≠ unitMsg n := by
  intro h
  have h1 := congrArg (ByteDecode 1) h
  unfold zeroMsg unitMsg at h1
  rw [byteDecode_byteEncode _ _ fun _ => by decide, byteDecode_byteEncode _ _ fun j => by split <;> decide] at h1
  have := congrFun h1 n
  simp at this

/-- C92. The ciphertext `coeffProbe p i n t` decrypts to one of two messages, and which of them tells whether the coefficient is at least `t - 2`. -/
theorem C92_coeff (p : ParamSet) (s : Nat → Fin 256 → Int) (hs : SmallKey (fips p) s) (i : Nat) (hi : i < (fips p).k) (n : Fin 256) (t : Nat) (ht : t < 6) :
    K_PKE_Decrypt (fips p) (keyOfSmall (fips p) s) (coeffProbe p i n t) = if (t : Int) ≤ s i n + 2 then unitMsg n else zeroMsg := by
  have hη : (fips p).η₁ ≤ 3 := by cases p <;> decide
  have hb : ∀ j, -3 ≤ s i j ∧ s i j ≤ 3 := fun j => by have := hs i j; omega
  have hv : coeffBase p + t < 2 ^ (fips p).dv := by
    cases p
    · show 9 + t < 16; omega
    · show 9 + t < 16; omega
    · show 21 + t < 32; omega
  unfold coeffProbe
  rw [decrypt_probe _ _ hi (by cases p <;> decide) fun j => by
    split
    · exact hv
    · exact Nat.two_pow_pos _]
  have e : ∀ j, Compress 1 (Decompress (fips p).dv (if j = n then coeffBase p + t else 0) - (s i j : Zq) * Decompress (fips p).du 64) =
      if j = n ∧ (t : Int) ≤ s i n + 2 then 1 else 0 := fun j => by
    by_cases h : j = n
    · subst h
      simp only [if_true, true_and]
      exact (coeff_bits p (s i j) (hb j).1 (hb j).2 t ht).1
    · simp only [h, if_false, false_and]
      exact (coeff_bits p (s i j) (hb j).1 (hb j).2 t ht).2
  rw [show (fun j => Compress 1 (Decompress (fips p).dv (if j = n then coeffBase p + t else 0) - (s i j : Zq) * Decompress (fips p).du 64)) =
      fun j => if j = n ∧ (t : Int) ≤ s i n + 2 then 1 else 0 from funext e]
  unfold unitMsg zeroMsg
  by_cases h : (t : Int) ≤ s i n + 2 <;> simp only [h, and_true, and_false, if_true, if_false]

theorem count_answers (x : Int) (h : -3 ≤ x) (h' : x ≤ 3) : ((List.range 6).countP (fun t : Nat => decide ((t : Int) ≤ x + 2)) : Int) - 3 = x := by
  have hx : x = -3 ∨ x = -2 ∨ x = -1 ∨ x = 0 ∨ x = 1 ∨ x = 2 ∨ x = 3 := by omega
  rcases hx with rfl | rfl | rfl | rfl | rfl | rfl | rfl <;> decide

/-- If the answers are right, they give the key. -/
theorem keyOfAnswers_eq (P : Params) (hη : P.η₁ ≤ 3) (s : Nat → Fin 256 → Int) (hs : SmallKey P s) (y : Nat → Fin 256 → Nat → Bool)
    (hy : ∀ i < P.k, ∀ n, ∀ t < 6, y i n t = decide ((t : Int) ≤ s i n + 2)) : keyOfAnswers P y = keyOfSmall P s := by
  unfold keyOfAnswers
  conv_rhs => unfold keyOfSmall
  conv_lhs => unfold keyOfSmall
  refine concat_congr fun i hi => congrArg ByteEncode12 (congrArg NTT (funext fun n => congrArg _ ?_))
  show ((List.range 6).countP (y i n) : Int) - 3 = s i n
  have e : (List.range 6).countP (y i n) = (List.range 6).countP (fun t : Nat => decide ((t : Int) ≤ s i n + 2)) :=
    List.countP_congr fun t ht => by rw [hy i hi n t (List.mem_range.1 ht)]
  rw [e]
  have := hs i n
  exact count_answers _ (by omega) (by omega)

/-- C92. Who may ask whether the decryption of a ciphertext is a given message gets the secret key of every key pair with `1536 k` questions, which do not depend on the key. -/
theorem C92_oracle (p : ParamSet) (N : Nat) (d ek dk : List UInt8) (h : K_PKE_KeyGen (fips p) N d = some (ek, dk)) :
    keyOfAnswers (fips p) (fun i n t => decide (K_PKE_Decrypt (fips p) dk (coeffProbe p i n t) = unitMsg n)) = dk := by
  obtain ⟨s, hs, rfl⟩ := keygen_small h
  refine keyOfAnswers_eq _ (by cases p <;> decide) s hs _ fun i hi n t ht => ?_
  rw [C92_coeff p s hs i hi n t ht]
  by_cases h : (t : Int) ≤ s i n + 2
  · rw [if_pos h]; simp [h]
  · rw [if_neg h]; simp [h, unit_ne_zero n]

/-! ## Decapsulation without the comparison -/

/-- What `crypto_kem_dec` would return without the comparison of the ciphertexts: the value that it has in `kr` before kem.c chooses between it and the rejection value,
and that it returns for the accepted ciphertexts (C90_z). -/
def uncompared (P : Params) (dk c : List UInt8) : List UInt8 := (SHA3_512 (decMsg P dk c ++ dkH P dk)).take 32

/-- C92. Decapsulation without the comparison gives away the secret key: the answers to `1536 k` ciphertexts, compared with hashes that need the public key only, give the vector s of every key pair, or a
collision of the hash. -/
theorem C92_uncompared (p : ParamSet) (N : Nat) (d z ek dk : List UInt8) (hz : z.length = 32) (h : KeyGen_internal (fips p) N d z = some (ek, dk)) :
    keyOfAnswers (fips p) (fun i n t => decide (uncompared (fips p) dk (coeffProbe p i n t) = (SHA3_512 (unitMsg n ++ SHA3_256 ek)).take 32)) = dkPke (fips p) dk ∨
      ∃ n, CollG (zeroMsg ++ SHA3_256 ek) (unitMsg n ++ SHA3_256 ek) := by
  obtain ⟨s, hs, hd⟩ : ∃ s, SmallKey (fips p) s ∧ dkPke (fips p) dk = keyOfSmall (fips p) s := by
    unfold KeyGen_internal at h
    cases e : K_PKE_KeyGen (fips p) N d with
    | none => rw [e] at h; cases h
    | some x =>
      rw [e] at h
      have h2 : some (x.1, x.2 ++ x.1 ++ H x.1 ++ z) = some (ek, dk) := h
      have h3 : x.2 ++ x.1 ++ H x.1 ++ z = dk := congrArg Prod.snd (Option.some.inj h2)
      obtain ⟨s, hs, es⟩ := keygen_small (ek := x.1) (dk := x.2) e
      refine ⟨s, hs, ?_⟩
      unfold dkPke
      rw [← h3, ← es, List.append_assoc, List.append_assoc]
      exact bytes_append_left (by rw [es]; exact keyOfSmall_length _ _)
  obtain ⟨_, _, hh, _⟩ := keygen_parts hz h
  by_cases hC : ∃ n, CollG (zeroMsg ++ SHA3_256 ek) (unitMsg n ++ SHA3_256 ek)
  · exact Or.inr hC
  left
  rw [hd]
  refine keyOfAnswers_eq _ (by cases p <;> decide) s hs _ fun i hi n t ht => ?_
  have e : uncompared (fips p) dk (coeffProbe p i n t) = (SHA3_512 ((if (t : Int) ≤ s i n + 2 then unitMsg n else zeroMsg) ++ SHA3_256 ek)).take 32 := by
    unfold uncompared decMsg
    rw [hd, C92_coeff p s hs i hi n t ht, hh]
    rfl
  rw [e]
  by_cases h : (t : Int) ≤ s i n + 2
  · rw [if_pos h]; simp only [h]
  · rw [if_neg h, decide_eq_false h, decide_eq_false]
    exact fun hc => hC ⟨n, fun e => unit_ne_zero n (List.append_cancel_right e), hc⟩

/-- Concrete cases. For the key pairs that the standard makes from the seed of zeros, the 6 messages (ML-KEM-512) give the secret key
and so do the answers to the questions whether a message is a given one. -/
example : ∃ ek dk, K_PKE_KeyGen ML_KEM_512 168 (List.replicate 32 0) = some (ek, dk) ∧
    recoverKey ML_KEM_512 (fun i e => K_PKE_Decrypt ML_KEM_512 dk (keyProbe .k2 i e)) = dk ∧
    keyOfAnswers ML_KEM_512 (fun i n t => decide (K_PKE_Decrypt ML_KEM_512 dk (coeffProbe .k2 i n t) = unitMsg n)) = dk := by
  obtain ⟨_, _, h0⟩ := kat_keygen []
  obtain ⟨dk, h, _⟩ := keygen_inv h0
  exact ⟨_, dk, h, C92_recover .k2 _ _ _ _ h, C92_oracle .k2 _ _ _ _ h⟩

/-- The same for decapsulation without the comparison, with any rejection key. -/
example (z : List UInt8) (hz : z.length = 32) : ∃ ek dk, KeyGen_internal ML_KEM_512 168 (List.replicate 32 0) z = some (ek, dk) ∧
    (keyOfAnswers ML_KEM_512 (fun i n t => decide (uncompared ML_KEM_512 dk (coeffProbe .k2 i n t) = (SHA3_512 (unitMsg n ++ SHA3_256 ek)).take 32)) = dkPke ML_KEM_512 dk ∨
      ∃ n, CollG (zeroMsg ++ SHA3_256 ek) (unitMsg n ++ SHA3_256 ek)) := by
  obtain ⟨ek, dk, h⟩ := kat_keygen z
  exact ⟨_, _, h, C92_uncompared .k2 _ _ _ _ _ hz h⟩

/-- The keys of C92_small: the secret with all coefficients 2, say, of ML-KEM-768 is below 3 and at least 2, as the answers say. -/
example : SmallKey (fips .k3) (fun _ _ => 2) ∧ K_PKE_Decrypt (fips .k3) (keyOfSmall (fips .k3) fun _ _ => 2) (coeffProbe .k3 0 0 5) = zeroMsg ∧
    K_PKE_Decrypt (fips .k3) (keyOfSmall (fips .k3) fun _ _ => 2) (coeffProbe .k3 0 0 4) = unitMsg 0 := by
  have h : SmallKey (fips .k3) (fun _ _ => 2) := fun _ _ => by
    show -((2 : Nat) : Int) ≤ 2 ∧ (2 : Int) ≤ (2 : Nat)
    decide
  exact ⟨h, by rw [C92_coeff .k3 _ h 0 (by decide) 0 5 (by decide)]; decide, by rw [C92_coeff .k3 _ h 0 (by decide) 0 4 (by decide)]; decide⟩

end Verif.Props
