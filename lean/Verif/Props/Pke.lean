import Verif.Props.AvxKem

/-! # Properties of the public-key encryption calls of both builds (C58)

`indcpa_keypair_derand`, `indcpa_enc` and `indcpa_dec` on their own, for arbitrary arguments, not only those that the KEM calls pass. `mo`, `po` and `co` are offsets of the
pointer arguments in their objects. For `junk` and `fuel` see Props/AvxKem.lean and Props/Kem.lean. -/

set_option autoImplicit false

namespace Verif.Props
open Verif.Model Verif.Spec Verif.Proof

attribute [local irreducible] indcpa_keypair_derand indcpa_enc indcpa_dec Avx.indcpa_keypair_derand Avx.indcpa_enc Avx.indcpa_dec

section
variable (p : ParamSet) (junk : Junk) (fuel : Nat)

theorem holds_iff_of_wrote {m m' : Mem UInt8} {o : Nat} {l l' : List UInt8} (h : m.Wrote m' o l) (hl : l.length = l'.length) : m'.Holds o l' ↔ l = l' := by
  constructor
  · intro h'
    refine List.ext_getElem hl fun i h1 h2 => ?_
    have := (h.holds i h1).symm.trans (h' i h2)
    simpa using this
  · rintro rfl
    exact h.holds

/-! ## Key generation -/

section
variable (pk sk coins : Mem UInt8) (d : List UInt8) (hd : coins.Holds 0 d) (hdl : d.length = 32) (hpk : 384 * (fips p).k + 32 ≤ pk.size) (hsk : 384 * (fips p).k ≤ sk.size)
include hd hdl hpk hsk

theorem pke_keypair_ref : RunsO (indcpa_keypair_derand p fuel pk sk coins) (K_PKE_KeyGen (fips p) (112 + 56 * fuel) d)
    (fun o s => pk.Wrote s.1 0 o.1 ∧ sk.Wrote s.2 0 o.2) :=
  keypair_runsO hd hdl (by cases p <;> exact hpk) (by cases p <;> exact hsk)

theorem pke_keypair_avx : RunsO (Avx.indcpa_keypair_derand p junk fuel pk sk coins) (K_PKE_KeyGen (fips p) (112 + 56 * fuel) d)
    (fun o s => pk.Wrote s.1 0 o.1 ∧ sk.Wrote s.2 0 o.2) :=
  Avx.keypair_runsO hd hdl (by cases p <;> exact hpk) (by cases p <;> exact hsk)

/-- C58. `indcpa_keypair_derand` of the reference code writes exactly the keys of K-PKE.KeyGen(d). -/
theorem C58_keypair (ek dk : List UInt8) (h : K_PKE_KeyGen (fips p) (112 + 56 * fuel) d = some (ek, dk)) :
    Runs (indcpa_keypair_derand p fuel pk sk coins) (fun s => pk.Wrote s.1 0 ek ∧ sk.Wrote s.2 0 dk) :=
  (pke_keypair_ref p fuel pk sk coins d hd hdl hpk hsk).runs h

/-- C58. The same for the AVX2 code. -/
theorem C58_keypair_avx (ek dk : List UInt8) (h : K_PKE_KeyGen (fips p) (112 + 56 * fuel) d = some (ek, dk)) :
    Runs (Avx.indcpa_keypair_derand p junk fuel pk sk coins) (fun s => pk.Wrote s.1 0 ek ∧ sk.Wrote s.2 0 dk) :=
  (pke_keypair_avx p junk fuel pk sk coins d hd hdl hpk hsk).runs h

/-- C58. Both calls fail to return for want of fuel on the same inputs, namely those where the standard's sampling needs more iterations. -/
theorem C58_keypair_diverges (h : K_PKE_KeyGen (fips p) (112 + 56 * fuel) d = none) :
    indcpa_keypair_derand p fuel pk sk coins = .diverge ∧ Avx.indcpa_keypair_derand p junk fuel pk sk coins = .diverge := by
  have h1 := pke_keypair_ref p fuel pk sk coins d hd hdl hpk hsk
  have h2 := pke_keypair_avx p junk fuel pk sk coins d hd hdl hpk hsk
  rw [h, runsO_none] at h1 h2
  exact ⟨h1, h2⟩

/-- C58. Both builds leave the same bytes in the whole of both output objects. -/
theorem C58_keypair_same : SameResult (Avx.indcpa_keypair_derand p junk fuel pk sk coins) (indcpa_keypair_derand p fuel pk sk coins) :=
  same_of_runsO (pke_keypair_avx p junk fuel pk sk coins d hd hdl hpk hsk) (pke_keypair_ref p fuel pk sk coins d hd hdl hpk hsk)
    fun _ _ _ h h' => Prod.ext (wrote_unique h.1 h'.1) (wrote_unique h.2 h'.2)

end

/-! ## Encryption -/

section
variable (c m pk coins : Mem UInt8) (mo po co : Nat) (ek M r : List UInt8) (hm : m.Holds mo M) (hml : M.length = 32) (hpk : pk.Holds po ek)
  (hpkl : ek.length = 384 * (fips p).k + 32) (hr : coins.Holds co r) (hrl : r.length = 32) (hc : ctLen (fips p) ≤ c.size)
include hm hml hpk hpkl hr hrl hc

theorem pke_enc_ref : RunsO (indcpa_enc p fuel c m mo pk po coins co) (K_PKE_Encrypt (fips p) (112 + 56 * fuel) ek M r) (fun o s => c.Wrote s 0 o) :=
  enc_runsO hm hml hpk (by rw [hpkl]; cases p <;> rfl) hr hrl (by cases p <;> exact hc)

theorem pke_enc_avx : RunsO (Avx.indcpa_enc p junk fuel c m mo pk po coins co) (K_PKE_Encrypt (fips p) (112 + 56 * fuel) ek M r) (fun o s => c.Wrote s 0 o) :=
  Avx.enc_runsO hm hml hpk (by rw [hpkl]; cases p <;> rfl) hr hrl (by cases p <;> exact hc)

/-- C58. `indcpa_enc` of the reference code writes exactly the ciphertext of K-PKE.Encrypt(ek, m, r), for every key string of the right length. -/
theorem C58_enc (ct : List UInt8) (h : K_PKE_Encrypt (fips p) (112 + 56 * fuel) ek M r = some ct) :
    Runs (indcpa_enc p fuel c m mo pk po coins co) (fun s => c.Wrote s 0 ct) :=
  (pke_enc_ref p fuel c m pk coins mo po co ek M r hm hml hpk hpkl hr hrl hc).runs h

/-- C58. The same for the AVX2 code. -/
theorem C58_enc_avx (ct : List UInt8) (h : K_PKE_Encrypt (fips p) (112 + 56 * fuel) ek M r = some ct) :
    Runs (Avx.indcpa_enc p junk fuel c m mo pk po coins co) (fun s => c.Wrote s 0 ct) :=
  (pke_enc_avx p junk fuel c m pk coins mo po co ek M r hm hml hpk hpkl hr hrl hc).runs h

theorem C58_enc_diverges (h : K_PKE_Encrypt (fips p) (112 + 56 * fuel) ek M r = none) :
    indcpa_enc p fuel c m mo pk po coins co = .diverge ∧ Avx.indcpa_enc p junk fuel c m mo pk po coins co = .diverge := by
  have h1 := pke_enc_ref p fuel c m pk coins mo po co ek M r hm hml hpk hpkl hr hrl hc
  have h2 := pke_enc_avx p junk fuel c m pk coins mo po co ek M r hm hml hpk hpkl hr hrl hc
  rw [h, runsO_none] at h1 h2
  exact ⟨h1, h2⟩

theorem C58_enc_same : SameResult (Avx.indcpa_enc p junk fuel c m mo pk po coins co) (indcpa_enc p fuel c m mo pk po coins co) :=
  same_of_runsO (pke_enc_avx p junk fuel c m pk coins mo po co ek M r hm hml hpk hpkl hr hrl hc) (pke_enc_ref p fuel c m pk coins mo po co ek M r hm hml hpk hpkl hr hrl hc)
    fun _ _ _ h h' => wrote_unique h h'

end

/-! ## Decryption -/

section
variable (m c sk : Mem UInt8) (mo : Nat) (ct dk : List UInt8) (hc : c.Holds 0 ct) (hcl : ct.length = ctLen (fips p)) (hsk : sk.Holds 0 dk)
  (hskl : dk.length = 384 * (fips p).k) (hm : mo + 32 ≤ m.size)
include hc hcl hsk hskl hm

/-- C58. `indcpa_dec` of the reference code always returns and writes exactly K-PKE.Decrypt(dk, c), for every key and ciphertext string of the right length. -/
theorem C58_dec : Runs (indcpa_dec p m mo c sk) (fun s => m.Wrote s mo (K_PKE_Decrypt (fips p) dk ct)) :=
  dec_runs rfl hc (by rw [hcl]; cases p <;> rfl) hsk (by rw [hskl]; cases p <;> rfl) hm

/-- C58. The same for the AVX2 code. -/
theorem C58_dec_avx : Runs (Avx.indcpa_dec p m mo c sk) (fun s => m.Wrote s mo (K_PKE_Decrypt (fips p) dk ct)) :=
  Avx.indcpa_dec_runs rfl hc (by rw [hcl]; cases p <;> rfl) hsk (by rw [hskl]; cases p <;> rfl) hm

theorem C58_dec_same : SameResult (Avx.indcpa_dec p m mo c sk) (indcpa_dec p m mo c sk) :=
  same_of_runsO (o := some ()) (Q := fun _ s => m.Wrote s mo (K_PKE_Decrypt (fips p) dk ct)) (C58_dec_avx p m c sk mo ct dk hc hcl hsk hskl hm)
    (C58_dec p m c sk mo ct dk hc hcl hsk hskl hm) fun _ _ _ h h' => wrote_unique h h'

end

/-- C58. Decrypting with `indcpa_dec` what `indcpa_enc` made under a key of `indcpa_keypair_derand` gives the message back if and only if the noise is below the decoding
threshold in every coefficient. The message may be any 32 bytes, the coins any 32 bytes. -/
theorem C58_roundtrip (f1 f2 : Nat) (pk sk coins c m rc m2 : Mem UInt8) (mo co mo2 : Nat) (d M r : List UInt8)
    (hd : coins.Holds 0 d) (hdl : d.length = 32) (hm : m.Holds mo M) (hml : M.length = 32) (hr : rc.Holds co r) (hrl : r.length = 32)
    (hpk : 384 * (fips p).k + 32 ≤ pk.size) (hsk : 384 * (fips p).k ≤ sk.size) (hc : ctLen (fips p) ≤ c.size) (hm2 : mo2 + 32 ≤ m2.size)
    (kv : Mem UInt8 × Mem UInt8) (kt : Trace) (hk : indcpa_keypair_derand p f1 pk sk coins = .ok kv kt)
    (ev : Mem UInt8) (et : Trace) (he : indcpa_enc p f2 c m mo kv.1 0 rc co = .ok ev et)
    (N : Nat) (A : Nat → Nat → Rq)
    (hA : ∀ i < (fips p).k, ∀ j < (fips p).k, SampleNTT N ((G (d ++ [UInt8.ofNat (fips p).k])).1 ++ [UInt8.ofNat j, UInt8.ofNat i]) = some (A i j)) :
    Runs (indcpa_dec p m2 mo2 ev kv.2) (fun s => s.Holds mo2 M ↔ WithinThreshold M (decryptionNoise (fips p) A (G (d ++ [UInt8.ofNat (fips p).k])).2 M r)) := by
  obtain ⟨⟨ek, dk⟩, hK, hek, hdk⟩ := ok_of_runsO (pke_keypair_ref p f1 pk sk coins d hd hdl hpk hsk) hk
  dsimp only at hek hdk
  have hl := keygen_length hK
  obtain ⟨ct, hE, hct⟩ := ok_of_runsO (pke_enc_ref p f2 c m kv.1 rc mo 0 co ek M r hm hml hek.holds hl.1 hr hrl hc) he
  refine (C58_dec p m2 ev kv.2 mo2 ct dk hct.holds (encrypt_length hE) hdk.holds hl.2 hm2).mono fun s hs => ?_
  rw [← C04_pke_exact p N _ _ d M r ek dk ct A hA hml hK hE]
  exact holds_iff_of_wrote hs (by rw [decrypt_length, hml])

/-- C58. The same for the AVX2 code. -/
theorem C58_roundtrip_avx (junk2 : Junk) (f1 f2 : Nat) (pk sk coins c m rc m2 : Mem UInt8) (mo co mo2 : Nat) (d M r : List UInt8)
    (hd : coins.Holds 0 d) (hdl : d.length = 32) (hm : m.Holds mo M) (hml : M.length = 32) (hr : rc.Holds co r) (hrl : r.length = 32)
    (hpk : 384 * (fips p).k + 32 ≤ pk.size) (hsk : 384 * (fips p).k ≤ sk.size) (hc : ctLen (fips p) ≤ c.size) (hm2 : mo2 + 32 ≤ m2.size)
    (kv : Mem UInt8 × Mem UInt8) (kt : Trace) (hk : Avx.indcpa_keypair_derand p junk f1 pk sk coins = .ok kv kt)
    (ev : Mem UInt8) (et : Trace) (he : Avx.indcpa_enc p junk2 f2 c m mo kv.1 0 rc co = .ok ev et)
    (N : Nat) (A : Nat → Nat → Rq)
    (hA : ∀ i < (fips p).k, ∀ j < (fips p).k, SampleNTT N ((G (d ++ [UInt8.ofNat (fips p).k])).1 ++ [UInt8.ofNat j, UInt8.ofNat i]) = some (A i j)) :
    Runs (Avx.indcpa_dec p m2 mo2 ev kv.2) (fun s => s.Holds mo2 M ↔ WithinThreshold M (decryptionNoise (fips p) A (G (d ++ [UInt8.ofNat (fips p).k])).2 M r)) := by
  obtain ⟨⟨ek, dk⟩, hK, hek, hdk⟩ := ok_of_runsO (pke_keypair_avx p junk f1 pk sk coins d hd hdl hpk hsk) hk
  dsimp only at hek hdk
  have hl := keygen_length hK
  obtain ⟨ct, hE, hct⟩ := ok_of_runsO (pke_enc_avx p junk2 f2 c m kv.1 rc mo 0 co ek M r hm hml hek.holds hl.1 hr hrl hc) he
  refine (C58_dec_avx p m2 ev kv.2 mo2 ct dk hct.holds (encrypt_length hE) hdk.holds hl.2 hm2).mono fun s hs => ?_
  rw [← C04_pke_exact p N _ _ d M r ek dk ct A hA hml hK hE]
  exact holds_iff_of_wrote hs (by rw [decrypt_length, hml])

/-- A case of key generation: for 32 zero bytes as coins, k = 2 and one extra block per entry, both calls return. -/
example : ∃ ek dk, K_PKE_KeyGen ML_KEM_512 168 (List.replicate 32 0) = some (ek, dk) ∧
    Runs (indcpa_keypair_derand .k2 1 (Mem.uninit UInt8 800) (Mem.uninit UInt8 768) (Mem.ofList (List.replicate 32 0)))
      (fun s => (Mem.uninit UInt8 800).Wrote s.1 0 ek ∧ (Mem.uninit UInt8 768).Wrote s.2 0 dk) ∧
    Runs (Avx.indcpa_keypair_derand .k2 junk 1 (Mem.uninit UInt8 800) (Mem.uninit UInt8 768) (Mem.ofList (List.replicate 32 0)))
      (fun s => (Mem.uninit UInt8 800).Wrote s.1 0 ek ∧ (Mem.uninit UInt8 768).Wrote s.2 0 dk) := by
  obtain ⟨_, _, h0⟩ := kat_keygen []
  obtain ⟨dk, h, _⟩ := keygen_inv h0
  have h1 : (Mem.ofList (List.replicate 32 (0 : UInt8))).Holds 0 (List.replicate 32 0) := holds_replicate (by omega)
  have hl : (List.replicate 32 (0 : UInt8)).length = 32 := List.length_replicate
  refine ⟨_, dk, h, ?_⟩
  generalize List.replicate 32 (0 : UInt8) = d at *
  generalize Mem.ofList d = cm at *
  exact ⟨C58_keypair .k2 1 _ _ cm d h1 hl (by rw [Mem.size_uninit]; decide) (by rw [Mem.size_uninit]; decide) _ dk h,
    C58_keypair_avx .k2 junk 1 _ _ cm d h1 hl (by rw [Mem.size_uninit]; decide) (by rw [Mem.size_uninit]; decide) _ dk h⟩

/-- A case of encryption: a key ending in a seed for which one extra block suffices; message and coins are in the middle of their objects. -/
example (M r : List UInt8) (hM : M.length = 32) (hr : r.length = 32) : ∃ ct, ct.length = 768 ∧
    Runs (indcpa_enc .k2 1 (Mem.uninit UInt8 768) (Mem.ofList (r ++ M)) 32 (Mem.ofList (List.replicate 768 0 ++ katRho)) 0 (Mem.ofList (r ++ M)) 0)
      (fun s => (Mem.uninit UInt8 768).Wrote s 0 ct) := by
  obtain ⟨ct, h⟩ := kat_encrypt (ek := List.replicate 768 0 ++ katRho) (by decide +kernel) M r
  have h2 := Mem.holds_ofList (r ++ M)
  rw [Mem.Holds.append, hr, Nat.zero_add] at h2
  have h3 := Mem.holds_ofList (List.replicate 768 0 ++ katRho)
  have h4 : (List.replicate 768 0 ++ katRho).length = 800 := by decide +kernel
  refine ⟨ct, encrypt_length h, ?_⟩
  generalize List.replicate 768 0 ++ katRho = ek at *
  exact C58_enc .k2 1 _ _ _ _ 32 0 0 ek M r h2.2 hM h3 h4 h2.1 hr (by rw [Mem.size_uninit]; decide) ct h

end

end Verif.Props
