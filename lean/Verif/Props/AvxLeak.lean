import Verif.Avx.Leak
import Verif.Proof.LeakRandom
import Verif.Props.Leak
import Verif.Props.AvxRandom

/-! # What the calls of the AVX2 code (C56) and the randomised calls of both builds (C57) leak

The trace is that of Props/Leak.lean; for vector instructions it has the object and the offset of each load and store. The gathers of the four-way SHAKE and the loads from the
table `idx` are in it, too. -/

set_option autoImplicit false

namespace Verif.Props
open Verif.Model Verif.Spec Verif.Proof

/-- The part `[a, a + 32)` of a string that a memory holds. -/
theorem holds_bytes {s : Mem UInt8} {L : List UInt8} {a : Nat} (h : s.Holds 0 L) (l : a + 32 ≤ L.length) : s.Holds a (bytes L a (a + 32)) := by
  intro i hi
  simp only [bytes, Nat.add_sub_cancel_left, List.length_take, List.length_drop] at hi
  have := h (a + i) (by omega)
  rw [Nat.zero_add] at this
  rw [this]
  simp only [bytes, Nat.add_sub_cancel_left, List.getElem_take, List.getElem_drop]

theorem bytes_length32 {L : List UInt8} {a : Nat} (l : a + 32 ≤ L.length) : (bytes L a (a + 32)).length = 32 := by
  simp only [bytes, Nat.add_sub_cancel_left, List.length_take, List.length_drop]; omega

section
variable (p : ParamSet) (junk junk' : Junk) (fuel : Nat)

/-! ## C56 -/

/-- C56. Key generation of the AVX2 code from any two coins for which ρ agrees. The contents of uninitialised memory do not matter either. -/
theorem C56_keypair (pk sk coins pk' sk' coins' : Mem UInt8) (d z d' z' : List UInt8) (hd : coins.Holds 0 d) (hdl : d.length = 32) (hz : coins.Holds 32 z)
    (hzl : z.length = 32) (hpk : ekLen (fips p) ≤ pk.size) (hsk : dkLen (fips p) ≤ sk.size) (hd' : coins'.Holds 0 d') (hdl' : d'.length = 32) (hz' : coins'.Holds 32 z')
    (hzl' : z'.length = 32) (hpk' : ekLen (fips p) ≤ pk'.size) (hsk' : dkLen (fips p) ≤ sk'.size)
    (hρ : (SHA3_512 (d ++ [UInt8.ofNat (fips p).k])).take 32 = (SHA3_512 (d' ++ [UInt8.ofNat (fips p).k])).take 32) :
    SameLeakage (Avx.crypto_kem_keypair_derand p junk fuel pk sk coins) (Avx.crypto_kem_keypair_derand p junk' fuel pk' sk' coins') := by
  refine sameLeakage_of (Avx.ni_crypto_kem_keypair_derand hd hdl hd' hdl' ?_) (noUB_of_runsO (keypair_avx p junk fuel pk sk coins d z hd hdl hz hzl hpk hsk))
    (noUB_of_runsO (keypair_avx p junk' fuel pk' sk' coins' d' z' hd' hdl' hz' hzl' hpk' hsk'))
  rw [kbyte]
  exact hρ

/-- C56. Encapsulation of the AVX2 code to any two public keys with the same seed, with any coins. -/
theorem C56_enc (ct ss pk coins ct' ss' pk' coins' : Mem UInt8) (ek m ek' m' : List UInt8) (hm : coins.Holds 0 m) (hml : m.length = 32) (hek : pk.Holds 0 ek)
    (hekl : ek.length = ekLen (fips p)) (hct : ctLen (fips p) ≤ ct.size) (hss : 32 ≤ ss.size) (hm' : coins'.Holds 0 m') (hml' : m'.length = 32) (hek' : pk'.Holds 0 ek')
    (hekl' : ek'.length = ekLen (fips p)) (hct' : ctLen (fips p) ≤ ct'.size) (hss' : 32 ≤ ss'.size)
    (hρ : bytes ek (384 * (fips p).k) (384 * (fips p).k + 32) = bytes ek' (384 * (fips p).k) (384 * (fips p).k + 32)) :
    SameLeakage (Avx.crypto_kem_enc_derand p junk fuel ct ss pk coins) (Avx.crypto_kem_enc_derand p junk' fuel ct' ss' pk' coins') := by
  have e : KYBER_POLYVECBYTES p = 384 * (fips p).k := by cases p <;> rfl
  have l : 384 * (fips p).k + 32 ≤ ek.length := le_of_eq hekl.symm
  have h1 := holds_bytes hek l
  have h2 := holds_bytes hek' (le_of_eq hekl'.symm : 384 * (fips p).k + 32 ≤ ek'.length)
  rw [← hρ] at h2
  rw [← e] at h1 h2
  exact sameLeakage_of (Avx.ni_crypto_kem_enc_derand h1 h2 (by rw [e]; exact bytes_length32 l))
    (C52_enc p junk fuel ct ss pk coins ek m hm hml hek hekl hct hss) (C52_enc p junk' fuel ct' ss' pk' coins' ek' m' hm' hml' hek' hekl' hct' hss')

/-- C56. Decapsulation of the AVX2 code of any two ciphertexts under any two secret keys in which the stored seed of the matrix is the same: the secret vector, the stored key,
hash and z, the ciphertext and so the outcome of the comparison are arbitrary on both sides. -/
theorem C56_dec (ss ct sk ss' ct' sk' : Mem UInt8) (c dk c' dk' : List UInt8) (hc : ct.Holds 0 c) (hcl : c.length = ctLen (fips p)) (hdk : sk.Holds 0 dk)
    (hdkl : dk.length = dkLen (fips p)) (hss : 32 ≤ ss.size) (hc' : ct'.Holds 0 c') (hcl' : c'.length = ctLen (fips p)) (hdk' : sk'.Holds 0 dk')
    (hdkl' : dk'.length = dkLen (fips p)) (hss' : 32 ≤ ss'.size)
    (hρ : bytes dk (768 * (fips p).k) (768 * (fips p).k + 32) = bytes dk' (768 * (fips p).k) (768 * (fips p).k + 32)) :
    SameLeakage (Avx.crypto_kem_dec p junk fuel ss ct sk) (Avx.crypto_kem_dec p junk' fuel ss' ct' sk') := by
  have e : KYBER_INDCPA_SECRETKEYBYTES p + KYBER_POLYVECBYTES p = 768 * (fips p).k := by cases p <;> rfl
  have l : 768 * (fips p).k + 32 ≤ dk.length := by rw [hdkl]; unfold dkLen; omega
  have h1 := holds_bytes hdk l
  have h2 := holds_bytes hdk' (by rw [hdkl']; unfold dkLen; omega : 768 * (fips p).k + 32 ≤ dk'.length)
  rw [← hρ] at h2
  rw [← e] at h1 h2
  exact sameLeakage_of (Avx.ni_crypto_kem_dec h1 h2 (by rw [e]; exact bytes_length32 l))
    (C52_dec p junk fuel ss ct sk c dk hc hcl hdk hdkl hss) (C52_dec p junk' fuel ss' ct' sk' c' dk' hc' hcl' hdk' hdkl' hss')

/-- C56. So two decapsulations with one secret key leak the same, whether the ciphertext is accepted or not. -/
theorem C56_dec_same_key (ss ct sk ss' ct' : Mem UInt8) (c dk c' : List UInt8) (hc : ct.Holds 0 c) (hcl : c.length = ctLen (fips p)) (hdk : sk.Holds 0 dk)
    (hdkl : dk.length = dkLen (fips p)) (hss : 32 ≤ ss.size) (hc' : ct'.Holds 0 c') (hcl' : c'.length = ctLen (fips p)) (hss' : 32 ≤ ss'.size) :
    SameLeakage (Avx.crypto_kem_dec p junk fuel ss ct sk) (Avx.crypto_kem_dec p junk' fuel ss' ct' sk) :=
  C56_dec p junk junk' fuel ss ct sk ss' ct' sk c dk c' dk hc hcl hdk hdkl hss hc' hcl' hdk hdkl hss' rfl

/-- The hypotheses can hold: two different secret keys and ciphertexts. -/
example : SameLeakage
    (Avx.crypto_kem_dec p junk fuel (Mem.uninit UInt8 32) (Mem.ofList (List.replicate (ctLen (fips p)) 0)) (Mem.ofList (List.replicate (dkLen (fips p)) 0)))
    (Avx.crypto_kem_dec p junk' fuel (Mem.uninit UInt8 32) (Mem.ofList (List.replicate (ctLen (fips p)) 1))
      (Mem.ofList (List.replicate (768 * (fips p).k) 7 ++ List.replicate 32 0 ++ List.replicate 64 9))) := by
  refine C56_dec p junk junk' fuel _ _ _ _ _ _ _ _ _ _ (Mem.holds_ofList _) ?_ (Mem.holds_ofList _) ?_ ?_ (Mem.holds_ofList _) ?_ (Mem.holds_ofList _) ?_ ?_ ?_
  all_goals cases p <;> decide +kernel

/-- The notion can fail: the vectorised rejection sampling leaks its (public) input. -/
example : ¬ SameLeakage (Avx.idxRow 0) (Avx.idxRow 1) := fun h => absurd h.trace (by decide +kernel)

/-! ## C57 -/

theorem sameLeakage_bind {α β : Type} {m m' : C α} {f f' : α → C β} {R : α → α → Prop} (h : NI m m' R) (hu : NoUB m) (hu' : NoUB m')
    (hf : ∀ a b t t', m = .ok a t → m' = .ok b t' → R a b → SameLeakage (f a) (f' b)) : SameLeakage (m >>= f) (m' >>= f') := by
  rcases h.elim hu hu' with ⟨a, b, t, rfl, rfl, hr⟩ | ⟨rfl, rfl⟩
  · show SameLeakage (C.bind _ _) (C.bind _ _)
    rcases hf a b t t rfl rfl hr with ⟨v, w, s, e1, e2⟩ | ⟨e1, e2⟩
    · simp only [C.bind, e1, e2]; exact Or.inl ⟨v, w, _, rfl, rfl⟩
    · simp only [C.bind, e1, e2]; exact Or.inr ⟨rfl, rfl⟩
  · exact Or.inr ⟨rfl, rfl⟩

theorem SameLeakage.map {α β : Type} {m m' : C α} {f f' : α → β} (h : SameLeakage m m') : SameLeakage (m >>= fun a => pure (f a)) (m' >>= fun a => pure (f' a)) := by
  rcases h with ⟨v, w, t, rfl, rfl⟩ | ⟨rfl, rfl⟩
  · exact Or.inl ⟨_, _, _, rfl, rfl⟩
  · exact Or.inr ⟨rfl, rfl⟩

theorem osBytes_split (os : OS) : osBytes os 64 = osBytes os 32 ++ osBytes ⟨os.src, os.pos + 32, os.calls⟩ 32 := streamBytes_add os.src os.pos 32 32

theorem coins64 {os : OS} {coins : Mem UInt8} (hw : (Mem.uninit UInt8 (2 * KYBER_SYMBYTES)).Wrote coins 0 (osBytes os 64)) :
    coins.Holds 0 (osBytes os 32) ∧ coins.Holds 32 (osBytes ⟨os.src, os.pos + 32, os.calls⟩ 32) := by
  have h := hw.holds
  rw [osBytes_split, Mem.Holds.append, Nat.zero_add, show (osBytes os 32).length = 32 by simp [osBytes]] at h
  exact h

/-- C57. `crypto_kem_keypair`: whatever the operating system does, what the call leaks depends on the results of its system calls (success and length, interrupts, failure) and
on the public seed ρ, but not otherwise on the random bytes. For the reference build. -/
theorem C57_keypair (os os' : OS) (pk sk pk' sk' : Mem UInt8) (hc : os.calls = os'.calls) (hpk : ekLen (fips p) ≤ pk.size) (hsk : dkLen (fips p) ≤ sk.size)
    (hpk' : ekLen (fips p) ≤ pk'.size) (hsk' : dkLen (fips p) ≤ sk'.size)
    (hρ : (SHA3_512 (osBytes os 32 ++ [UInt8.ofNat (fips p).k])).take 32 = (SHA3_512 (osBytes os' 32 ++ [UInt8.ofNat (fips p).k])).take 32) :
    SameLeakage (crypto_kem_keypair p fuel os pk sk) (crypto_kem_keypair p fuel os' pk' sk') := by
  have hsz : 0 + 2 * KYBER_SYMBYTES ≤ (Mem.uninit UInt8 (2 * KYBER_SYMBYTES)).size := by rw [Mem.size_uninit, Nat.zero_add]
  unfold crypto_kem_keypair
  refine sameLeakage_bind (ni_randombytes hc) (noUB_of_runsO (randombytes_runsO hsz)) (noUB_of_runsO (randombytes_runsO hsz)) fun r r' t t' hr hr' e => ?_
  cases r with
  | none =>
    cases r' with
    | none => exact Or.inl ⟨_, _, _, rfl, rfl⟩
    | some r' => cases e
  | some r =>
    cases r' with
    | none => cases e
    | some r' =>
      obtain ⟨coins, os1⟩ := r
      obtain ⟨coins', os1'⟩ := r'
      obtain ⟨hw, -, -⟩ := C29_returns_full os _ 0 _ hsz _ _ t hr
      obtain ⟨hw', -, -⟩ := C29_returns_full os' _ 0 _ hsz _ _ t' hr'
      exact (C08_keypair p fuel pk sk coins pk' sk' coins' _ _ _ _ (coins64 hw).1 (by simp [osBytes]) (coins64 hw).2 (by simp [osBytes]) hpk hsk
        (coins64 hw').1 (by simp [osBytes]) (coins64 hw').2 (by simp [osBytes]) hpk' hsk' hρ).map

/-- C57. The same for the AVX2 build. -/
theorem C57_keypair_avx (os os' : OS) (pk sk pk' sk' : Mem UInt8) (hc : os.calls = os'.calls) (hpk : ekLen (fips p) ≤ pk.size) (hsk : dkLen (fips p) ≤ sk.size)
    (hpk' : ekLen (fips p) ≤ pk'.size) (hsk' : dkLen (fips p) ≤ sk'.size)
    (hρ : (SHA3_512 (osBytes os 32 ++ [UInt8.ofNat (fips p).k])).take 32 = (SHA3_512 (osBytes os' 32 ++ [UInt8.ofNat (fips p).k])).take 32) :
    SameLeakage (Avx.crypto_kem_keypair p junk fuel os pk sk) (Avx.crypto_kem_keypair p junk' fuel os' pk' sk') := by
  have hsz : 0 + 2 * KYBER_SYMBYTES ≤ (Mem.uninit UInt8 (2 * KYBER_SYMBYTES)).size := by rw [Mem.size_uninit, Nat.zero_add]
  unfold Avx.crypto_kem_keypair
  refine sameLeakage_bind (ni_randombytes hc) (noUB_of_runsO (randombytes_runsO hsz)) (noUB_of_runsO (randombytes_runsO hsz)) fun r r' t t' hr hr' e => ?_
  cases r with
  | none =>
    cases r' with
    | none => exact Or.inl ⟨_, _, _, rfl, rfl⟩
    | some r' => cases e
  | some r =>
    cases r' with
    | none => cases e
    | some r' =>
      obtain ⟨coins, os1⟩ := r
      obtain ⟨coins', os1'⟩ := r'
      obtain ⟨hw, -, -⟩ := C29_returns_full os _ 0 _ hsz _ _ t hr
      obtain ⟨hw', -, -⟩ := C29_returns_full os' _ 0 _ hsz _ _ t' hr'
      exact (C56_keypair p junk junk' fuel pk sk coins pk' sk' coins' _ _ _ _ (coins64 hw).1 (by simp [osBytes]) (coins64 hw).2 (by simp [osBytes]) hpk hsk
        (coins64 hw').1 (by simp [osBytes]) (coins64 hw').2 (by simp [osBytes]) hpk' hsk' hρ).map

/-- C57. `crypto_kem_enc` of the reference build: the random bytes do not show at all. -/
theorem C57_enc (os os' : OS) (ct ss pk ct' ss' pk' : Mem UInt8) (ek ek' : List UInt8) (hc : os.calls = os'.calls) (hek : pk.Holds 0 ek)
    (hekl : ek.length = ekLen (fips p)) (hct : ctLen (fips p) ≤ ct.size) (hss : 32 ≤ ss.size) (hek' : pk'.Holds 0 ek')
    (hekl' : ek'.length = ekLen (fips p)) (hct' : ctLen (fips p) ≤ ct'.size) (hss' : 32 ≤ ss'.size)
    (hρ : bytes ek (384 * (fips p).k) (384 * (fips p).k + 32) = bytes ek' (384 * (fips p).k) (384 * (fips p).k + 32)) :
    SameLeakage (crypto_kem_enc p fuel os ct ss pk) (crypto_kem_enc p fuel os' ct' ss' pk') := by
  have hsz : 0 + KYBER_SYMBYTES ≤ (Mem.uninit UInt8 KYBER_SYMBYTES).size := by rw [Mem.size_uninit, Nat.zero_add]
  unfold crypto_kem_enc
  refine sameLeakage_bind (ni_randombytes hc) (noUB_of_runsO (randombytes_runsO hsz)) (noUB_of_runsO (randombytes_runsO hsz)) fun r r' t t' hr hr' e => ?_
  cases r with
  | none =>
    cases r' with
    | none => exact Or.inl ⟨_, _, _, rfl, rfl⟩
    | some r' => cases e
  | some r =>
    cases r' with
    | none => cases e
    | some r' =>
      obtain ⟨coins, os1⟩ := r
      obtain ⟨coins', os1'⟩ := r'
      obtain ⟨hw, -, -⟩ := C29_returns_full os _ 0 _ hsz _ _ t hr
      obtain ⟨hw', -, -⟩ := C29_returns_full os' _ 0 _ hsz _ _ t' hr'
      exact (C09_enc p fuel ct ss pk coins ct' ss' pk' coins' ek _ ek' _ hw.holds (by simp [osBytes, KYBER_SYMBYTES]) hek hekl hct hss hw'.holds
        (by simp [osBytes, KYBER_SYMBYTES]) hek' hekl' hct' hss' hρ).map

/-- C57. The same for the AVX2 build. -/
theorem C57_enc_avx (os os' : OS) (ct ss pk ct' ss' pk' : Mem UInt8) (ek ek' : List UInt8) (hc : os.calls = os'.calls) (hek : pk.Holds 0 ek)
    (hekl : ek.length = ekLen (fips p)) (hct : ctLen (fips p) ≤ ct.size) (hss : 32 ≤ ss.size) (hek' : pk'.Holds 0 ek')
    (hekl' : ek'.length = ekLen (fips p)) (hct' : ctLen (fips p) ≤ ct'.size) (hss' : 32 ≤ ss'.size)
    (hρ : bytes ek (384 * (fips p).k) (384 * (fips p).k + 32) = bytes ek' (384 * (fips p).k) (384 * (fips p).k + 32)) :
    SameLeakage (Avx.crypto_kem_enc p junk fuel os ct ss pk) (Avx.crypto_kem_enc p junk' fuel os' ct' ss' pk') := by
  have hsz : 0 + KYBER_SYMBYTES ≤ (Mem.uninit UInt8 KYBER_SYMBYTES).size := by rw [Mem.size_uninit, Nat.zero_add]
  unfold Avx.crypto_kem_enc
  refine sameLeakage_bind (ni_randombytes hc) (noUB_of_runsO (randombytes_runsO hsz)) (noUB_of_runsO (randombytes_runsO hsz)) fun r r' t t' hr hr' e => ?_
  cases r with
  | none =>
    cases r' with
    | none => exact Or.inl ⟨_, _, _, rfl, rfl⟩
    | some r' => cases e
  | some r =>
    cases r' with
    | none => cases e
    | some r' =>
      obtain ⟨coins, os1⟩ := r
      obtain ⟨coins', os1'⟩ := r'
      obtain ⟨hw, -, -⟩ := C29_returns_full os _ 0 _ hsz _ _ t hr
      obtain ⟨hw', -, -⟩ := C29_returns_full os' _ 0 _ hsz _ _ t' hr'
      exact (C56_enc p junk junk' fuel ct ss pk coins ct' ss' pk' coins' ek _ ek' _ hw.holds (by simp [osBytes, KYBER_SYMBYTES]) hek hekl hct hss hw'.holds
        (by simp [osBytes, KYBER_SYMBYTES]) hek' hekl' hct' hss' hρ).map

/-- A case: any two sources of random bytes, delivered in two pieces. -/
example (src src' : Nat → UInt8) : SameLeakage
    (crypto_kem_enc p fuel ⟨src, 0, [.got 20, .eintr, .got 12]⟩ (Mem.uninit UInt8 (ctLen (fips p))) (Mem.uninit UInt8 32) (Mem.ofList (List.replicate (ekLen (fips p)) 0)))
    (crypto_kem_enc p fuel ⟨src', 5, [.got 20, .eintr, .got 12]⟩ (Mem.uninit UInt8 (ctLen (fips p))) (Mem.uninit UInt8 32) (Mem.ofList (List.replicate (ekLen (fips p)) 0))) :=
  C57_enc p fuel _ _ _ _ _ _ _ _ _ _ rfl (Mem.holds_ofList _) List.length_replicate (by rw [Mem.size_uninit]) (by rw [Mem.size_uninit]) (Mem.holds_ofList _)
    List.length_replicate (by rw [Mem.size_uninit]) (by rw [Mem.size_uninit]) rfl

end

end Verif.Props
