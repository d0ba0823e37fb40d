import Verif.Proof.AliasRnd
import Verif.Props.Alias
import Verif.Props.Randombytes

/-! # The randomised calls when their arguments share memory (C83)

C70 for `crypto_kem_keypair` and `crypto_kem_enc`. The coins are local, so for encapsulation nothing is required of the arguments except that the outputs are apart, and for key
generation only that the two keys are. What happens for every other position of the keys is stated as well: undefined behaviour, a secret key that is public, or a public key
that contains the secret of implicit rejection. -/

set_option autoImplicit false

namespace Verif.Props
open Verif.Model Verif.Spec Verif.Proof

/-- The operating system delivers `n` bytes, in whatever pieces, before a call fails. -/
def HasBytes (os : OS) (n : Nat) : Prop := ∃ pre post, os.calls = pre ++ post ∧ SysRet.fail ∉ pre ∧ n ≤ delivered pre

theorem HasBytes.runs {os : OS} {n : Nat} (h : HasBytes os n) : Runs (randombytes os (Mem.uninit UInt8 n) 0 n) fun r => ∃ coins os', r = some (coins, os') ∧
    coins.Holds 0 (osBytes os n) ∧ os'.src = os.src ∧ os'.pos = os.pos + n := by
  obtain ⟨pre, post, hc, hp, hn⟩ := h
  have h0 : 0 + n ≤ (Mem.uninit UInt8 n).size := by rw [Mem.size_uninit]; omega
  obtain ⟨r, t, e, hr⟩ := (C29_returns os (Mem.uninit UInt8 n) 0 n h0 pre post hc hp hn).exists_ok
  cases r with
  | none => simp at hr
  | some r =>
    obtain ⟨coins, os'⟩ := r
    obtain ⟨hw, h1, h2⟩ := C29_returns_full os _ 0 n h0 _ _ t e
    rw [e]
    exact ⟨coins, os', rfl, hw.holds, h1, h2⟩

section
variable (P : Pke) (p : ParamSet) (fuel : Nat) (hP : IsBuild P p fuel) (X : Mem UInt8) (os : OS)
include hP

/-! ## Encapsulation -/

section
variable (ct ss pk : Nat) (ek : List UInt8) (hos : HasBytes os 32) (hek : X.Holds pk ek) (hekl : ek.length = ekLen (fips p))
  (hct : ct + ctLen (fips p) ≤ X.size) (hss : ss + 32 ≤ X.size)
include hos hek hekl hct hss

/-- C83. Encapsulation with 32 bytes of the operating system writes the ciphertext of the standard and then the shared secret of the standard, and nothing else, wherever its three
arguments lie. -/
theorem C83_enc (K c : List UInt8) (h : Encaps_internal (fips p) (112 + 56 * fuel) ek (osBytes os 32) = some (K, c)) :
    Runs (crypto_kem_enc_in P p os X ct ss pk) fun r => ∃ X' os', r = some (X', 0, os') ∧ os'.src = os.src ∧ os'.pos = os.pos + 32 ∧
      ∃ X1, X.Wrote X1 ct c ∧ X1.Wrote X' ss K := by
  unfold crypto_kem_enc_in
  dsimp only
  rw [runs_bind, show KYBER_SYMBYTES = 32 from rfl]
  refine hos.runs.mono fun r hr => ?_
  obtain ⟨coins, os', rfl, hm, h1, h2⟩ := hr
  dsimp only
  rw [runs_bind]
  refine ((kem_enc_from_runsO hP.spec (ct := ct) (ss := ss) hm (by simp [osBytes]) hek (by rw [hekl, pk_size']; rfl) (by rw [ct_size']; exact hct) hss).runs h).mono fun s hs => ?_
  exact ⟨s.1, os', rfl, h1, h2, hs.1⟩

/-- C83. If the two outputs are apart, both are right, though they may overwrite the public key. -/
theorem C83_enc_outputs (K c : List UInt8) (h : Encaps_internal (fips p) (112 + 56 * fuel) ek (osBytes os 32) = some (K, c)) (hd : Apart ct (ctLen (fips p)) ss 32) :
    Runs (crypto_kem_enc_in P p os X ct ss pk) fun r => ∃ X' os', r = some (X', 0, os') ∧ X'.size = X.size ∧ X'.Holds ct c ∧ X'.Holds ss K ∧
      ∀ j, (j < ct ∨ ct + ctLen (fips p) ≤ j) → (j < ss ∨ ss + 32 ≤ j) → X'[j]? = X[j]? := by
  have hcl := encaps_lens h
  refine (C83_enc P p fuel hP X os ct ss pk ek hos hek hekl hct hss K c h).mono fun r hr => ?_
  obtain ⟨X', os', rfl, -, -, X1, h1, h2⟩ := hr
  unfold Apart at hd
  refine ⟨X', os', rfl, h2.size.trans h1.size, h2.holds_frame h1.holds (by omega), h2.holds, fun j hj1 hj2 => ?_⟩
  rw [h2.frame j (by omega), h1.frame j (by omega)]

/-- C83. If the buffer of the shared secret lies in that of the ciphertext, the ciphertext that is sent contains the shared secret. -/
theorem C83_enc_exposed (K c : List UInt8) (h : Encaps_internal (fips p) (112 + 56 * fuel) ek (osBytes os 32) = some (K, c)) (t : Nat) (ht : ss = ct + t)
    (ht' : t + 32 ≤ ctLen (fips p)) :
    Runs (crypto_kem_enc_in P p os X ct ss pk) fun r => ∃ X' os' sent, r = some (X', 0, os') ∧ sent.length = ctLen (fips p) ∧ X'.Holds ct sent ∧ slice sent t 32 = K := by
  have hcl := encaps_lens h
  refine (C83_enc P p fuel hP X os ct ss pk ek hos hek hekl hct hss K c h).mono fun r hr => ?_
  obtain ⟨X', os', rfl, -, -, X1, h1, h2⟩ := hr
  obtain ⟨sent, hsl, hs⟩ := (Mem.Wrote.init h2 (Mem.Holds.init h1.holds)).holds
  refine ⟨X', os', sent, rfl, by omega, hs, ?_⟩
  have e := hs.slice t 32 (by omega)
  rw [← ht] at e
  exact e.unique h2.holds (by rw [length_slice (by omega)]; omega)

theorem C83_enc_diverges (h : Encaps_internal (fips p) (112 + 56 * fuel) ek (osBytes os 32) = none) : crypto_kem_enc_in P p os X ct ss pk = .diverge := by
  unfold crypto_kem_enc_in
  dsimp only
  rw [show KYBER_SYMBYTES = 32 from rfl]
  obtain ⟨r, t, e, hr⟩ := hos.runs.exists_ok
  obtain ⟨coins, os', rfl, hm, h1, h2⟩ := hr
  rw [e]
  have := kem_enc_from_runsO hP.spec (ct := ct) (ss := ss) hm (by simp [osBytes]) hek (by rw [hekl, pk_size']; rfl) (by rw [ct_size']; exact hct) hss
  rw [show iters fuel = 112 + 56 * fuel from rfl, h, runsO_none] at this
  show C.bind _ _ = _
  simp only [C.bind, this, bind]

end

/-! ## Key generation -/

section
variable (pk sk : Nat) (d z : List UInt8) (hos : HasBytes os 64) (hdz : osBytes os 64 = d ++ z) (hdl : d.length = 32)
  (hpk : pk + ekLen (fips p) ≤ X.size) (hsk : sk + dkLen (fips p) ≤ X.size)
include hos hdz hdl hpk hsk

/-- C83. Key generation is undefined if the public key overlaps the place in the secret key it is copied to. -/
theorem C83_keypair_ub (h : K_PKE_KeyGen (fips p) (112 + 56 * fuel) d ≠ none) (ho : ¬ Apart pk (ekLen (fips p)) (sk + 384 * (fips p).k) (ekLen (fips p))) :
    crypto_kem_keypair_in P p os X pk sk = .ub .alias := by
  unfold Apart at ho
  have e1 : KYBER_PUBLICKEYBYTES p = ekLen (fips p) := pk_size' p
  have e2 := isk_size p
  have e3 : KYBER_SECRETKEYBYTES p = dkLen (fips p) := sk_size p
  unfold crypto_kem_keypair_in
  dsimp only
  rw [show 2 * KYBER_SYMBYTES = 64 from rfl]
  refine ub_of_runs hos.runs fun r hr => ?_
  obtain ⟨coins, os', rfl, hm, -, -⟩ := hr
  rw [hdz] at hm
  dsimp only
  rw [kem_keypair_from_ub hP.spec (Mem.Holds.append.1 hm).1 hdl (by omega) (by omega) (by omega) (by omega) h]
  rfl

/-- C83. Otherwise it writes the decryption key, over it the public key, and over both the rest of the secret key; these writes and nothing else. -/
theorem C83_keypair_writes (ek dkPKE : List UInt8) (h : K_PKE_KeyGen (fips p) (112 + 56 * fuel) d = some (ek, dkPKE))
    (h1 : Apart pk (ekLen (fips p)) (sk + 384 * (fips p).k) (ekLen (fips p))) :
    Runs (crypto_kem_keypair_in P p os X pk sk) fun r => ∃ X' os', r = some (X', 0, os') ∧ os'.src = os.src ∧ os'.pos = os.pos + 64 ∧
      ∃ X1 X2, X.Wrote X1 sk dkPKE ∧ X1.Wrote X2 pk ek ∧ X2.Wrote X' (sk + 384 * (fips p).k) (ek ++ H ek ++ z) := by
  unfold Apart at h1
  have e1 : KYBER_PUBLICKEYBYTES p = ekLen (fips p) := pk_size' p
  have e2 := isk_size p
  have e3 : KYBER_SECRETKEYBYTES p = dkLen (fips p) := sk_size p
  have hzl : z.length = 32 := by
    have := congrArg List.length hdz
    rw [List.length_append, hdl] at this
    simp [osBytes] at this
    omega
  unfold crypto_kem_keypair_in
  dsimp only
  rw [runs_bind, show 2 * KYBER_SYMBYTES = 64 from rfl]
  refine hos.runs.mono fun r hr => ?_
  obtain ⟨coins, os', rfl, hm, h2, h3⟩ := hr
  rw [hdz] at hm
  have hm' := Mem.Holds.append.1 hm
  rw [hdl, Nat.zero_add] at hm'
  dsimp only
  rw [runs_bind]
  refine ((kem_keypair_from_runsO hP.spec (pk := pk) (sk := sk) hm'.1 hdl hm'.2 hzl (by omega) (by omega) (by omega)).runs h).mono fun s hs => ?_
  rw [e2] at hs
  exact ⟨s.1, os', rfl, h2, h3, hs.2⟩

/-- C83. The two keys are those of the standard if they are apart. -/
theorem C83_keypair (ek dk : List UInt8) (h : KeyGen_internal (fips p) (112 + 56 * fuel) d z = some (ek, dk)) (h1 : Apart pk (ekLen (fips p)) sk (dkLen (fips p))) :
    Runs (crypto_kem_keypair_in P p os X pk sk) fun r => ∃ X' os', r = some (X', 0, os') ∧ os'.src = os.src ∧ os'.pos = os.pos + 64 ∧ X'.size = X.size ∧
      X'.Holds pk ek ∧ X'.Holds sk dk ∧ ∀ j, (j < pk ∨ pk + ekLen (fips p) ≤ j) → (j < sk ∨ sk + dkLen (fips p) ≤ j) → X'[j]? = X[j]? := by
  obtain ⟨dkPKE, hk, rfl⟩ := keygen_inv h
  obtain ⟨l1, l2⟩ := keygen_length hk
  dsimp only at l1 l2
  have lH : (H ek).length = 32 := SHA3_256_length ek
  have hzl : z.length = 32 := by
    have := congrArg List.length hdz
    rw [List.length_append, hdl] at this
    simp [osBytes] at this
    omega
  have el : ekLen (fips p) = 384 * (fips p).k + 32 := rfl
  have dl : dkLen (fips p) = 768 * (fips p).k + 96 := rfl
  unfold Apart at h1
  refine (C83_keypair_writes P p fuel hP X os pk sk d z hos hdz hdl hpk hsk ek dkPKE hk (by unfold Apart; omega)).mono fun r hr => ?_
  obtain ⟨X', os', rfl, h2, h3, X1, X2, w1, w2, w3⟩ := hr
  have ll : (ek ++ H ek ++ z).length = 384 * (fips p).k + 96 := by rw [List.length_append, List.length_append]; omega
  refine ⟨X', os', rfl, h2, h3, by rw [w3.size, w2.size, w1.size], ?_, ?_, fun j hj1 hj2 => ?_⟩
  · exact w3.holds_frame w2.holds (by omega)
  · rw [List.append_assoc, List.append_assoc, ← List.append_assoc ek, Mem.Holds.append, l2]
    exact ⟨w3.holds_frame (w2.holds_frame w1.holds (by omega)) (by omega), w3.holds⟩
  · rw [w3.frame j (by omega), w2.frame j (by omega), w1.frame j (by omega)]

/-- C83. If the public key ends where the secret key's copy of it begins, the decryption key is overwritten: the secret key consists of public values and z. -/
theorem C83_keypair_clobbered (ek dk : List UInt8) (h : KeyGen_internal (fips p) (112 + 56 * fuel) d z = some (ek, dk)) (h1 : sk = pk + 32) :
    Runs (crypto_kem_keypair_in P p os X pk sk) fun r => ∃ X' os', r = some (X', 0, os') ∧ X'.Holds pk ek ∧
      X'.Holds sk (slice ek 32 (384 * (fips p).k) ++ (ek ++ H ek ++ z)) := by
  obtain ⟨dkPKE, hk, rfl⟩ := keygen_inv h
  obtain ⟨l1, l2⟩ := keygen_length hk
  dsimp only at l1 l2
  have el : ekLen (fips p) = 384 * (fips p).k + 32 := rfl
  refine (C83_keypair_writes P p fuel hP X os pk sk d z hos hdz hdl hpk hsk ek dkPKE hk (by unfold Apart; omega)).mono fun r hr => ?_
  obtain ⟨X', os', rfl, -, -, X1, X2, w1, w2, w3⟩ := hr
  have hp : X'.Holds pk ek := w3.holds_frame w2.holds (by omega)
  refine ⟨X', os', rfl, hp, ?_⟩
  rw [Mem.Holds.append, length_slice (by omega)]
  refine ⟨?_, w3.holds⟩
  have := hp.slice 32 (384 * (fips p).k) (by omega)
  rwa [← h1] at this

/-- C83. If the public key is put over the last bytes of the secret key, the bytes at its start are not those of the public key but those of H(ek) and z: the secret of implicit
rejection is published. (`t` is 0 for a public key that begins with H(ek), 32 for one that begins with z.) -/
theorem C83_keypair_rejection_published (ek dk : List UInt8) (h : KeyGen_internal (fips p) (112 + 56 * fuel) d z = some (ek, dk)) (t : Nat) (ht : t ≤ 32)
    (h1 : pk = sk + 768 * (fips p).k + 32 + t) :
    Runs (crypto_kem_keypair_in P p os X pk sk) fun r => ∃ X' os' sent, r = some (X', 0, os') ∧ sent.length = ekLen (fips p) ∧ X'.Holds pk sent ∧
      slice sent (32 - t) 32 = z := by
  obtain ⟨dkPKE, hk, rfl⟩ := keygen_inv h
  obtain ⟨l1, l2⟩ := keygen_length hk
  dsimp only at l1 l2
  have lH : (H ek).length = 32 := SHA3_256_length ek
  have hzl : z.length = 32 := by
    have := congrArg List.length hdz
    rw [List.length_append, hdl] at this
    simp [osBytes] at this
    omega
  have el : ekLen (fips p) = 384 * (fips p).k + 32 := rfl
  have hk0 : 1 ≤ (fips p).k := by cases p <;> decide
  refine (C83_keypair_writes P p fuel hP X os pk sk d z hos hdz hdl hpk hsk ek dkPKE hk (by unfold Apart; omega)).mono fun r hr => ?_
  obtain ⟨X', os', rfl, -, -, X1, X2, w1, w2, w3⟩ := hr
  obtain ⟨sent, hsl, hs⟩ := (Mem.Wrote.init w3 (Mem.Holds.init w2.holds)).holds
  refine ⟨X', os', sent, rfl, by omega, hs, ?_⟩
  have e1 := hs.slice (32 - t) 32 (by omega)
  have e2 := (Mem.Holds.append.1 w3.holds).2
  rw [List.length_append, l1, lH] at e2
  rw [show pk + (32 - t) = sk + 384 * (fips p).k + (384 * (fips p).k + 32 + 32) from by omega] at e1
  exact e1.unique e2 (by rw [length_slice (by omega)]; omega)

end
end

/-- C83. If the operating system fails first, both calls abort, whatever the arguments. -/
theorem C83_abort (P : Pke) (p : ParamSet) (os : OS) (X : Mem UInt8) (ct ss pk sk : Nat) (pre post : List SysRet) (hc : os.calls = pre ++ .fail :: post) (hp : SysRet.fail ∉ pre) :
    (delivered pre < 64 → Runs (crypto_kem_keypair_in P p os X pk sk) (fun r => r = none)) ∧
    (delivered pre < 32 → Runs (crypto_kem_enc_in P p os X ct ss pk) (fun r => r = none)) := by
  constructor
  · intro hn
    unfold crypto_kem_keypair_in
    dsimp only
    rw [runs_bind]
    refine (C29_aborts os _ 0 _ (by rw [Mem.size_uninit]; decide) pre post hc hp hn).mono fun r hr => ?_
    subst hr
    exact rfl
  · intro hn
    unfold crypto_kem_enc_in
    dsimp only
    rw [runs_bind]
    refine (C29_aborts os _ 0 _ (by rw [Mem.size_uninit]; decide) pre post hc hp hn).mono fun r hr => ?_
    subst hr
    exact rfl

/-! ## Cases -/

/-- An operating system that delivers zeros in two pieces. -/
def zeroOS : OS := ⟨fun _ => 0, 0, [.got 40, .eintr, .got 24]⟩

theorem zeroOS_delivers : HasBytes zeroOS 64 ∧ HasBytes zeroOS 32 :=
  ⟨⟨[.got 40, .eintr, .got 24], [], rfl, by decide, by decide⟩, ⟨[.got 40], [.eintr, .got 24], rfl, by decide, by decide⟩⟩

theorem zeroOS_bytes : osBytes zeroOS 64 = List.replicate 32 0 ++ List.replicate 32 0 ∧ osBytes zeroOS 32 = List.replicate 32 0 := by decide +kernel

/-- The keys side by side; the public key just before the secret key's copy of it; the public key over the end of the secret key; and the undefined case. Both builds. -/
example (P : Pke) (hP : IsBuild P .k2 1) (X : Mem UInt8) (hX : X.size = 2496) :
    (∃ ek dk, Runs (crypto_kem_keypair_in P .k2 zeroOS X 0 832) fun r => ∃ X' os', r = some (X', 0, os') ∧ X'.Holds 0 ek ∧ X'.Holds 832 dk) ∧
    (∃ ek, Runs (crypto_kem_keypair_in P .k2 zeroOS X 0 32) fun r => ∃ X' os', r = some (X', 0, os') ∧
      X'.Holds 32 (slice ek 32 768 ++ (ek ++ H ek ++ List.replicate 32 0))) ∧
    (Runs (crypto_kem_keypair_in P .k2 zeroOS X 1600 0) fun r => ∃ X' os' sent, r = some (X', 0, os') ∧ sent.length = 800 ∧ X'.Holds 1600 sent ∧
      slice sent 0 32 = List.replicate 32 0) ∧
    crypto_kem_keypair_in P .k2 zeroOS X 0 0 = .ub .alias := by
  obtain ⟨ek, dk, h⟩ := kat_keygen (List.replicate 32 0)
  have hb := zeroOS_bytes.1
  have hl : (List.replicate 32 (0 : UInt8)).length = 32 := List.length_replicate
  generalize List.replicate 32 (0 : UInt8) = d at *
  have ho := zeroOS_delivers.1
  generalize zeroOS = os at *
  refine ⟨⟨ek, dk, ?_⟩, ⟨ek, ?_⟩, ?_, ?_⟩
  · exact (C83_keypair P .k2 1 hP X os 0 832 d d ho hb hl (by rw [hX]; decide) (by rw [hX]; decide) ek dk h (by unfold Apart; decide)).mono
      fun r ⟨X', os', hr, _, _, _, h1, h2, _⟩ => ⟨X', os', hr, h1, h2⟩
  · exact (C83_keypair_clobbered P .k2 1 hP X os 0 32 d d ho hb hl (by rw [hX]; decide) (by rw [hX]; decide) ek dk h rfl).mono
      fun r ⟨X', os', hr, _, h2⟩ => ⟨X', os', hr, h2⟩
  · exact C83_keypair_rejection_published P .k2 1 hP X os 1600 0 d d ho hb hl (by rw [hX]; decide) (by rw [hX]; decide) ek dk h 32 (by omega) rfl
  · obtain ⟨o, ho', -⟩ := keygen_inv h
    exact C83_keypair_ub P .k2 1 hP X os 0 0 d d ho hb hl (by rw [hX]; decide) (by rw [hX]; decide) (by
      rw [show fips .k2 = ML_KEM_512 from rfl, ho']; simp) (by unfold Apart; decide)

/-- Encapsulation with the ciphertext over the public key. -/
example (P : Pke) (hP : IsBuild P .k2 1) : ∃ K c, Runs (crypto_kem_enc_in P .k2 zeroOS (Mem.ofList (List.replicate 768 0 ++ katRho)) 0 768 0) fun r =>
    ∃ X' os', r = some (X', 0, os') ∧ X'.Holds 0 c ∧ X'.Holds 768 K := by
  obtain ⟨K, c, h⟩ := kat_encaps (ek := List.replicate 768 0 ++ katRho) (by decide +kernel) (List.replicate 32 0)
  rw [← zeroOS_bytes.2] at h
  have hk : (List.replicate 768 (0 : UInt8) ++ katRho).length = 800 := by decide +kernel
  generalize List.replicate 768 (0 : UInt8) ++ katRho = ek at *
  have hs : (Mem.ofList ek).size = 800 := by
    unfold Mem.ofList
    rw [List.size_toArray, List.length_map]
    omega
  have ho := zeroOS_delivers.2
  generalize zeroOS = os at *
  exact ⟨K, c, (C83_enc_outputs P .k2 1 hP _ os 0 768 0 ek ho (Mem.holds_ofList ek) hk (by rw [hs]; decide) (by rw [hs]) K c h (by unfold Apart; decide)).mono
    fun r ⟨X', os', hr, _, h1, h2, _⟩ => ⟨X', os', hr, h1, h2⟩⟩

end Verif.Props
