import Verif.Proof.Alias
import Verif.Proof.Randombytes
import Verif.Model.AliasRnd

/-! # The randomised KEM calls with all arguments in one memory -/

set_option autoImplicit false

namespace Verif.Proof
open Verif.Model Verif.Spec

variable {P : Pke} {p : ParamSet} {fuel : Nat}

theorem kem_enc_from_runsO (S : PkeSpec P p fuel) {X coins : Mem UInt8} {ct ss pk : Nat} {ek m : List UInt8} (hm : coins.Holds 0 m) (hml : m.length = 32)
    (hek : X.Holds pk ek) (hekl : ek.length = KYBER_PUBLICKEYBYTES p) (hct : ct + KYBER_CIPHERTEXTBYTES p ≤ X.size) (hss : ss + KYBER_SSBYTES ≤ X.size) :
    RunsO (kem_enc_from P p X ct ss pk coins) (Encaps_internal (fips p) (iters fuel) ek m)
      (fun o s => (∃ X1, X.Wrote X1 ct o.2 ∧ X1.Wrote s.1 ss o.1) ∧ s.2 = 0) := by
  unfold kem_enc_from
  dsimp only
  rw [show KYBER_SYMBYTES = 32 from rfl]
  refine Runs.bindO (runs_memcpy_str (dst := Mem.uninit UInt8 (2 * 32)) hm hml (by rw [Mem.size_uninit]; omega)) fun b1 hb1 => ?_
  refine Runs.bindO (sha3_256_runs (h := b1) (ho := 32) hek hekl (by rw [hb1.size, Mem.size_uninit])) fun b2 hb2 => ?_
  have h2 : (Mem.uninit UInt8 (2 * 32)).Wrote b2 0 (m ++ H ek) := hb1.append (by rw [hml, Nat.zero_add]; exact hb2)
  refine Runs.bindO (hash_g_runs (h := Mem.uninit UInt8 (2 * 32)) (ho := 0) h2.holds (by
    rw [List.length_append, hml, show (H ek).length = 32 from SHA3_256_length ek]) (by rw [Mem.size_uninit])) fun kr hkr => ?_
  obtain ⟨_, hK, hr⟩ := hkr
  unfold Encaps_internal
  have hKl := G_fst_length (m ++ H ek)
  have hrl := G_snd_length (m ++ H ek)
  generalize G (m ++ H ek) = g at *
  obtain ⟨K, r⟩ := g
  dsimp only at hK hr hKl hrl ⊢
  rw [Nat.zero_add] at hr
  have hm2 : b2.Holds 0 m := (Mem.Holds.append.1 h2.holds).1
  refine RunsO.bind (S.enc hm2 hml hek hekl hr hrl) fun c s hs => ?_
  obtain ⟨b, v⟩ := s
  dsimp only at hs ⊢
  show Runs _ _
  rw [runs_bind]
  refine (onTail_runs hct hs).mono fun X1 hX1 => ?_
  rw [runs_bind]
  refine (runs_memcpy_str hK hKl (by rw [hX1.size]; exact hss)).mono fun X2 hX2 => ?_
  exact ⟨⟨X1, hX1, hX2⟩, rfl⟩

/-- The writes of key generation up to the copy of the public key. -/
theorem kem_keypair_from_front (S : PkeSpec P p fuel) {X coins : Mem UInt8} {pk sk : Nat} {d : List UInt8} (hd : coins.Holds 0 d) (hdl : d.length = 32)
    (hpk : pk + KYBER_PUBLICKEYBYTES p ≤ X.size) (hsk : sk + KYBER_SECRETKEYBYTES p ≤ X.size) :
    RunsO (do let s ← P.keypair coins
              let X ← onTail X sk fun r => P.pack_sk r s.1
              onTail X pk fun r => P.pack_pk r s.2.1 s.2.2)
      (K_PKE_KeyGen (fips p) (iters fuel) d) fun o X2 => ∃ X1, X.Wrote X1 sk o.2 ∧ X1.Wrote X2 pk o.1 := by
  have e1 := pk_size p
  have e1' := pk_size' p
  have e2 := isk_size p
  have e3 := sk_size p
  have := S.keypair hd hdl
  cases ho : K_PKE_KeyGen (fips p) (iters fuel) d with
  | none =>
    rw [ho] at this
    show _ = C.diverge
    rw [show P.keypair coins = .diverge from this]
    rfl
  | some o =>
    rw [ho] at this
    show Runs _ _
    rw [runs_bind]
    refine Runs.mono this fun s hs => ?_
    rw [runs_bind]
    refine (onTail_runs (n := KYBER_INDCPA_SECRETKEYBYTES p) (by omega) hs.1).mono fun X1 h1 => ?_
    refine (onTail_runs (n := KYBER_INDCPA_PUBLICKEYBYTES p) (by rw [h1.size]; omega) hs.2).mono fun X2 h2 => ?_
    exact ⟨X1, h1, h2⟩

theorem kem_keypair_from_eq (P : Pke) (p : ParamSet) (X : Mem UInt8) (pk sk : Nat) (coins : Mem UInt8) : kem_keypair_from P p X pk sk coins = (do
    let X ← (do let s ← P.keypair coins
                let X ← onTail X sk fun r => P.pack_sk r s.1
                onTail X pk fun r => P.pack_pk r s.2.1 s.2.2)
    let X ← memcpyIn X (sk + KYBER_INDCPA_SECRETKEYBYTES p) pk (KYBER_PUBLICKEYBYTES p)
    let X ← hash_h X (sk + (KYBER_SECRETKEYBYTES p - 2 * KYBER_SYMBYTES)) X pk (KYBER_PUBLICKEYBYTES p)
    let X ← memcpy X (sk + (KYBER_SECRETKEYBYTES p - KYBER_SYMBYTES)) coins KYBER_SYMBYTES KYBER_SYMBYTES
    pure (X, 0)) := by
  unfold kem_keypair_from
  simp only [bind_assoc]

/-- All writes of key generation, if the public key does not overlap the place of its copy. -/
theorem kem_keypair_from_runsO (S : PkeSpec P p fuel) {X coins : Mem UInt8} {pk sk : Nat} {d z : List UInt8} (hd : coins.Holds 0 d) (hdl : d.length = 32)
    (hz : coins.Holds 32 z) (hzl : z.length = 32) (hpk : pk + KYBER_PUBLICKEYBYTES p ≤ X.size) (hsk : sk + KYBER_SECRETKEYBYTES p ≤ X.size)
    (hd1 : pk + KYBER_PUBLICKEYBYTES p ≤ sk + KYBER_INDCPA_SECRETKEYBYTES p ∨ sk + KYBER_INDCPA_SECRETKEYBYTES p + KYBER_PUBLICKEYBYTES p ≤ pk) :
    RunsO (kem_keypair_from P p X pk sk coins) (K_PKE_KeyGen (fips p) (iters fuel) d) fun o s => s.2 = 0 ∧ ∃ X1 X2,
      X.Wrote X1 sk o.2 ∧ X1.Wrote X2 pk o.1 ∧ X2.Wrote s.1 (sk + KYBER_INDCPA_SECRETKEYBYTES p) (o.1 ++ H o.1 ++ z) := by
  have e1 := pk_size p
  have e1' := pk_size' p
  have e2 := isk_size p
  have e3 := sk_size p
  rw [kem_keypair_from_eq]
  have := RunsO.with (kem_keypair_from_front S hd hdl hpk hsk)
  cases ho : K_PKE_KeyGen (fips p) (iters fuel) d with
  | none =>
    rw [ho] at this
    show _ = C.diverge
    rw [show (do let s ← P.keypair coins
                 let X ← onTail X sk fun r => P.pack_sk r s.1
                 onTail X pk fun r => P.pack_pk r s.2.1 s.2.2) = C.diverge from this]
    rfl
  | some o =>
    rw [ho] at this
    obtain ⟨ek, dk⟩ := o
    obtain ⟨l1, l2⟩ := keygen_length ho
    dsimp only at l1 l2
    have lH : (H ek).length = 32 := SHA3_256_length ek
    show Runs _ _
    rw [runs_bind]
    refine Runs.mono this fun X2 h2 => ?_
    obtain ⟨_, X1, h1, h2⟩ := h2
    dsimp only at h1 h2
    have s2 : X2.size = X.size := h2.size.trans h1.size
    rw [runs_bind, e2, e1', e3, show KYBER_SYMBYTES = 32 from rfl]
    rw [e2, e1'] at hd1
    refine (memcpyIn_runs h2.holds l1 (by omega) (by omega)).mono fun X3 h3 => ?_
    rw [runs_bind]
    have hp3 : X3.Holds pk ek := h3.holds_frame h2.holds (by omega)
    refine (sha3_256_runs hp3 l1 (by rw [h3.size]; omega)).mono fun X4 h4 => ?_
    have h4' : X2.Wrote X4 (sk + 384 * (fips p).k) (ek ++ H ek) := h3.append (by
      rw [l1, show sk + 384 * (fips p).k + (384 * (fips p).k + 32) = sk + (768 * (fips p).k + 96 - 2 * 32) from by omega]
      exact h4)
    rw [runs_bind]
    refine (runs_memcpy_str hz hzl (by rw [h4'.size]; omega)).mono fun X5 h5 => ?_
    rw [runs_pure]
    refine ⟨rfl, X1, X2, h1, h2, h4'.append ?_⟩
    rw [List.length_append, l1, lH, show sk + 384 * (fips p).k + (384 * (fips p).k + 32 + 32) = sk + (768 * (fips p).k + 96 - 32) from by omega]
    exact h5

/-- The public key over the place of its copy. -/
theorem kem_keypair_from_ub (S : PkeSpec P p fuel) {X coins : Mem UInt8} {pk sk : Nat} {d : List UInt8} (hd : coins.Holds 0 d) (hdl : d.length = 32)
    (hpk : pk + KYBER_PUBLICKEYBYTES p ≤ X.size) (hsk : sk + KYBER_SECRETKEYBYTES p ≤ X.size)
    (h1 : sk + KYBER_INDCPA_SECRETKEYBYTES p < pk + KYBER_PUBLICKEYBYTES p) (h2 : pk < sk + KYBER_INDCPA_SECRETKEYBYTES p + KYBER_PUBLICKEYBYTES p)
    (ho : K_PKE_KeyGen (fips p) (iters fuel) d ≠ none) : kem_keypair_from P p X pk sk coins = .ub .alias := by
  rw [kem_keypair_from_eq]
  have := kem_keypair_from_front S hd hdl hpk hsk
  cases hk : K_PKE_KeyGen (fips p) (iters fuel) d with
  | none => exact absurd hk ho
  | some o =>
    rw [hk] at this
    refine ub_of_runs (show Runs _ _ from this) fun X2 _ => ?_
    rw [memcpyIn_ub (by omega) (by omega)]
    rfl

end Verif.Proof
