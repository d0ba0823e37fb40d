import Verif.Props.AvxKem
import Verif.Props.Randombytes

/-! # The randomised KEM calls of the AVX2 build (C55) -/

set_option autoImplicit false

namespace Verif.Props
open Verif.Model Verif.Spec Verif.Proof

theorem same_bind {α β : Type} {m : C α} {f g : α → C β} (hu : NoUB m) (h : ∀ v t, m = .ok v t → SameResult (f v) (g v)) : SameResult (m >>= f) (m >>= g) := by
  cases m with
  | ub u => exact absurd rfl (hu u)
  | diverge => exact Or.inl ⟨rfl, rfl⟩
  | ok v t =>
    show SameResult (C.bind _ _) (C.bind _ _)
    simp only [C.bind]
    rcases h v t rfl with ⟨h1, h2⟩ | ⟨w, s, s', h1, h2⟩
    · rw [h1, h2]; exact Or.inl ⟨rfl, rfl⟩
    · rw [h1, h2]; exact Or.inr ⟨w, _, _, rfl, rfl⟩

theorem SameResult.bind {α β : Type} {a b : C α} {f : α → C β} (h : SameResult a b) (hf : ∀ v, NoUB (f v)) : SameResult (a >>= f) (b >>= f) := by
  rcases h with ⟨rfl, rfl⟩ | ⟨w, s, s', rfl, rfl⟩
  · exact Or.inl ⟨rfl, rfl⟩
  · show SameResult (C.bind _ _) (C.bind _ _)
    simp only [C.bind]
    cases e : f w with
    | ub u => exact absurd e (hf w u)
    | diverge => exact Or.inl ⟨rfl, rfl⟩
    | ok v t => exact Or.inr ⟨v, _, _, rfl, rfl⟩

/-- C55. `crypto_kem_keypair`: whatever the operating system does (short reads, interrupts, failures, no answer), the AVX2 build ends as the reference build does: with the same
keys, in the same state of the operating system, aborted, or waiting. -/
theorem C55_keypair (p : ParamSet) (junk : Junk) (fuel : Nat) (os : OS) (pk sk : Mem UInt8) (hpk : ekLen (fips p) ≤ pk.size) (hsk : dkLen (fips p) ≤ sk.size) :
    SameResult (Avx.crypto_kem_keypair p junk fuel os pk sk) (crypto_kem_keypair p fuel os pk sk) := by
  have hsz : 0 + 2 * KYBER_SYMBYTES ≤ (Mem.uninit UInt8 (2 * KYBER_SYMBYTES)).size := by rw [Mem.size_uninit, Nat.zero_add]
  unfold Avx.crypto_kem_keypair crypto_kem_keypair
  refine same_bind (noUB_of_runsO (randombytes_runsO hsz)) fun r t hr => ?_
  cases r with
  | none => exact Or.inr ⟨_, _, _, rfl, rfl⟩
  | some r =>
    obtain ⟨coins, os'⟩ := r
    obtain ⟨hw, -, -⟩ := C29_returns_full os _ 0 _ hsz _ _ t hr
    exact (C51_keypair p junk fuel pk sk coins _ hw.holds (by simp [osBytes, KYBER_SYMBYTES]) hpk hsk).bind fun v u hu => by cases hu

/-- C55. The same for `crypto_kem_enc`, for every public key string. -/
theorem C55_enc (p : ParamSet) (junk : Junk) (fuel : Nat) (os : OS) (ct ss pk : Mem UInt8) (ek : List UInt8) (hek : pk.Holds 0 ek) (hekl : ek.length = ekLen (fips p))
    (hct : ctLen (fips p) ≤ ct.size) (hss : 32 ≤ ss.size) : SameResult (Avx.crypto_kem_enc p junk fuel os ct ss pk) (crypto_kem_enc p fuel os ct ss pk) := by
  have hsz : 0 + KYBER_SYMBYTES ≤ (Mem.uninit UInt8 KYBER_SYMBYTES).size := by rw [Mem.size_uninit, Nat.zero_add]
  unfold Avx.crypto_kem_enc crypto_kem_enc
  refine same_bind (noUB_of_runsO (randombytes_runsO hsz)) fun r t hr => ?_
  cases r with
  | none => exact Or.inr ⟨_, _, _, rfl, rfl⟩
  | some r =>
    obtain ⟨coins, os'⟩ := r
    obtain ⟨hw, -, -⟩ := C29_returns_full os _ 0 _ hsz _ _ t hr
    exact (C51_enc p junk fuel ct ss pk coins ek _ hw.holds (by simp [osBytes, KYBER_SYMBYTES]) hek hekl hct hss).bind fun v u hu => by cases hu

attribute [local irreducible] crypto_kem_keypair crypto_kem_enc crypto_kem_keypair_derand crypto_kem_enc_derand Avx.crypto_kem_keypair Avx.crypto_kem_enc KeyGen_internal Encaps_internal

theorem runs_of_outcome {α : Type} {m m' : C α} {Q : α → Prop} (h : outcomeOf m = outcomeOf m') (hm : Runs m' Q) : Runs m Q := by
  obtain ⟨v, t, rfl, hv⟩ := hm.exists_ok
  cases m with
  | ok w s => simp only [outcomeOf, Outcome.returned.injEq] at h; subst h; exact hv
  | ub u => simp [outcomeOf] at h
  | diverge => simp [outcomeOf] at h

/-- C55. When the operating system delivers 64 bytes d ‖ z (in whatever pieces), `crypto_kem_keypair` of both builds writes the keys of ML-KEM.KeyGen_internal(d, z), that is, it
is ML-KEM.KeyGen of the standard with d and z from the operating system. -/
theorem C55_keygen (p : ParamSet) (junk : Junk) (fuel : Nat) (os : OS) (pk sk : Mem UInt8) (hpk : ekLen (fips p) ≤ pk.size) (hsk : dkLen (fips p) ≤ sk.size)
    (pre post : List SysRet) (hc : os.calls = pre ++ post) (hp : SysRet.fail ∉ pre) (hn : 64 ≤ delivered pre) (ek dk : List UInt8)
    (h : KeyGen_internal (fips p) (112 + 56 * fuel) ((osBytes os 64).take 32) ((osBytes os 64).drop 32) = some (ek, dk)) :
    Runs (crypto_kem_keypair p fuel os pk sk) (fun r => ∃ pk' sk' os', r = some (pk', sk', 0, os') ∧ pk.Wrote pk' 0 ek ∧ sk.Wrote sk' 0 dk ∧ os'.pos = os.pos + 64) ∧
    Runs (Avx.crypto_kem_keypair p junk fuel os pk sk) (fun r => ∃ pk' sk' os', r = some (pk', sk', 0, os') ∧ pk.Wrote pk' 0 ek ∧ sk.Wrote sk' 0 dk ∧ os'.pos = os.pos + 64) := by
  have href : Runs (crypto_kem_keypair p fuel os pk sk) (fun r => ∃ pk' sk' os', r = some (pk', sk', 0, os') ∧ pk.Wrote pk' 0 ek ∧ sk.Wrote sk' 0 dk ∧ os'.pos = os.pos + 64) := by
    obtain ⟨os', h1, h2, h3⟩ := C30_keypair p fuel os pk sk pre post hc hp hn
    refine runs_of_outcome h3 ?_
    have hl : (osBytes os 64).length = 64 := by simp [osBytes]
    have hx : (Mem.ofList (osBytes os 64)).Holds 0 ((osBytes os 64).take 32 ++ (osBytes os 64).drop 32) := by rw [List.take_append_drop]; exact Mem.holds_ofList _
    have l : ((osBytes os 64).take 32).length = 32 := by rw [List.length_take]; omega
    rw [Mem.Holds.append, l, Nat.zero_add] at hx
    rw [runs_bind]
    refine (C01_keypair p fuel pk sk _ _ _ hx.1 l hx.2 (by rw [List.length_drop]; omega) hpk hsk ek dk h).mono fun r hr => ?_
    rw [runs_pure]
    exact ⟨_, _, _, rfl, hr.1, hr.2.1, h2⟩
  exact ⟨href, (C55_keypair p junk fuel os pk sk hpk hsk).runs href⟩

/-- C55. `crypto_kem_enc` of both builds is ML-KEM.Encaps_internal(ek, m) with the 32 bytes m from the operating system. -/
theorem C55_encaps (p : ParamSet) (junk : Junk) (fuel : Nat) (os : OS) (ct ss pk : Mem UInt8) (ek : List UInt8) (hek : pk.Holds 0 ek) (hekl : ek.length = ekLen (fips p))
    (hct : ctLen (fips p) ≤ ct.size) (hss : 32 ≤ ss.size) (pre post : List SysRet) (hc : os.calls = pre ++ post) (hp : SysRet.fail ∉ pre) (hn : 32 ≤ delivered pre)
    (K c : List UInt8) (h : Encaps_internal (fips p) (112 + 56 * fuel) ek (osBytes os 32) = some (K, c)) :
    Runs (crypto_kem_enc p fuel os ct ss pk) (fun r => ∃ ct' ss' os', r = some (ct', ss', 0, os') ∧ ct.Wrote ct' 0 c ∧ ss.Wrote ss' 0 K ∧ os'.pos = os.pos + 32) ∧
    Runs (Avx.crypto_kem_enc p junk fuel os ct ss pk) (fun r => ∃ ct' ss' os', r = some (ct', ss', 0, os') ∧ ct.Wrote ct' 0 c ∧ ss.Wrote ss' 0 K ∧ os'.pos = os.pos + 32) := by
  have href : Runs (crypto_kem_enc p fuel os ct ss pk) (fun r => ∃ ct' ss' os', r = some (ct', ss', 0, os') ∧ ct.Wrote ct' 0 c ∧ ss.Wrote ss' 0 K ∧ os'.pos = os.pos + 32) := by
    obtain ⟨os', h1, h2, h3⟩ := C30_enc p fuel os ct ss pk pre post hc hp hn
    refine runs_of_outcome h3 ?_
    rw [runs_bind]
    refine (C02_enc p fuel ct ss pk _ ek _ (Mem.holds_ofList _) (by simp [osBytes]) hek hekl hct hss K c h).mono fun r hr => ?_
    rw [runs_pure]
    exact ⟨_, _, _, rfl, hr.1, hr.2.1, h2⟩
  exact ⟨href, (C55_enc p junk fuel os ct ss pk ek hek hekl hct hss).runs href⟩

/-- A case: an operating system that delivers 64 zero bytes in three pieces with an interrupt between them. -/
example (junk : Junk) : ∃ ek dk, Runs (Avx.crypto_kem_keypair .k2 junk 1 ⟨fun _ => 0, 0, [.got 10, .eintr, .got 30, .got 24]⟩ (Mem.uninit UInt8 800) (Mem.uninit UInt8 1632))
    (fun r => ∃ pk' sk' os', r = some (pk', sk', 0, os') ∧ (Mem.uninit UInt8 800).Wrote pk' 0 ek ∧ (Mem.uninit UInt8 1632).Wrote sk' 0 dk ∧ os'.pos = 0 + 64) := by
  obtain ⟨ek, dk, h⟩ := kat_keygen (List.replicate 32 0)
  refine ⟨ek, dk, (C55_keygen .k2 junk 1 ⟨fun _ => 0, 0, [.got 10, .eintr, .got 30, .got 24]⟩ _ _ (by rw [Mem.size_uninit]; decide) (by rw [Mem.size_uninit]; decide)
    [.got 10, .eintr, .got 30, .got 24] [] rfl (by decide) (by decide) ek dk ?_).2⟩
  have e1 : (osBytes ⟨fun _ => 0, 0, [.got 10, .eintr, .got 30, .got 24]⟩ 64).take 32 = List.replicate 32 0 := by decide
  have e2 : (osBytes ⟨fun _ => 0, 0, [.got 10, .eintr, .got 30, .got 24]⟩ 64).drop 32 = List.replicate 32 0 := by decide
  rw [e1, e2]
  exact h

end Verif.Props
