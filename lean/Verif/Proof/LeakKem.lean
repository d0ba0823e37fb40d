import Verif.Proof.Leak
import Verif.Proof.Kem

/-! # Leakage of key generation

The seed of the matrix is the first half of SHA3-512 of the coins, which is published in the public key. -/

namespace Verif.Proof
open Verif.Model Verif.Spec

theorem NI.and_runs {α : Type} {m1 m2 : C α} {R : α → α → Prop} {P1 P2 : α → Prop} (h : NI m1 m2 R) (h1 : Runs m1 P1) (h2 : Runs m2 P2) :
    NI m1 m2 (fun a b => P1 a ∧ P2 b) := by
  cases m1 <;> cases m2 <;> simp only [NI] at h ⊢
  exact ⟨h.1, h1, h2⟩

theorem SameSeed.of_holds {s1 s2 : Mem UInt8} {o : Nat} {L : List UInt8} (hL : L.length = 32) (h1 : s1.Holds o L) (h2 : s2.Holds o L) : SameSeed s1 s2 o := by
  intro i hi
  have hi' : i < L.length := by rw [hL]; exact hi
  rw [h1 i hi', h2 i hi']

theorem ni_indcpa_keypair_derand {p : ParamSet} {fuel : Nat} {pk pk' sk sk' coins coins' : Mem UInt8} {d d' : List UInt8} (hd : coins.Holds 0 d) (hl : d.length = 32)
    (hd' : coins'.Holds 0 d') (hl' : d'.length = 32) (hG : (G (d ++ [UInt8.ofNat (KYBER_K p)])).1 = (G (d' ++ [UInt8.ofNat (KYBER_K p)])).1) :
    NI (indcpa_keypair_derand p fuel pk sk coins) (indcpa_keypair_derand p fuel pk' sk' coins') anyR := by
  unfold indcpa_keypair_derand
  dsimp only
  have hsym : KYBER_SYMBYTES = 32 := rfl
  rw [hsym]
  have hm := fun {coins : Mem UInt8} {d : List UInt8} (hd : coins.Holds 0 d) (hl : d.length = 32) =>
    runs_memcpy_str (dst := Mem.uninit UInt8 (2 * 32)) (doff := 0) hd hl (by decide)
  refine (NI.and_runs ni_memcpy (hm hd hl) (hm hd' hl')).bind fun b1 b1' h1 => ?_
  obtain ⟨hb1, hb1'⟩ := h1
  have hw := fun {b1 : Mem UInt8} {d : List UInt8} (hb1 : (Mem.uninit UInt8 (2 * 32)).Wrote b1 0 d) =>
    runs_wr_str (i := 32) (UInt8.ofNat (KYBER_K p)) (show 32 < b1.size by rw [hb1.size, Mem.size_uninit]; omega)
  refine (NI.and_runs ni_wr (hw hb1) (hw hb1')).bind fun b2 b2' h2 => ?_
  obtain ⟨hb2, hb2'⟩ := h2
  have ha : (Mem.uninit UInt8 (2 * 32)).Wrote b2 0 (d ++ [UInt8.ofNat (KYBER_K p)]) := hb1.append (by rwa [hl, Nat.zero_add])
  have ha' : (Mem.uninit UInt8 (2 * 32)).Wrote b2' 0 (d' ++ [UInt8.ofNat (KYBER_K p)]) := hb1'.append (by rwa [hl', Nat.zero_add])
  refine (NI.and_runs ni_sha3_512
    (hash_g_runs (h := b2) (ho := 0) ha.holds (by rw [List.length_append, hl]; rfl) (by rw [ha.size, Mem.size_uninit]))
    (hash_g_runs (h := b2') (ho := 0) ha'.holds (by rw [List.length_append, hl']; rfl) (by rw [ha'.size, Mem.size_uninit]))).bind fun b3 b3' h3 => ?_
  obtain ⟨⟨_, hρ, _⟩, ⟨_, hρ', _⟩⟩ := h3
  rw [← hG] at hρ'
  refine (ni_gen_matrix (SameSeed.of_holds (G_fst_length _) hρ hρ')).bind fun _ _ _ => ?_
  ni

theorem ni_crypto_kem_keypair_derand {p : ParamSet} {fuel : Nat} {pk pk' sk sk' coins coins' : Mem UInt8} {d d' : List UInt8} (hd : coins.Holds 0 d) (hl : d.length = 32)
    (hd' : coins'.Holds 0 d') (hl' : d'.length = 32) (hG : (G (d ++ [UInt8.ofNat (KYBER_K p)])).1 = (G (d' ++ [UInt8.ofNat (KYBER_K p)])).1) :
    NI (crypto_kem_keypair_derand p fuel pk sk coins) (crypto_kem_keypair_derand p fuel pk' sk' coins') anyR := by
  unfold crypto_kem_keypair_derand
  refine NI.bind0 (ni_indcpa_keypair_derand hd hl hd' hl' hG) fun _ _ => ?_
  ni

end Verif.Proof
