import Verif.Proof.SpeedRef
import Verif.Proof.SpeedAvx
import Verif.Proof.ZeroSeed
import Verif.Proof.Kat
import Verif.Props.Programs
import Verif.Props.AvxSample
import Verif.Props.Speed

/-! # C67: test_speed.c

`E` is what the program runs on: any counter, any `qsort` with the property of C11 7.22.5.2, any number of rounds of `cpucycles_overhead`, any NTESTS of at least two. `fuel` bounds the extra blocks of the
rejection sampling. The array `ct` and the array `key` of `main` are not initialised (test_speed.c:22-23); `speedMain` has them as parameters, so that the program as it is, and the program with them
initialised, can both be spoken of. -/

set_option autoImplicit false

namespace Verif.Props
open Verif.Model Verif.Spec Verif.Proof

/-- The titles of the twenty reports. -/
def titles67 : List String := ["gen_a: ", "poly_getnoise_eta1: ", "poly_getnoise_eta2: ", "NTT: ", "INVNTT: ", "polyvec_basemul_acc_montgomery: ", "poly_tomsg: ", "poly_frommsg: ", "poly_compress: ",
  "poly_decompress: ", "polyvec_compress: ", "polyvec_decompress: ", "indcpa_keypair: ", "indcpa_enc: ", "indcpa_dec: ", "kyber_keypair_derand: ", "kyber_keypair: ", "kyber_encaps_derand: ",
  "kyber_encaps: ", "kyber_decaps: "]

/-- What is needed of the surroundings. -/
def Usable (E : SpEnv) : Prop := QsortSpec E.qs ∧ 2 ≤ E.nt ∧ E.nt < 2 ^ 64

theorem Usable.ok {E : SpEnv} (h : Usable E) : EnvOk E := ⟨h.1, h.2.1, h.2.2⟩

/-- The program has no undefined behaviour; if it returns, it returns 0, has written nothing to stderr and exactly the twenty reports to stdout; and it returns if the sampling of every matrix finishes. -/
def PrintsReports (p : ParamSet) (E : SpEnv) (fuel : Nat) (m : C (List Char × List Char × Int)) : Prop :=
  (∀ u, m ≠ .ub u) ∧ (∀ r t, m = .ok r t → r = (speedText E.clk E.N E.nt titles67 0xffffffffffffffff 0, [], 0)) ∧
  ((∀ ρ : List UInt8, ρ.length = 32 → (ExpandA (fips p).k (112 + 56 * fuel) ρ).isSome = true) → ∃ r t, m = .ok r t)

theorem printsReports_of {p : ParamSet} {E : SpEnv} {fuel : Nat} {m : C (List Char × List Char × Int)}
    (h : RunsP (AllSampled p fuel) m (fun r => r = (speedText E.clk E.N E.nt speedTitles 0xffffffffffffffff 0, [], 0))) : PrintsReports p E fuel m := by
  rcases h with ⟨hg, rfl⟩ | h
  · refine ⟨by simp, by simp, fun h => absurd (fun ρ hρ => ?_) hg⟩
    have := h ρ hρ
    rwa [show (fips p).k = KYBER_K p by cases p <;> rfl] at this
  · obtain ⟨v, t, rfl, hv⟩ := h.exists_ok
    refine ⟨by simp, fun r t' e => ?_, fun _ => ⟨v, t, rfl⟩⟩
    cases e
    exact hv

theorem allSampled_zero {p : ParamSet} {fuel : Nat} (h : AllSampled p fuel) : (ExpandA (KYBER_K p) (iters fuel) (List.replicate 32 0)).isSome = true := h _ (by simp)

section
variable {σ : Type} (p : ParamSet) (E : SpEnv) (hE : Usable E) (fuel : Nat) (rb : Rng σ) (src : Nat → UInt8) (S : Nat → σ → Prop) (hrb : Delivers rb src S) (st : σ) (pos : Nat) (hst : S pos st)

section
include hE hrb hst

/-- C67. The program with the reference build, with `key` initialised and `ct` not: no undefined behaviour, and the twenty reports. -/
theorem C67_ref (ct key : Mem UInt8) (K : List UInt8) (hct : ct.size = KYBER_CIPHERTEXTBYTES p) (hks : key.size = 32) (hkey : key.Holds 0 K) (hK : K.length = 32) :
    PrintsReports p E fuel (speedMain p E (fun _ _ => refSpeed p fuel) rb st ct key) :=
  printsReports_of (speedMain_runs hE.ok (fun _ _ => ref_cpa p fuel) (fun _ _ => (ref_front p fuel).weaken allSampled_zero) (fun _ _ m c hm hc => ref_dec p fuel m c hm hc) (fun c hc => hc.1)
    (StreamRng.fill hrb) id ⟨pos, hst⟩ (matSz_uninit p) poly_uninit_size hct ⟨hks, K, hK, hkey⟩)

/-- C67. A defect of the source: the program as it is, with the reference build, has undefined behaviour whenever the key generation from the first 32 random bytes finishes: `indcpa_enc` is called
(test_speed.c:114) with the uninitialised `key` as message. -/
theorem C67_ref_uninit (hf : 1 ≤ fuel) (hkg : (K_PKE_KeyGen (fips p) (112 + 56 * fuel) (streamAt src pos 32)).isSome = true) :
    speedMain p E (fun _ _ => refSpeed p fuel) rb st (Mem.uninit UInt8 (KYBER_CIPHERTEXTBYTES p)) (Mem.uninit UInt8 32) = .ub .uninit := by
  have h := speedMain_ub_enc (g := True) (S := fun s => ∃ n, S n s) (u := .uninit) (ct := Mem.uninit UInt8 (KYBER_CIPHERTEXTBYTES p)) (key := Mem.uninit UInt8 32) (rb := rb) (st := st) hE.ok (fun _ _ => ref_cpa p fuel)
    (fun _ _ => (ref_front p fuel).weaken fun _ => zero_expandA_iters p hf) (fun _ _ m c hm hc => ref_dec p fuel m c hm hc) (fun _ _ _ pk hpk => enc_uninit p fuel (by decide) hpk)
    ((hrb st pos _ 0 32 hst (by rw [Mem.size_uninit]) (by decide)).mono fun r hr => ⟨hr.1.holds, _, hr.2⟩) (streamAt_length _ _ _)
    (fun st ⟨n, hn⟩ => (hrb st n _ 0 64 hn (by rw [Mem.size_uninit]) (by decide)).mono fun r hr => ⟨_, hr.2⟩) (fun _ => hkg) (matSz_uninit p) poly_uninit_size (Mem.size_uninit _)
  exact h.resolve_left fun h => h.1 trivial

/-- C67. With the AVX2 build and K = 2 the program as it is has undefined behaviour at the first call of the second measurement, `poly_getnoise_eta1` (C47); `ct` and `key` play no part in it. -/
theorem C67_avx2_k2 (hf : 1 ≤ fuel) (junk : Nat → Nat → Nat → Fin 4 → Nat → UInt8) (junk' : Nat → Nat → Fin 4 → Nat → UInt8) (ct key : Mem UInt8) :
    speedMain .k2 E (fun n i => avxSpeed .k2 (junk n i) (junk' n i) fuel) rb st ct key = .ub .uninit := by
  have h := speedMain_ub_eta1 (p := .k2) (A := fun n i => avxSpeed .k2 (junk n i) (junk' n i) fuel) (g := True) (S := fun s => ∃ n, S n s) (u := .uninit) (ct := ct) (key := key) (rb := rb) (st := st) hE.ok
    (fun n i m hm => ((avx_gen_msk .k2 (junk' n i) fuel hm).weaken fun _ => zero_expandA_iters .k2 hf).mono fun m hm => hm.sz) (fun _ _ => C47_getnoise_eta1_uninit)
    ((hrb st pos _ 0 32 hst (by rw [Mem.size_uninit]) (by decide)).mono fun r hr => ⟨_, hr.2⟩)
    (fun st ⟨n, hn⟩ => (hrb st n _ 0 64 hn (by rw [Mem.size_uninit]) (by decide)).mono fun r hr => ⟨_, hr.2⟩) (matSz_uninit .k2)
  exact h.resolve_left fun h => h.1 trivial

/-- C67. With the AVX2 build and K = 3, 4 the program as it is has undefined behaviour in the twelfth measurement: `polyvec_decompress` reads bytes of `ct` behind those that `polyvec_compress` wrote (C39). -/
theorem C67_avx2 (hp : p ≠ .k2) (hf : 1 ≤ fuel) (junk : Nat → Nat → Nat → Fin 4 → Nat → UInt8) (junk' : Nat → Nat → Fin 4 → Nat → UInt8) (key : Mem UInt8) :
    speedMain p E (fun n i => avxSpeed p (junk n i) (junk' n i) fuel) rb st (Mem.uninit UInt8 (KYBER_CIPHERTEXTBYTES p)) key = .ub .uninit := by
  have h := speedMain_ub_dec (p := p) (A := fun n i => avxSpeed p (junk n i) (junk' n i) fuel) (g := True) (S := fun s => ∃ n, S n s) (u := .uninit) (ct := Mem.uninit UInt8 (KYBER_CIPHERTEXTBYTES p)) (key := key)
    (rb := rb) (st := st) hE.ok
    (fun n i => avx_front hp (junk n i) (junk' n i) (pats_real hp) fun _ => zero_expandA_iters p hf)
    (fun n i m c hm hc => by
      obtain ⟨v, hv, hvm⟩ := hm.get 0 (KYBER_K_pos p).1
      exact ⟨v, hv, pvd_ub (pats_ub hp).1 (pats_ub hp).2 hc hvm (by rw [← msk_length, (pats_real hp).len _ ((pats_real hp).s3 _ hc)]; exact pW_le p)⟩)
    ((hrb st pos _ 0 32 hst (by rw [Mem.size_uninit]) (by decide)).mono fun r hr => ⟨_, hr.2⟩)
    (fun st ⟨n, hn⟩ => (hrb st n _ 0 64 hn (by rw [Mem.size_uninit]) (by decide)).mono fun r hr => ⟨_, hr.2⟩) (matSz_uninit p) poly_uninit_msk
    (by unfold CM; rw [msk_uninit]; exact List.mem_cons_self)
  exact h.resolve_left fun h => h.1 trivial

/-- C67. With the AVX2 build, K = 3, 4, and with `ct` and `key` initialised: no undefined behaviour, and the twenty reports. -/
theorem C67_avx2_init (hp : p ≠ .k2) (junk : Nat → Nat → Nat → Fin 4 → Nat → UInt8) (junk' : Nat → Nat → Fin 4 → Nat → UInt8) (ct key : Mem UInt8) (B K : List UInt8)
    (hcs : ct.size = KYBER_CIPHERTEXTBYTES p) (hct : ct.Holds 0 B) (hB : B.length = KYBER_CIPHERTEXTBYTES p) (hks : key.size = 32) (hkey : key.Holds 0 K) (hK : K.length = 32) :
    PrintsReports p E fuel (speedMain p E (fun n i => avxSpeed p (junk n i) (junk' n i) fuel) rb st ct key) := by
  refine printsReports_of (speedMain_runs hE.ok (fun n i => avx_cpa p (junk n i) (junk' n i) fuel) (fun n i => avx_front hp (junk n i) (junk' n i) (pats_init hp) allSampled_zero)
    (fun n i m c hm hc => ?_) (fun c hc => ?_) (StreamRng.fill hrb) id ⟨pos, hst⟩ (matSz_uninit p) poly_uninit_msk (ct := ct) ?_ ⟨hks, K, hK, hkey⟩)
  · obtain ⟨v, hv, hvm⟩ := hm.get 0 (KYBER_K_pos p).1
    exact ⟨v, hv, (pvd_msk (pats_dec hp) hc hvm (by rw [← msk_length, (pats_init hp).len _ hc]; exact pW_le p)).mono fun v' hv' => hm.set 0 hv'⟩
  · rw [← msk_length, (pats_init hp).len _ hc]
  · unfold CM patsI
    rw [msk_ones fun i hi => ⟨_, by have := hct i (by omega); rwa [Nat.zero_add] at this⟩, hcs]
    exact List.mem_singleton.2 rfl

end
end

/-! ## Instances -/

/-- A generator of zeros. -/
def zeroRng : Rng Unit := fun st out oo k => .ok ((out.toList.take oo ++ List.replicate k (some 0) ++ out.toList.drop (oo + k)).toArray, st) []

theorem zeroRng_delivers : Delivers zeroRng (fun _ => 0) (fun _ _ => True) := by
  intro st n out oo k _ h _
  have hl : (streamAt (fun _ => 0) n k) = List.replicate k 0 := by simp [streamAt, List.map_const']
  have hs : out.toList.length = out.size := Array.length_toList
  show (_ ∧ _)
  refine ⟨⟨?_, ?_, ?_⟩, trivial⟩
  · simp
    omega
  · intro i hi
    rw [hl, List.length_replicate] at hi
    simp only [hl, List.getElem?_toArray, List.getElem_replicate]
    rw [List.append_assoc, List.getElem?_append_right (by rw [List.length_take]; omega), List.getElem?_append_left (by rw [List.length_take, List.length_replicate]; omega)]
    rw [List.getElem?_replicate, if_pos (by rw [List.length_take]; omega)]
  · intro j hj
    rw [hl, List.length_replicate] at hj
    simp only [List.getElem?_toArray]
    rcases hj with hj | hj
    · rw [List.append_assoc, List.getElem?_append_left (by rw [List.length_take]; omega), List.getElem?_take_of_lt hj, Array.getElem?_toList]
    · rw [List.getElem?_append_right (by rw [List.length_append, List.length_take, List.length_replicate]; omega), List.getElem?_drop, Array.getElem?_toList]
      congr 1
      rw [List.length_append, List.length_take, List.length_replicate]
      omega

/-- A machine: the counter advances by 30 per reading, `qsort` is merge sort, the constants are those of the source. -/
def env67 : SpEnv := ⟨fun i => UInt64.ofNat (30 * i), qsDemo, 100000, 1000⟩

theorem env67_usable : Usable env67 := ⟨qsDemo_spec, by decide, by decide⟩

/-- The program as it is, reference build, K = 2. -/
example : speedMain .k2 env67 (fun _ _ => refSpeed .k2 1) zeroRng () (Mem.uninit UInt8 768) (Mem.uninit UInt8 32) = .ub .uninit := by
  refine C67_ref_uninit .k2 env67 env67_usable 1 zeroRng _ _ zeroRng_delivers () 0 trivial (by decide) ?_
  obtain ⟨ek, dk, h⟩ := kat_keygen []
  obtain ⟨dk', h', _⟩ := keygen_inv h
  rw [show streamAt (fun _ => 0) 0 32 = List.replicate 32 0 from rfl, show fips .k2 = ML_KEM_512 from rfl, show 112 + 56 * 1 = 168 from rfl, h']
  rfl

/-- The program as it is, AVX2 build. -/
example (junk : Nat → Nat → Nat → Fin 4 → Nat → UInt8) (junk' : Nat → Nat → Fin 4 → Nat → UInt8) :
    speedMain .k4 env67 (fun n i => avxSpeed .k4 (junk n i) (junk' n i) 1) zeroRng () (Mem.uninit UInt8 1568) (Mem.uninit UInt8 32) = .ub .uninit :=
  C67_avx2 .k4 env67 env67_usable 1 zeroRng _ _ zeroRng_delivers () 0 trivial (by decide) (by decide) junk junk' _
example (junk : Nat → Nat → Nat → Fin 4 → Nat → UInt8) (junk' : Nat → Nat → Fin 4 → Nat → UInt8) :
    speedMain .k2 env67 (fun n i => avxSpeed .k2 (junk n i) (junk' n i) 1) zeroRng () (Mem.uninit UInt8 768) (Mem.uninit UInt8 32) = .ub .uninit :=
  C67_avx2_k2 env67 env67_usable 1 zeroRng _ _ zeroRng_delivers () 0 trivial (by decide) junk junk' _ _

/-- The program with the message initialised, reference build. -/
example (fuel : Nat) (u : UB) : speedMain .k4 env67 (fun _ _ => refSpeed .k4 fuel) zeroRng () (Mem.uninit UInt8 1568) (Mem.ofList (List.replicate 32 7)) ≠ .ub u :=
  (C67_ref .k4 env67 env67_usable fuel zeroRng _ _ zeroRng_delivers () 0 trivial _ _ _ (Mem.size_uninit _) (by simp [Mem.ofList]) (Mem.holds_ofList _) List.length_replicate).1 u

/-- The program with initialised buffers, AVX2 build, K = 3. -/
example (junk : Nat → Nat → Nat → Fin 4 → Nat → UInt8) (junk' : Nat → Nat → Fin 4 → Nat → UInt8) (fuel : Nat) (u : UB) :
    speedMain .k3 env67 (fun n i => avxSpeed .k3 (junk n i) (junk' n i) fuel) zeroRng () (Mem.ofList (List.replicate 1088 7)) (Mem.ofList (List.replicate 32 7)) ≠ .ub u :=
  (C67_avx2_init .k3 env67 env67_usable fuel zeroRng _ _ zeroRng_delivers () 0 trivial (by decide) junk junk' _ _ _ _ (by unfold Mem.ofList; rw [List.size_toArray, List.length_map, List.length_replicate]; rfl) (Mem.holds_ofList _) (by rw [List.length_replicate]; rfl)
    (by simp [Mem.ofList]) (Mem.holds_ofList _) List.length_replicate).1 u

/-- What two measurements of three readings print, for a counter that advances by 30 per reading. -/
example : speedText (fun i => UInt64.ofNat (30 * i)) 5 3 ["gen_a: ", "NTT: "] 0xffffffffffffffff 0 =
    ("gen_a: \nmedian: 0 cycles/ticks\naverage: 0 cycles/ticks\n\n" ++ "NTT: \nmedian: 0 cycles/ticks\naverage: 0 cycles/ticks\n\n").toList := by decide +kernel

end Verif.Props
