import Verif.Proof.TestSpeed
import Verif.Proof.Programs

/-! # test_speed.c: the measurements one by one, for any build -/

namespace Verif.Proof
open Verif.Model Verif.Spec

variable {σ : Type}

/-- `m` is undefined, or runs out of fuel, which it can do only if `g` fails. -/
def RunsU {α : Type} (g : Prop) (m : C α) (u : UB) : Prop := (¬ g ∧ m = .diverge) ∨ m = .ub u

theorem RunsP.bindU {α β : Type} {g : Prop} {m : C α} {f : α → C β} {P : α → Prop} {u : UB} (h : RunsP g m P) (hf : ∀ v, P v → RunsU g (f v) u) : RunsU g (m >>= f) u := by
  rcases h with ⟨hg, h⟩ | h
  · subst h
    exact .inl ⟨hg, rfl⟩
  · obtain ⟨v, t, e, hv⟩ := h.exists_ok
    rcases hf v hv with ⟨hg, h'⟩ | h'
    · refine .inl ⟨hg, ?_⟩
      subst e
      show C.bind _ _ = _
      simp [C.bind, h']
    · refine .inr ?_
      subst e
      show C.bind _ _ = _
      simp [C.bind, h']

theorem RunsU.bind {α β : Type} {g : Prop} {m : C α} {f : α → C β} {u : UB} (h : RunsU g m u) : RunsU g (m >>= f) u := by
  rcases h with ⟨hg, h⟩ | h
  · subst h
    exact .inl ⟨hg, rfl⟩
  · exact .inr (Avx.ub_bind h)

/-- The first `n` bytes are initialised. -/
def Filled (m : Mem UInt8) (n : Nat) : Prop := ∃ l : List UInt8, l.length = n ∧ m.Holds 0 l

theorem Filled.le {m : Mem UInt8} {n k : Nat} (h : Filled m n) (hk : k ≤ n) : Filled m k := by
  obtain ⟨l, hl, h⟩ := h
  refine ⟨l.take k, by simp; omega, fun i hi => ?_⟩
  rw [h i (by simp at hi; omega)]
  simp

theorem Filled.of {m : Mem UInt8} {n : Nat} (h : ∀ i < n, ∃ x, m[i]? = some (some x)) : Filled m n := by
  refine ⟨(List.range n).map fun i => (m[i]?.getD none).getD 0, by simp, fun i hi => ?_⟩
  simp at hi
  obtain ⟨x, hx⟩ := h i hi
  simp [hx]

/-- The generator fills buffers, whatever with. -/
def FillRng (rb : Rng σ) (S : σ → Prop) : Prop :=
  ∀ st out oo k, S st → oo + k ≤ out.size → k < 4294967296 → Runs (rb st out oo k) (fun r => (∃ l : List UInt8, l.length = k ∧ out.Wrote r.1 oo l) ∧ S r.2)

theorem StreamRng.fill {rb : Rng σ} {src : Nat → UInt8} {S : Nat → σ → Prop} (h : StreamRng rb src S) : FillRng rb (fun st => ∃ n, S n st) := by
  rintro st out oo k ⟨n, hn⟩ hs hk
  exact (h st n out oo k hn hs hk).mono fun r hr => ⟨⟨_, streamAt_length src n k, hr.1⟩, _, hr.2⟩

/-- Every matrix can be sampled with the given fuel. -/
def AllSampled (p : ParamSet) (fuel : Nat) : Prop := ∀ ρ : List UInt8, ρ.length = 32 → (ExpandA (KYBER_K p) (iters fuel) ρ).isSome = true

section
attribute [local irreducible] ExpandA G

theorem keygen_some {p : ParamSet} {fuel : Nat} (h : AllSampled p fuel) (d : List UInt8) : (K_PKE_KeyGen (fips p) (iters fuel) d).isSome = true := by
  obtain ⟨A, hA⟩ := Option.isSome_iff_exists.1 (h _ (G_fst_length (d ++ [UInt8.ofNat (fips p).k])))
  rw [show KYBER_K p = (fips p).k by cases p <;> rfl] at hA
  rw [K_PKE_KeyGen_eq, hA]
  rfl

theorem encrypt_some {p : ParamSet} {fuel : Nat} (h : AllSampled p fuel) {ek : List UInt8} (hl : ek.length = 384 * (fips p).k + 32) (m r : List UInt8) :
    (K_PKE_Encrypt (fips p) (iters fuel) ek m r).isSome = true := by
  obtain ⟨A, hA⟩ := Option.isSome_iff_exists.1 (h (bytes ek (384 * (fips p).k) (384 * (fips p).k + 32)) (by simp [bytes, hl]))
  rw [show KYBER_K p = (fips p).k by cases p <;> rfl] at hA
  rw [K_PKE_Encrypt_eq, hA]
  rfl
end

theorem keyGen_some {p : ParamSet} {fuel : Nat} (h : AllSampled p fuel) (d z : List UInt8) : (KeyGen_internal (fips p) (iters fuel) d z).isSome = true := by
  obtain ⟨A, hA⟩ := Option.isSome_iff_exists.1 (keygen_some h d)
  unfold KeyGen_internal
  rw [hA]
  rfl

theorem encaps_some {p : ParamSet} {fuel : Nat} (h : AllSampled p fuel) {ek : List UInt8} (hl : ek.length = KYBER_PUBLICKEYBYTES p) (m : List UInt8) :
    (Encaps_internal (fips p) (iters fuel) ek m).isSome = true := by
  rw [pk_size'] at hl
  obtain ⟨A, hA⟩ := Option.isSome_iff_exists.1 (encrypt_some h hl m (G (m ++ H ek)).2)
  unfold Encaps_internal
  dsimp only
  rw [hA]
  rfl

theorem decaps_some {p : ParamSet} {fuel : Nat} (h : AllSampled p fuel) {dk : List UInt8} (hl : dk.length = KYBER_SECRETKEYBYTES p) (c : List UInt8) :
    (Decaps_internal (fips p) (iters fuel) dk c).isSome = true := by
  rw [sk_size] at hl
  have hb : (bytes dk (384 * (fips p).k) (768 * (fips p).k + 32)).length = 384 * (fips p).k + 32 := by simp [bytes]; omega
  unfold Decaps_internal
  dsimp only
  generalize bytes dk (384 * (fips p).k) (768 * (fips p).k + 32) = ek at hb ⊢
  generalize K_PKE_Decrypt (fips p) _ c = m
  generalize G _ = kr
  obtain ⟨A, hA⟩ := Option.isSome_iff_exists.1 (encrypt_some h hb m kr.2)
  rw [hA]
  rfl

/-- The K-PKE calls of a build do what the standard says. -/
structure CpaSpec (p : ParamSet) (fuel : Nat) (A : SpeedApi) : Prop where
  keypair : ∀ {pk sk coins : Mem UInt8} {d : List UInt8}, coins.Holds 0 d → d.length = 32 → KYBER_PUBLICKEYBYTES p ≤ pk.size → KYBER_INDCPA_SECRETKEYBYTES p ≤ sk.size →
    RunsO (A.cpa_keypair pk sk coins) (K_PKE_KeyGen (fips p) (iters fuel) d) (fun o s => pk.Wrote s.1 0 o.1 ∧ sk.Wrote s.2 0 o.2)
  enc : ∀ {c m pk coins : Mem UInt8} {ek M r : List UInt8}, m.Holds 0 M → M.length = 32 → pk.Holds 0 ek → ek.length = KYBER_PUBLICKEYBYTES p → coins.Holds 0 r → r.length = 32 →
    KYBER_CIPHERTEXTBYTES p ≤ c.size → RunsO (A.cpa_enc c m pk coins) (K_PKE_Encrypt (fips p) (iters fuel) ek M r) (fun o s => c.Wrote s 0 o)
  dec : ∀ {m c sk : Mem UInt8} {ct dk : List UInt8}, c.Holds 0 ct → ct.length = KYBER_CIPHERTEXTBYTES p → sk.Holds 0 dk → dk.length = KYBER_INDCPA_SECRETKEYBYTES p → 32 ≤ m.size →
    Runs (A.cpa_dec m c sk) (fun s => m.Wrote s 0 (K_PKE_Decrypt (fips p) dk ct))
  kem : ApiSpec p fuel A.kem

/-- The measurements of the lower layers with their pre- and postconditions: `M` of the matrix, `P` of the polynomial, `C` of the ciphertext buffer. -/
structure FrontOk (g : Prop) (A : SpeedApi) (M0 M : Array Polyvec → Prop) (P0 P Pm : Poly → Prop) (C0 C1 C2 C3 : Mem UInt8 → Prop) : Prop where
  gen : ∀ m, M0 m → RunsP g (A.gen_matrix m speedSeed) M
  eta1 : ∀ a, P0 a → Runs (A.getnoise_eta1 a speedSeed) P
  eta2 : ∀ a, P a → Runs (A.getnoise_eta2 a speedSeed) P
  ntt : ∀ a, P a → Runs (A.ntt a) P
  invntt : ∀ a, P a → Runs (A.invntt a) P
  bm : ∀ a m, P a → M m → ∃ v w, m[0]? = some v ∧ m[1]? = some w ∧ Runs (A.basemul_acc a v w) Pm
  tomsg : ∀ c a, C0 c → Pm a → Runs (A.tomsg c a) C1
  frommsg : ∀ c a, C1 c → P a → Runs (A.frommsg a c) P
  compress : ∀ c a, C1 c → P a → Runs (A.compress c a) C2
  decompress : ∀ c a, C2 c → P a → Runs (A.decompress a c) P
  pvc : ∀ c m, C2 c → M m → ∃ v, m[0]? = some v ∧ Runs (A.pv_compress c v) C3
  hM : ∀ m, M m → M0 m
  hP : ∀ a, P a → P0 a
  hPm : ∀ a, Pm a → P a
  hC1 : ∀ c, C1 c → C0 c
  hC2 : ∀ c, C2 c → C1 c
  hC3 : ∀ c, C3 c → C2 c

theorem FrontOk.weaken {g g' : Prop} {A : SpeedApi} {M0 M : Array Polyvec → Prop} {P0 P Pm : Poly → Prop} {C0 C1 C2 C3 : Mem UInt8 → Prop} (h : FrontOk g A M0 M P0 P Pm C0 C1 C2 C3)
    (hg : g' → g) : FrontOk g' A M0 M P0 P Pm C0 C1 C2 C3 := { h with gen := fun m hm => (h.gen m hm).weaken hg }

/-- The state in front of `kem` measurements. -/
structure Fr (p : ParamSet) (S : σ → Prop) (KI : Mem UInt8 → Prop) (M : Array Polyvec → Prop) (P : Poly → Prop) (C : Mem UInt8 → Prop) (b : SpBufs σ) : Prop where
  rng : S b.rng
  pk : b.pk.size = KYBER_PUBLICKEYBYTES p
  sk : b.sk.size = KYBER_SECRETKEYBYTES p
  key : KI b.key
  mat : M b.mat
  ap : P b.ap
  ct : C b.ct

theorem runsP_at {g : Prop} {α β : Type} {m : Array α} {i : Nat} {v : α} {f : α → C β} {Q : β → Prop} (h : m[i]? = some v) (hf : RunsP g (f v) Q) : RunsP g (at' m i >>= f) Q :=
  RunsP.bind (P := fun x => x = v) (.of (by rw [runs_at]; exact ⟨v, h, rfl⟩)) fun x hx => by subst hx; exact hf

section
variable {p : ParamSet} {E : SpEnv} {S : σ → Prop} {KI : Mem UInt8 → Prop} {g : Prop} {A : Nat → Nat → SpeedApi} {M0 M : Array Polyvec → Prop} {P0 P Pm : Poly → Prop}
  {C0 C1 C2 C3 : Mem UInt8 → Prop}

/-- The titles of the first eleven measurements. -/
def frontTitles : List String := ["gen_a: ", "poly_getnoise_eta1: ", "poly_getnoise_eta2: ", "NTT: ", "INVNTT: ", "polyvec_basemul_acc_montgomery: ", "poly_tomsg: ", "poly_frommsg: ",
  "poly_compress: ", "poly_decompress: ", "polyvec_compress: "]

theorem front_runs (hE : EnvOk E) (hA : ∀ n i, FrontOk g (A n i) M0 M P0 P Pm C0 C1 C2 C3) {s : SpSt σ} (ht : s.t.size = E.nt) (hs : Fr p S KI M0 P0 C0 s.b) :
    RunsP g (timedAll E (polyTests A) s) (After E (Fr p S KI M P C3) frontTitles s.pr) := by
  have h0 : After E (Fr p S KI M0 P0 C0) [] s.pr s := ⟨hs, ht, rfl⟩
  generalize s.pr = pr0 at h0 ⊢
  unfold polyTests
  refine timedAll_cons hE _ _ h0 (J := Fr p S KI M P0 C0) (fun b h => ⟨h.1, h.2, h.3, h.4, (hA 0 0).hM _ h.5, h.6, h.7⟩) (fun i b _ h => ?_) fun s h => ?_
  · exact ((hA _ _).gen _ h.mat).bind fun x hx => .of ⟨h.1, h.2, h.3, h.4, hx, h.6, h.7⟩
  refine timedAll_cons hE _ _ h (J := Fr p S KI M P C0) (fun b h => ⟨h.1, h.2, h.3, h.4, h.5, (hA 0 0).hP _ h.6, h.7⟩) (fun i b _ h => ?_) fun s h => ?_
  · exact (RunsP.of ((hA _ _).eta1 _ h.ap)).bind fun x hx => .of ⟨h.1, h.2, h.3, h.4, h.5, hx, h.7⟩
  refine timedAll_cons hE _ _ h (J := Fr p S KI M P C0) (fun b h => h) (fun i b _ h => ?_) fun s h => ?_
  · exact (RunsP.of ((hA _ _).eta2 _ h.ap)).bind fun x hx => .of ⟨h.1, h.2, h.3, h.4, h.5, hx, h.7⟩
  refine timedAll_cons hE _ _ h (J := Fr p S KI M P C0) (fun b h => h) (fun i b _ h => ?_) fun s h => ?_
  · exact (RunsP.of ((hA _ _).ntt _ h.ap)).bind fun x hx => .of ⟨h.1, h.2, h.3, h.4, h.5, hx, h.7⟩
  refine timedAll_cons hE _ _ h (J := Fr p S KI M P C0) (fun b h => h) (fun i b _ h => ?_) fun s h => ?_
  · exact (RunsP.of ((hA _ _).invntt _ h.ap)).bind fun x hx => .of ⟨h.1, h.2, h.3, h.4, h.5, hx, h.7⟩
  refine timedAll_cons hE _ _ h (J := Fr p S KI M Pm C0) (fun b h => ⟨h.1, h.2, h.3, h.4, h.5, (hA 0 0).hPm _ h.6, h.7⟩) (fun i b _ h => ?_) fun s h => ?_
  · obtain ⟨v, w, hv, hw, hr⟩ := (hA 5 i).bm _ _ h.ap h.mat
    exact runsP_at hv (runsP_at hw ((RunsP.of hr).bind fun x hx => .of ⟨h.1, h.2, h.3, h.4, h.5, hx, h.7⟩))
  refine timedAll_cons hE _ _ h (J := Fr p S KI M Pm C1) (fun b h => ⟨h.1, h.2, h.3, h.4, h.5, h.6, (hA 0 0).hC1 _ h.7⟩) (fun i b _ h => ?_) fun s h => ?_
  · exact (RunsP.of ((hA _ _).tomsg _ _ h.ct h.ap)).bind fun x hx => .of ⟨h.1, h.2, h.3, h.4, h.5, h.6, hx⟩
  have h : After E (Fr p S KI M P C1) _ pr0 s := ⟨⟨h.1.1, h.1.2, h.1.3, h.1.4, h.1.5, (hA 0 0).hPm _ h.1.6, h.1.7⟩, h.2, h.3⟩
  refine timedAll_cons hE _ _ h (J := Fr p S KI M P C1) (fun b h => h) (fun i b _ h => ?_) fun s h => ?_
  · exact (RunsP.of ((hA _ _).frommsg _ _ h.ct h.ap)).bind fun x hx => .of ⟨h.1, h.2, h.3, h.4, h.5, hx, h.7⟩
  refine timedAll_cons hE _ _ h (J := Fr p S KI M P C2) (fun b h => ⟨h.1, h.2, h.3, h.4, h.5, h.6, (hA 0 0).hC2 _ h.7⟩) (fun i b _ h => ?_) fun s h => ?_
  · exact (RunsP.of ((hA _ _).compress _ _ h.ct h.ap)).bind fun x hx => .of ⟨h.1, h.2, h.3, h.4, h.5, h.6, hx⟩
  refine timedAll_cons hE _ _ h (J := Fr p S KI M P C2) (fun b h => h) (fun i b _ h => ?_) fun s h => ?_
  · exact (RunsP.of ((hA _ _).decompress _ _ h.ct h.ap)).bind fun x hx => .of ⟨h.1, h.2, h.3, h.4, h.5, hx, h.7⟩
  refine timedAll_cons hE _ _ h (J := Fr p S KI M P C3) (fun b h => ⟨h.1, h.2, h.3, h.4, h.5, h.6, (hA 0 0).hC3 _ h.7⟩) (fun i b _ h => ?_) fun s h => ?_
  · obtain ⟨v, hv, hr⟩ := (hA 10 i).pvc _ _ h.ct h.mat
    exact runsP_at hv ((RunsP.of hr).bind fun x hx => .of ⟨h.1, h.2, h.3, h.4, h.5, h.6, hx⟩)
  exact .of h

/-- The twelfth measurement. -/
theorem dec_stage (hE : EnvOk E) (hA : ∀ n i m c, M m → C3 c → ∃ v, m[0]? = some v ∧ Runs ((A n i).pv_decompress v c) (fun v' => M (m.setIfInBounds 0 v'))) {s : SpSt σ} {titles : List String}
    {pr0 : PrintSt} {K : SpBufs σ → Prop} {ts : List String} {l : List (SpTest σ)} (h : After E (Fr p S KI M P C3) titles pr0 s)
    (hl : ∀ s', After E (Fr p S KI M P C3) (titles ++ ["polyvec_decompress: "]) pr0 s' → RunsP g (timedAll E l s') (After E K ts pr0)) :
    RunsP g (timedAll E (decTest A :: l) s) (After E K ts pr0) := by
  refine timedAll_cons hE _ _ h (J := Fr p S KI M P C3) (fun b h => h) (fun i b _ h => ?_) hl
  obtain ⟨v, hv, hr⟩ := hA 11 i _ _ h.mat h.ct
  refine runsP_at hv ((RunsP.of hr).bind fun v' hv' => ?_)
  refine (RunsP.of (Q := fun m => m = b.mat.setIfInBounds 0 v') ?_).bind fun m hm => .of ?_
  · rw [runs_put]
    exact ⟨(Array.getElem?_eq_some_iff.1 hv).1, rfl⟩
  · subst hm
    exact ⟨h.1, h.2, h.3, h.4, hv', h.6, h.7⟩

/-- The state after `indcpa_keypair_derand`: `n` bytes of the secret key are known to be written. -/
structure Kp (p : ParamSet) (S : σ → Prop) (KI C : Mem UInt8 → Prop) (n : Nat) (b : SpBufs σ) : Prop where
  rng : S b.rng
  pk : b.pk.size = KYBER_PUBLICKEYBYTES p
  sk : b.sk.size = KYBER_SECRETKEYBYTES p
  key : KI b.key
  ct : C b.ct
  pkF : Filled b.pk (KYBER_PUBLICKEYBYTES p)
  skF : Filled b.sk n

theorem sk_le (p : ParamSet) : KYBER_INDCPA_SECRETKEYBYTES p ≤ KYBER_SECRETKEYBYTES p := by cases p <;> decide

/-- The thirteenth measurement. -/
theorem keypair_stage (hE : EnvOk E) {fuel : Nat} (hA : ∀ n i, CpaSpec p fuel (A n i)) {coins32 : Mem UInt8} {d : List UInt8} (hd : coins32.Holds 0 d) (hdl : d.length = 32)
    {s : SpSt σ} {titles : List String}
    {pr0 : PrintSt} {K : SpBufs σ → Prop} {ts : List String} {l : List (SpTest σ)} (h : After E (Fr p S KI M P C3) titles pr0 s) (hg : g → (K_PKE_KeyGen (fips p) (iters fuel) d).isSome = true)
    (hl : ∀ s', After E (Kp p S KI C3 (KYBER_INDCPA_SECRETKEYBYTES p)) (titles ++ ["indcpa_keypair: "]) pr0 s' → RunsP g (timedAll E l s') (After E K ts pr0)) :
    RunsP g (timedAll E (keypairTest A coins32 :: l) s) (After E K ts pr0) := by
  have h : After E (fun b : SpBufs σ => S b.rng ∧ b.pk.size = KYBER_PUBLICKEYBYTES p ∧ b.sk.size = KYBER_SECRETKEYBYTES p ∧ KI b.key ∧ C3 b.ct) titles pr0 s :=
    ⟨⟨h.1.1, h.1.2, h.1.3, h.1.4, h.1.7⟩, h.2, h.3⟩
  refine timedAll_cons hE _ _ h (J := Kp p S KI C3 (KYBER_INDCPA_SECRETKEYBYTES p)) (fun b h => ⟨h.1, h.2, h.3, h.4, h.5⟩) (fun i b _ h => ?_) hl
  obtain ⟨h1, h2, h3, h4, h5⟩ := h
  refine ((RunsP.ofO ((hA 12 i).keypair hd hdl (by rw [h2]) (by rw [h3]; exact sk_le p))).weaken hg).bind fun r hr => .of ?_
  obtain ⟨pk', sk'⟩ := r
  obtain ⟨o, ho, hr1, hr2⟩ := hr
  obtain ⟨l1, l2⟩ := keygen_length ho
  refine ⟨h1, by rw [← h2]; exact hr1.size, by rw [← h3]; exact hr2.size, h4, h5, ⟨o.1, ?_, hr1.holds⟩, ⟨o.2, ?_, hr2.holds⟩⟩
  · rw [l1, pk_size']
  · rw [l2]; cases p <;> rfl

/-- A buffer of `n` bytes, all of them written. -/
def Full (n : Nat) (m : Mem UInt8) : Prop := m.size = n ∧ Filled m n

theorem speedSeed_holds : speedSeed.Holds 0 (List.replicate 32 0) := Mem.holds_ofList _

theorem cpa_ct (p : ParamSet) : 32 * ((fips p).du * (fips p).k + (fips p).dv) = KYBER_CIPHERTEXTBYTES p := by cases p <;> rfl

/-- The fourteenth measurement, with an initialised message. -/
theorem enc_stage (hE : EnvOk E) {fuel : Nat} (hA : ∀ n i, CpaSpec p fuel (A n i)) (hC : ∀ c, C3 c → c.size = KYBER_CIPHERTEXTBYTES p)
    {s : SpSt σ} {titles : List String} {n : Nat}
    {pr0 : PrintSt} {K : SpBufs σ → Prop} {ts : List String} {l : List (SpTest σ)} (h : After E (Kp p S (Full KYBER_SSBYTES) C3 n) titles pr0 s) (hg : g → AllSampled p fuel)
    (hl : ∀ s', After E (Kp p S (Full KYBER_SSBYTES) (Full (KYBER_CIPHERTEXTBYTES p)) n) (titles ++ ["indcpa_enc: "]) pr0 s' → RunsP g (timedAll E l s') (After E K ts pr0)) :
    RunsP g (timedAll E (encTest A :: l) s) (After E K ts pr0) := by
  have h : After E (Kp p S (Full KYBER_SSBYTES) (fun c => c.size = KYBER_CIPHERTEXTBYTES p) n) titles pr0 s :=
    ⟨⟨h.1.1, h.1.2, h.1.3, h.1.4, hC _ h.1.5, h.1.6, h.1.7⟩, h.2, h.3⟩
  refine timedAll_cons hE _ _ h (J := Kp p S (Full KYBER_SSBYTES) (Full (KYBER_CIPHERTEXTBYTES p)) n) (fun b h => ⟨h.1, h.2, h.3, h.4, h.5.1, h.6, h.7⟩) (fun i b _ h => ?_) hl
  obtain ⟨m, hml, hm⟩ := h.key.2
  obtain ⟨ek, hel, hek⟩ := h.pkF
  have hel' := hel
  rw [pk_size'] at hel'
  refine ((RunsP.ofO ((hA 13 i).enc hm hml hek hel speedSeed_holds (by simp) (by rw [h.ct]))).weaken fun x => encrypt_some (hg x) hel' _ _).bind fun c hc => .of ?_
  obtain ⟨o, ho, hw⟩ := hc
  exact ⟨h.1, h.2, h.3, h.4, ⟨by rw [hw.size, h.ct], o, by rw [encrypt_length ho, cpa_ct], hw.holds⟩, h.6, h.7⟩

/-- The titles of the last six measurements. -/
def kemTitles : List String := ["indcpa_dec: ", "kyber_keypair_derand: ", "kyber_keypair: ", "kyber_encaps_derand: ", "kyber_encaps: ", "kyber_decaps: "]

/-- The last six measurements. -/
theorem kem_stage (hE : EnvOk E) {fuel : Nat} (hA : ∀ n i, CpaSpec p fuel (A n i)) {rb : Rng σ} (hrb : FillRng rb S) {coins32 coins64 : Mem UInt8} (h32 : Full 32 coins32) (h64 : Full 64 coins64)
    {s : SpSt σ} {titles : List String} {pr0 : PrintSt}
    (h : After E (Kp p S (Full KYBER_SSBYTES) (Full (KYBER_CIPHERTEXTBYTES p)) (KYBER_INDCPA_SECRETKEYBYTES p)) titles pr0 s) (hg : g → AllSampled p fuel) :
    RunsP g (timedAll E (kemTests A rb coins32 coins64) s)
      (After E (Kp p S (Full KYBER_SSBYTES) (Full (KYBER_CIPHERTEXTBYTES p)) (KYBER_SECRETKEYBYTES p)) (titles ++ kemTitles) pr0) := by
  obtain ⟨c64, hc64l, hc64⟩ := h64.2
  obtain ⟨c32, hc32l, hc32⟩ := h32.2
  have hz : c64 = c64.take 32 ++ c64.drop 32 := (List.take_append_drop 32 c64).symm
  have hc64' := hc64
  rw [hz, Mem.Holds.append] at hc64'
  have hlt : (c64.take 32).length = 32 := by simp; omega
  have hld : (c64.drop 32).length = 32 := by simp; omega
  rw [hlt] at hc64'
  have hlow : ∀ b : SpBufs σ, Kp p S (Full KYBER_SSBYTES) (Full (KYBER_CIPHERTEXTBYTES p)) (KYBER_SECRETKEYBYTES p) b →
      Kp p S (Full KYBER_SSBYTES) (Full (KYBER_CIPHERTEXTBYTES p)) (KYBER_INDCPA_SECRETKEYBYTES p) b := fun b h => ⟨h.1, h.2, h.3, h.4, h.5, h.6, h.7.le (sk_le p)⟩
  have hkey : ∀ (i : Nat) (b : SpBufs σ) (coins : Mem UInt8) (d z : List UInt8), d.length = 32 → z.length = 32 → coins.Holds 0 d → coins.Holds 32 z →
      Kp p S (Full KYBER_SSBYTES) (Full (KYBER_CIPHERTEXTBYTES p)) (KYBER_INDCPA_SECRETKEYBYTES p) b → ∀ n,
      RunsP g ((A n i).kem.keypair_derand b.pk b.sk coins) (fun r => ∀ st, S st → Kp p S (Full KYBER_SSBYTES) (Full (KYBER_CIPHERTEXTBYTES p)) (KYBER_SECRETKEYBYTES p)
        { b with pk := r.1, sk := r.2.1, rng := st }) := by
    intro i b coins d z hd hz h1 h2 h n
    refine ((RunsP.ofO ((hA n i).kem.keypair h1 hd h2 hz (by rw [h.pk]) (by rw [h.sk]))).weaken fun x => keyGen_some (hg x) _ _).mono fun r hr st hst => ?_
    obtain ⟨o, ho, hr1, hr2, _⟩ := hr
    obtain ⟨l1, l2⟩ := keyGen_lengths hz ho
    exact ⟨hst, by rw [← h.pk]; exact hr1.size, by rw [← h.sk]; exact hr2.size, h.4, h.5, ⟨o.1, l1, hr1.holds⟩, ⟨o.2, l2, hr2.holds⟩⟩
  have henc : ∀ (i : Nat) (b : SpBufs σ) (coins : Mem UInt8) (m : List UInt8), m.length = 32 → coins.Holds 0 m →
      Kp p S (Full KYBER_SSBYTES) (Full (KYBER_CIPHERTEXTBYTES p)) (KYBER_SECRETKEYBYTES p) b → ∀ n,
      RunsP g ((A n i).kem.enc_derand b.ct b.key b.pk coins) (fun r => ∀ st, S st → Kp p S (Full KYBER_SSBYTES) (Full (KYBER_CIPHERTEXTBYTES p)) (KYBER_SECRETKEYBYTES p)
        { b with ct := r.1, key := r.2.1, rng := st }) := by
    intro i b coins m hm h1 h n
    obtain ⟨ek, hel, hek⟩ := h.pkF
    refine ((RunsP.ofO ((hA n i).kem.enc h1 hm hek hel (by rw [h.ct.1]) (by rw [h.key.1]))).weaken fun x => encaps_some (hg x) hel _).mono fun r hr st hst => ?_
    obtain ⟨o, ho, hr1, hr2, _⟩ := hr
    obtain ⟨l1, l2⟩ := encaps_lengths ho
    exact ⟨hst, h.2, h.3, ⟨by rw [← h.key.1]; exact hr2.size, o.1, l1, hr2.holds⟩, ⟨by rw [← h.ct.1]; exact hr1.size, o.2, l2, hr1.holds⟩, h.6, h.7⟩
  unfold kemTests
  refine timedAll_cons hE _ _ h (J := Kp p S (Full KYBER_SSBYTES) (Full (KYBER_CIPHERTEXTBYTES p)) (KYBER_INDCPA_SECRETKEYBYTES p)) (fun b h => h) (fun i b _ h => ?_) fun s h => ?_
  · obtain ⟨ct, hcl, hct⟩ := h.ct.2
    obtain ⟨dk, hdl, hdk⟩ := h.skF
    refine (RunsP.of ((hA 14 i).dec hct hcl hdk hdl (by rw [h.key.1]; decide))).bind fun k hk => .of ?_
    exact ⟨h.1, h.2, h.3, ⟨by rw [← h.key.1]; exact hk.size, _, decrypt_length _ _ _, hk.holds⟩, h.5, h.6, h.7⟩
  refine timedAll_cons hE _ _ h (J := Kp p S (Full KYBER_SSBYTES) (Full (KYBER_CIPHERTEXTBYTES p)) (KYBER_SECRETKEYBYTES p)) hlow (fun i b _ h => ?_) fun s h => ?_
  · refine (hkey i b coins64 _ _ hlt hld hc64'.1 (by simpa using hc64'.2) h 15).bind fun r hr => .of ?_
    exact hr b.rng h.rng
  refine timedAll_cons hE _ _ h (J := Kp p S (Full KYBER_SSBYTES) (Full (KYBER_CIPHERTEXTBYTES p)) (KYBER_SECRETKEYBYTES p)) (fun b h => h) (fun i b _ h => ?_) fun s h => ?_
  · unfold kemKeypair
    dsimp only
    refine RunsP.bind (P := fun r => ∃ st, S st ∧ ∃ pk sk, r.1 = pk ∧ r.2.1 = sk ∧ r.2.2.2 = st ∧
      Kp p S (Full KYBER_SSBYTES) (Full (KYBER_CIPHERTEXTBYTES p)) (KYBER_SECRETKEYBYTES p) { b with pk := pk, sk := sk, rng := st }) ?_ fun r hr => ?_
    · refine (RunsP.of (hrb b.rng _ 0 (2 * KYBER_SYMBYTES) h.rng (by rw [Mem.size_uninit]; decide) (by decide))).bind fun r hr => ?_
      obtain ⟨coins, st⟩ := r
      obtain ⟨⟨c, hcl, hc⟩, hst⟩ := hr
      dsimp only at hst hc ⊢
      have hcl : c.length = 64 := hcl
      have hc := hc.holds
      rw [(List.take_append_drop 32 c).symm, Mem.Holds.append] at hc
      have hlt : (c.take 32).length = 32 := by simp; omega
      have hld : (c.drop 32).length = 32 := by simp; omega
      rw [hlt] at hc
      refine (hkey i b coins _ _ hlt hld hc.1 (by simpa using hc.2) (hlow _ h) 16).bind fun r hr => .of ?_
      exact ⟨st, hst, _, _, rfl, rfl, rfl, hr st hst⟩
    · obtain ⟨st, hst, pk, sk, e1, e2, e3, hk⟩ := hr
      obtain ⟨pk', sk', x, st'⟩ := r
      dsimp only at e1 e2 e3
      subst e1 e2 e3
      exact .of hk
  refine timedAll_cons hE _ _ h (J := Kp p S (Full KYBER_SSBYTES) (Full (KYBER_CIPHERTEXTBYTES p)) (KYBER_SECRETKEYBYTES p)) (fun b h => h) (fun i b _ h => ?_) fun s h => ?_
  · refine (henc i b coins32 _ hc32l hc32 h 17).bind fun r hr => .of ?_
    exact hr b.rng h.rng
  refine timedAll_cons hE _ _ h (J := Kp p S (Full KYBER_SSBYTES) (Full (KYBER_CIPHERTEXTBYTES p)) (KYBER_SECRETKEYBYTES p)) (fun b h => h) (fun i b _ h => ?_) fun s h => ?_
  · unfold kemEnc
    dsimp only
    refine RunsP.bind (P := fun r => ∃ st, S st ∧ ∃ ct key, r.1 = ct ∧ r.2.1 = key ∧ r.2.2.2 = st ∧
      Kp p S (Full KYBER_SSBYTES) (Full (KYBER_CIPHERTEXTBYTES p)) (KYBER_SECRETKEYBYTES p) { b with ct := ct, key := key, rng := st }) ?_ fun r hr => ?_
    · refine (RunsP.of (hrb b.rng _ 0 KYBER_SYMBYTES h.rng (by rw [Mem.size_uninit]; decide) (by decide))).bind fun r hr => ?_
      obtain ⟨coins, st⟩ := r
      obtain ⟨⟨c, hcl, hc⟩, hst⟩ := hr
      dsimp only at hst hc ⊢
      refine (henc i b coins _ hcl hc.holds h 18).bind fun r hr => .of ?_
      exact ⟨st, hst, _, _, rfl, rfl, rfl, hr st hst⟩
    · obtain ⟨st, hst, pk, sk, e1, e2, e3, hk⟩ := hr
      obtain ⟨pk', sk', x, st'⟩ := r
      dsimp only at e1 e2 e3
      subst e1 e2 e3
      exact .of hk
  refine timedAll_cons hE _ _ h (J := Kp p S (Full KYBER_SSBYTES) (Full (KYBER_CIPHERTEXTBYTES p)) (KYBER_SECRETKEYBYTES p)) (fun b h => h) (fun i b _ h => ?_) fun s h => ?_
  · obtain ⟨ct, hcl, hct⟩ := h.ct.2
    obtain ⟨dk, hdl, hdk⟩ := h.skF
    refine ((RunsP.ofO ((hA 19 i).kem.dec hct hcl hdk hdl (by rw [h.key.1]))).weaken fun x => decaps_some (hg x) hdl _).bind fun r hr => .of ?_
    obtain ⟨k, z⟩ := r
    obtain ⟨o, ho, hk, _⟩ := hr
    exact ⟨h.1, h.2, h.3, ⟨by rw [← h.key.1]; exact hk.size, o, decaps_length ho, hk.holds⟩, h.5, h.6, h.7⟩
  refine .of ?_
  unfold kemTitles timedAll
  rw [runs_pure]
  simpa using h

/-- The titles of the measurements. -/
def speedTitles : List String := frontTitles ++ ["polyvec_decompress: ", "indcpa_keypair: ", "indcpa_enc: "] ++ kemTitles

theorem start_t (n : Nat) : (Mem.ofList (List.replicate n (0 : UInt64))).size = n := by simp [Mem.ofList]

/-- The whole program, for a build and initial contents that let all measurements run. -/
theorem speedMain_runs (hE : EnvOk E) {fuel : Nat} (hA : ∀ n i, CpaSpec p fuel (A n i)) (hF : ∀ n i, FrontOk g (A n i) M0 M P0 P Pm C0 C1 C2 C3)
    (hD : ∀ n i m c, M m → C3 c → ∃ v, m[0]? = some v ∧ Runs ((A n i).pv_decompress v c) (fun v' => M (m.setIfInBounds 0 v')))
    (hC : ∀ c, C3 c → c.size = KYBER_CIPHERTEXTBYTES p) {rb : Rng σ} (hrb : FillRng rb S) (hg : g → AllSampled p fuel) {st : σ} (hst : S st)
    (hM : M0 (Matrix.uninit p)) (hP : P0 Poly.uninit) {ct key : Mem UInt8} (hct : C0 ct) (hkey : Full KYBER_SSBYTES key) :
    RunsP g (speedMain p E A rb st ct key) (fun r => r = (speedText E.clk E.N E.nt speedTitles 0xffffffffffffffff 0, [], 0)) := by
  unfold speedMain
  refine (RunsP.of (hrb st _ 0 KYBER_SYMBYTES hst (by rw [Mem.size_uninit]; decide) (by decide))).bind fun r hr => ?_
  obtain ⟨coins32, st1⟩ := r
  obtain ⟨⟨c32, hl32, h32⟩, hst⟩ := hr
  dsimp only at h32 hst ⊢
  refine (RunsP.of (hrb st1 _ 0 (2 * KYBER_SYMBYTES) hst (by rw [Mem.size_uninit]; decide) (by decide))).bind fun r hr => ?_
  obtain ⟨coins64, st2⟩ := r
  obtain ⟨⟨c64, hl64, h64⟩, hst⟩ := hr
  dsimp only at h64 hst ⊢
  have f32 : Full 32 coins32 := ⟨by rw [h32.size, Mem.size_uninit], c32, hl32, h32.holds⟩
  have f64 : Full 64 coins64 := ⟨by rw [h64.size, Mem.size_uninit], c64, hl64, h64.holds⟩
  refine RunsP.bind (P := After E (Kp p S (Full KYBER_SSBYTES) (Full (KYBER_CIPHERTEXTBYTES p)) (KYBER_SECRETKEYBYTES p)) speedTitles printSt0) ?_ fun s hs => ?_
  · rw [timedAll_append]
    refine (front_runs (p := p) (S := S) (KI := Full KYBER_SSBYTES) hE hF (start_t _) ⟨hst, Mem.size_uninit _, Mem.size_uninit _, hkey, hM, hP, hct⟩).bind fun s h => ?_
    refine dec_stage hE hD h fun s h => ?_
    refine keypair_stage hE hA h32.holds hl32 h (fun x => keygen_some (hg x) _) fun s h => ?_
    refine enc_stage hE hA hC h hg fun s h => ?_
    refine (kem_stage hE hA hrb f32 f64 h hg).mono fun s h => ?_
    unfold speedTitles
    simpa using h
  · refine .of ?_
    rw [runs_pure, hs.pr]
    obtain ⟨h1, h2⟩ := prAfter_foldl E speedTitles printSt0
    rw [h1, h2, show printSt0.out = [] from rfl, show printSt0.err = [] from rfl, show printSt0.pos = 0 from rfl, show printSt0.overhead = 0xffffffffffffffff from rfl, List.nil_append]

/-- The program stops at the fourteenth measurement if the first call of `indcpa_enc` is undefined. -/
theorem speedMain_ub_enc (hE : EnvOk E) {fuel : Nat} (hA : ∀ n i, CpaSpec p fuel (A n i)) (hF : ∀ n i, FrontOk g (A n i) M0 M P0 P Pm C0 C1 C2 C3)
    (hD : ∀ n i m c, M m → C3 c → ∃ v, m[0]? = some v ∧ Runs ((A n i).pv_decompress v c) (fun v' => M (m.setIfInBounds 0 v')))
    {u : UB} {ct key : Mem UInt8} (hU : ∀ n i c pk, Filled pk (KYBER_PUBLICKEYBYTES p) → (A n i).cpa_enc c key pk speedSeed = .ub u)
    {rb : Rng σ} {st : σ} {d : List UInt8} (h1 : Runs (rb st (Mem.uninit UInt8 32) 0 KYBER_SYMBYTES) (fun r => r.1.Holds 0 d ∧ S r.2)) (hdl : d.length = 32)
    (h2 : ∀ st, S st → Runs (rb st (Mem.uninit UInt8 64) 0 (2 * KYBER_SYMBYTES)) fun r => S r.2)
    (hg : g → (K_PKE_KeyGen (fips p) (iters fuel) d).isSome = true) (hM : M0 (Matrix.uninit p)) (hP : P0 Poly.uninit) (hct : C0 ct) :
    RunsU g (speedMain p E A rb st ct key) u := by
  unfold speedMain
  refine (RunsP.of h1).bindU fun r hr => ?_
  obtain ⟨coins32, st1⟩ := r
  obtain ⟨h32, hst⟩ := hr
  dsimp only at h32 hst ⊢
  refine (RunsP.of (h2 st1 hst)).bindU fun r hst => ?_
  obtain ⟨coins64, st2⟩ := r
  dsimp only at hst ⊢
  refine RunsU.bind ?_
  rw [timedAll_append]
  refine (front_runs (p := p) (S := S) (KI := fun k => k = key) hE hF (start_t _) ⟨hst, Mem.size_uninit _, Mem.size_uninit _, rfl, hM, hP, hct⟩).bindU fun s h => ?_
  rw [show ∀ l : List (SpTest σ), decTest A :: keypairTest A coins32 :: l = [decTest A, keypairTest A coins32] ++ l from fun _ => rfl, timedAll_append]
  refine RunsP.bindU (P := After E (Kp p S (fun k => k = key) C3 (KYBER_INDCPA_SECRETKEYBYTES p)) (frontTitles ++ ["polyvec_decompress: "] ++ ["indcpa_keypair: "]) printSt0) (dec_stage hE hD h fun s h => ?_) fun s h => ?_
  · refine keypair_stage hE hA h32 hdl h hg fun s h => .of ?_
    unfold timedAll
    rw [runs_pure]
    exact h
  · refine .inr (timedAll_ub hE _ _ h.t ?_)
    unfold encTest
    refine Avx.ub_bind ?_
    rw [h.b.key]
    exact hU _ _ _ _ h.b.pkF

/-- The program stops at the twelfth measurement if the first call of `polyvec_decompress` is undefined. -/
theorem speedMain_ub_dec (hE : EnvOk E) (hF : ∀ n i, FrontOk g (A n i) M0 M P0 P Pm C0 C1 C2 C3)
    {u : UB} (hU : ∀ n i m c, M m → C3 c → ∃ v, m[0]? = some v ∧ (A n i).pv_decompress v c = .ub u)
    {ct key : Mem UInt8} {rb : Rng σ} {st : σ} (h1 : Runs (rb st (Mem.uninit UInt8 32) 0 KYBER_SYMBYTES) (fun r => S r.2))
    (h2 : ∀ st, S st → Runs (rb st (Mem.uninit UInt8 64) 0 (2 * KYBER_SYMBYTES)) fun r => S r.2) (hM : M0 (Matrix.uninit p)) (hP : P0 Poly.uninit) (hct : C0 ct) :
    RunsU g (speedMain p E A rb st ct key) u := by
  unfold speedMain
  refine (RunsP.of h1).bindU fun r hst => ?_
  obtain ⟨coins32, st1⟩ := r
  dsimp only at hst ⊢
  refine (RunsP.of (h2 st1 hst)).bindU fun r hst => ?_
  obtain ⟨coins64, st2⟩ := r
  dsimp only at hst ⊢
  refine RunsU.bind ?_
  rw [timedAll_append]
  refine (front_runs (p := p) (S := S) (KI := fun k => k = key) hE hF (start_t _) ⟨hst, Mem.size_uninit _, Mem.size_uninit _, rfl, hM, hP, hct⟩).bindU fun s h => .inr ?_
  refine timedAll_ub hE _ _ h.t ?_
  unfold decTest
  obtain ⟨v, hv, hu⟩ := hU 11 0 _ _ h.b.mat h.b.ct
  refine Avx.bind_ub_of (P := fun x => x = v) (by rw [runs_at]; exact ⟨v, hv, rfl⟩) fun x hx => ?_
  subst hx
  exact Avx.ub_bind hu

/-- The program stops at the second measurement if the first call of `poly_getnoise_eta1` is undefined. -/
theorem speedMain_ub_eta1 (hE : EnvOk E) (hgen : ∀ n i m, M0 m → RunsP g ((A n i).gen_matrix m speedSeed) M0)
    {u : UB} (hU : ∀ n i, (A n i).getnoise_eta1 Poly.uninit speedSeed = .ub u)
    {ct key : Mem UInt8} {rb : Rng σ} {st : σ} (h1 : Runs (rb st (Mem.uninit UInt8 32) 0 KYBER_SYMBYTES) (fun r => S r.2))
    (h2 : ∀ st, S st → Runs (rb st (Mem.uninit UInt8 64) 0 (2 * KYBER_SYMBYTES)) fun r => S r.2) (hM : M0 (Matrix.uninit p)) :
    RunsU g (speedMain p E A rb st ct key) u := by
  unfold speedMain
  refine (RunsP.of h1).bindU fun r hst => ?_
  obtain ⟨coins32, st1⟩ := r
  dsimp only at hst ⊢
  refine (RunsP.of (h2 st1 hst)).bindU fun r hst => ?_
  obtain ⟨coins64, st2⟩ := r
  dsimp only at hst ⊢
  refine RunsU.bind ?_
  unfold polyTests
  rw [List.cons_append]
  unfold timedAll
  refine (timed_runsP hE _ (I := fun b => M0 b.mat ∧ b.ap = Poly.uninit) (J := fun b => M0 b.mat ∧ b.ap = Poly.uninit) ⟨hM, rfl⟩ (fun b h => h) (start_t _) (fun i b _ h => ?_)).bindU fun s h => .inr ?_
  · exact (hgen _ _ _ h.1).bind fun m hm => .of ⟨hm, h.2⟩
  · rw [List.cons_append]
    refine timedAll_ub hE _ _ h.2.1 ?_
    refine Avx.ub_bind ?_
    rw [h.1.2]
    exact hU _ _

end

end Verif.Proof
