import Verif.Model.TestVectors
import Verif.Avx.Api
import Verif.Avx.KemProof
import Verif.Proof.Shake
import Verif.Proof.Kem
import Verif.Proof.Correct
import Verif.Proof.Randombytes
import Verif.Spec.Text

/-! # The test programs -/

namespace Verif.Proof
open Verif.Model Verif.Spec

attribute [local irreducible] KeyGen_internal Encaps_internal Decaps_internal

/-! ## The KEM calls that a program uses -/

/-- The calls compute ML-KEM. -/
structure ApiSpec (p : ParamSet) (fuel : Nat) (K : KemApi) : Prop where
  keypair : ∀ {pk sk coins : Mem UInt8} {d z : List UInt8}, coins.Holds 0 d → d.length = 32 → coins.Holds 32 z → z.length = 32 → KYBER_PUBLICKEYBYTES p ≤ pk.size →
    KYBER_SECRETKEYBYTES p ≤ sk.size → RunsO (K.keypair_derand pk sk coins) (KeyGen_internal (fips p) (iters fuel) d z) (fun o s => pk.Wrote s.1 0 o.1 ∧ sk.Wrote s.2.1 0 o.2 ∧ s.2.2 = 0)
  enc : ∀ {ct ss pk coins : Mem UInt8} {ek m : List UInt8}, coins.Holds 0 m → m.length = 32 → pk.Holds 0 ek → ek.length = KYBER_PUBLICKEYBYTES p → KYBER_CIPHERTEXTBYTES p ≤ ct.size →
    KYBER_SSBYTES ≤ ss.size → RunsO (K.enc_derand ct ss pk coins) (Encaps_internal (fips p) (iters fuel) ek m) (fun o s => ct.Wrote s.1 0 o.2 ∧ ss.Wrote s.2.1 0 o.1 ∧ s.2.2 = 0)
  dec : ∀ {ss ct sk : Mem UInt8} {c dk : List UInt8}, ct.Holds 0 c → c.length = KYBER_CIPHERTEXTBYTES p → sk.Holds 0 dk → dk.length = KYBER_SECRETKEYBYTES p → KYBER_SSBYTES ≤ ss.size →
    RunsO (K.dec ss ct sk) (Decaps_internal (fips p) (iters fuel) dk c) (fun o s => ss.Wrote s.1 0 o ∧ s.2 = 0)

theorem refApi_spec (p : ParamSet) (fuel : Nat) : ApiSpec p fuel (refApi p fuel) :=
  ⟨fun a b c d e f => keypair_derand_runsO a b c d e f, fun a b c d e f => enc_derand_runsO a b c d e f, fun a b c d e => crypto_kem_dec_runsO a b c d e⟩

theorem avxApi_spec (p : ParamSet) (junk : Nat → Fin 4 → Nat → UInt8) (fuel : Nat) : ApiSpec p fuel (Avx.avxApi p junk fuel) :=
  ⟨fun a b c d e f => Avx.keypair_derand_runsO a b c d e f, fun a b c d e f => Avx.enc_derand_runsO a b c d e f, fun a b c d e => Avx.crypto_kem_dec_runsO a b c d e⟩

theorem keyGen_lengths {p : ParamSet} {N : Nat} {d z : List UInt8} (hz : z.length = 32) {o : List UInt8 × List UInt8} (h : KeyGen_internal (fips p) N d z = some o) :
    o.1.length = KYBER_PUBLICKEYBYTES p ∧ o.2.length = KYBER_SECRETKEYBYTES p := by
  obtain ⟨ek, dk⟩ := o
  obtain ⟨s, hs, e⟩ := keygen_inv h
  obtain ⟨l1, l2⟩ := keygen_length hs
  dsimp only at l1 l2 ⊢
  rw [e, pk_size', sk_size]
  refine ⟨l1, ?_⟩
  simp only [List.length_append, l1, l2, hz, show (H ek).length = 32 from SHA3_256_length ek]
  omega

theorem encaps_lengths {p : ParamSet} {N : Nat} {ek m : List UInt8} {o : List UInt8 × List UInt8} (h : Encaps_internal (fips p) N ek m = some o) :
    o.1.length = KYBER_SSBYTES ∧ o.2.length = KYBER_CIPHERTEXTBYTES p := by
  obtain ⟨K, c⟩ := o
  obtain ⟨rfl, he⟩ := encaps_inv h
  exact ⟨G_fst_length _, by rw [ct_size']; exact encrypt_length he⟩

section
attribute [local semireducible] Decaps_internal
theorem decaps_length {P : Params} {N : Nat} {dk c K : List UInt8} (h : Decaps_internal P N dk c = some K) : K.length = KYBER_SSBYTES := by
  unfold Decaps_internal at h
  simp only [Option.bind_eq_bind, Option.pure_def, Option.bind_eq_some_iff] at h
  obtain ⟨c', -, h⟩ := h
  injection h with h
  rw [← h]
  split
  · exact G_fst_length _
  · exact SHAKE256_length _ _
end

/-! ## Random bytes -/

variable {σ : Type}

/-- The generator delivers the stream `src`; `S n st`: in state `st` it has delivered `n` bytes. -/
def StreamRng (rb : Rng σ) (src : Nat → UInt8) (S : Nat → σ → Prop) : Prop :=
  ∀ st n out oo k, S n st → oo + k ≤ out.size → k < 4294967296 → Runs (rb st out oo k) (fun r => out.Wrote r.1 oo (streamAt src n k) ∧ S (n + k) r.2)

theorem streamAt_length (src : Nat → UInt8) (n k : Nat) : (streamAt src n k).length = k := by simp [streamAt]

theorem streamAt_add (src : Nat → UInt8) (n a b : Nat) : streamAt src n (a + b) = streamAt src n a ++ streamAt src (n + a) b := streamBytes_add src n a b

theorem kemKeypair_runsO {p : ParamSet} {fuel : Nat} {K : KemApi} (hK : ApiSpec p fuel K) {rb : Rng σ} {st : σ} {pk sk : Mem UInt8} {d z : List UInt8} {S : σ → Prop}
    (hr : ∀ out, out.size = 64 → Runs (rb st out 0 64) (fun r => out.Wrote r.1 0 (d ++ z) ∧ S r.2)) (hd : d.length = 32) (hz : z.length = 32)
    (hpk : KYBER_PUBLICKEYBYTES p ≤ pk.size) (hsk : KYBER_SECRETKEYBYTES p ≤ sk.size) :
    RunsO (kemKeypair K rb st pk sk) (KeyGen_internal (fips p) (iters fuel) d z) (fun o s => pk.Wrote s.1 0 o.1 ∧ sk.Wrote s.2.1 0 o.2 ∧ s.2.2.1 = 0 ∧ S s.2.2.2) := by
  unfold kemKeypair
  refine Runs.bindO (hr _ (by rw [Mem.size_uninit]; rfl)) fun r h => ?_
  obtain ⟨coins, st'⟩ := r
  obtain ⟨h1, h2⟩ := h
  have h1 := h1.holds
  rw [Mem.Holds.append, hd, Nat.zero_add] at h1
  refine (hK.keypair h1.1 hd h1.2 hz hpk hsk).bindR fun o s hs => ?_
  obtain ⟨pk', sk', i⟩ := s
  exact ⟨hs.1, hs.2.1, rfl, h2⟩

theorem kemEnc_runsO {p : ParamSet} {fuel : Nat} {K : KemApi} (hK : ApiSpec p fuel K) {rb : Rng σ} {st : σ} {ct ss pk : Mem UInt8} {ek m : List UInt8} {S : σ → Prop}
    (hr : ∀ out, out.size = 32 → Runs (rb st out 0 32) (fun r => out.Wrote r.1 0 m ∧ S r.2)) (hm : m.length = 32) (hek : pk.Holds 0 ek) (hekl : ek.length = KYBER_PUBLICKEYBYTES p)
    (hct : KYBER_CIPHERTEXTBYTES p ≤ ct.size) (hss : KYBER_SSBYTES ≤ ss.size) :
    RunsO (kemEnc K rb st ct ss pk) (Encaps_internal (fips p) (iters fuel) ek m) (fun o s => ct.Wrote s.1 0 o.2 ∧ ss.Wrote s.2.1 0 o.1 ∧ s.2.2.1 = 0 ∧ S s.2.2.2) := by
  unfold kemEnc
  refine Runs.bindO (hr _ (by rw [Mem.size_uninit]; rfl)) fun r h => ?_
  obtain ⟨coins, st'⟩ := r
  obtain ⟨h1, h2⟩ := h
  refine (hK.enc h1.holds hm hek hekl hct hss).bindR fun o s hs => ?_
  obtain ⟨ct', ss', i⟩ := s
  exact ⟨hs.1, hs.2.1, rfl, h2⟩

/-! ## Text -/

theorem hexDigit_eq : ∀ n : Fin 16, hexDigit n.val = "0123456789abcdef".toList.getD n.val '?' := by decide

theorem hex02_eq (x : UInt8) : hex02 x = hexText [x] := by
  have h := x.toNat_lt
  have h1 := hexDigit_eq ⟨x.toNat / 16, by omega⟩
  have h2 := hexDigit_eq ⟨x.toNat % 16, by omega⟩
  simp only [hex02, hexText, List.flatMap_cons, List.flatMap_nil, List.append_nil]
  rw [h1, h2]

theorem hexText_append (a b : List UInt8) : hexText (a ++ b) = hexText a ++ hexText b := by simp [hexText]

theorem printHex_runs {m : Mem UInt8} {l : List UInt8} {n : Nat} (h : m.Holds 0 l) (hl : l.length = n) (out : List Char) : Runs (printHex out m n) (fun o => o = out ++ hexText l) := by
  unfold printHex
  refine (runs_cfor (fun i o => o = out ++ hexText (l.take i)) (Nat.zero_le _) (by simp [hexText]) ?_).mono fun o ho => by rw [ho, ← hl, List.take_length]
  intro i o _ hi ho
  rw [runs_bind]
  have := h.has 0 i (by omega)
  rw [Nat.zero_add] at this
  rw [runs_rd_of this, runs_pure, ho, hex02_eq, List.append_assoc, ← hexText_append, List.take_add_one]
  dsimp only
  rw [List.getD_eq_getElem?_getD, List.getElem?_eq_getElem (by omega)]
  rfl

theorem differ_runs {a b : Mem UInt8} : ∀ (n j : Nat) (l l' : List UInt8), a.Holds j l → b.Holds j l' → l.length = n → l'.length = n → Runs (differ a b n j) (fun r => r = decide (l ≠ l'))
  | 0, j, l, l', _, _, h, h' => by
    rw [List.length_eq_zero_iff] at h h'
    subst h; subst h'
    rfl
  | n + 1, j, l, l', ha, hb, h, h' => by
    obtain ⟨x, l, rfl⟩ : ∃ x m, l = x :: m := by cases l with | nil => simp at h | cons x m => exact ⟨x, m, rfl⟩
    obtain ⟨y, l', rfl⟩ : ∃ x m, l' = x :: m := by cases l' with | nil => simp at h' | cons x m => exact ⟨x, m, rfl⟩
    unfold differ
    rw [runs_bind, runs_leak]
    rw [runs_bind, runs_rd_of (show a[j]? = some (some x) from ha.has 0 0 (by simp)), runs_bind, runs_rd_of (show b[j]? = some (some y) from hb.has 0 0 (by simp)), runs_cif]
    have ha' : a.Holds (j + 1) l := by
      have := (Mem.Holds.append (l := [x]) (l' := l)).1 ha
      exact this.2
    have hb' : b.Holds (j + 1) l' := by
      have := (Mem.Holds.append (l := [y]) (l' := l')).1 hb
      exact this.2
    refine ⟨fun hc => ?_, fun hc => ?_⟩
    · rw [runs_pure]
      simp at hc ⊢
      exact Or.inl hc
    · refine (differ_runs n (j + 1) l l' ha' hb' (by simpa using h) (by simpa using h')).mono fun r hr => ?_
      rw [hr]
      simp at hc
      simp [hc]

/-! ## test_vectors.c -/

/-- State between two iterations: `n` random bytes were used. -/
structure TvInv (p : ParamSet) (S : Nat → σ → Prop) (n : Nat) (s : TvSt σ) : Prop where
  rng : S n s.rng
  pk : s.pk.size = KYBER_PUBLICKEYBYTES p
  sk : s.sk.size = KYBER_SECRETKEYBYTES p
  ct : s.ct.size = KYBER_CIPHERTEXTBYTES p
  ka : s.key_a.size = KYBER_SSBYTES
  kb : s.key_b.size = KYBER_SSBYTES

/-- One iteration: the text and, if it goes on, nothing; otherwise the error. -/
def tvOne (P : Params) (N : Nat) (src : Nat → UInt8) (pos : Nat) : Option (List Char × Bool) := do
  let o ← KeyGen_internal P N (streamAt src pos 32) (streamAt src (pos + 32) 32)
  let e ← Encaps_internal P N o.1 (streamAt src (pos + 64) 32)
  let K' ← Decaps_internal P N o.2 e.2
  let text := hexLine "Public Key: " o.1 ++ hexLine "Secret Key: " o.2 ++ hexLine "Ciphertext: " e.2 ++ hexLine "Shared Secret B: " e.1 ++ hexLine "Shared Secret A: " K'
  if K' = e.1 then do
    let K'' ← Decaps_internal P N o.2 (streamAt src (pos + 96) (32 * (P.du * P.k + P.dv)))
    some (text ++ hexLine "Pseudorandom shared Secret A: " K'', true)
  else some (text, false)

theorem tvBody_runsO {p : ParamSet} {fuel : Nat} {K : KemApi} (hK : ApiSpec p fuel K) {rb : Rng σ} {src : Nat → UInt8} {S : Nat → σ → Prop} (hr : StreamRng rb src S) {pos : Nat} {s : TvSt σ}
    (h : TvInv p S pos s) : RunsO (tvBody p K rb s) (tvOne (fips p) (iters fuel) src pos) (fun o s' => s'.out = s.out ++ o.1 ∧
      (if o.2 then s'.err = s.err ∧ s'.ret = none ∧ s'.i = s.i + 1 ∧ TvInv p S (pos + 96 + KYBER_CIPHERTEXTBYTES p) s' else s'.err = s.err ++ "ERROR\n".toList ∧ s'.ret = some (-1))) := by
  have hl := streamAt_length src
  unfold tvBody tvOne
  have r1 : ∀ out : Mem UInt8, out.size = 64 → Runs (rb s.rng out 0 64) (fun r => out.Wrote r.1 0 (streamAt src pos 32 ++ streamAt src (pos + 32) 32) ∧ S (pos + 64) r.2) := fun out ho => by
    rw [← streamAt_add]
    exact hr _ _ _ _ _ h.rng (by omega) (by omega)
  refine RunsO.bind (RunsO.with (kemKeypair_runsO hK (S := S (pos + 64)) r1 (hl _ _) (hl _ _) (by rw [h.pk]) (by rw [h.sk]))) fun o v hv => ?_
  obtain ⟨ek, dk⟩ := o
  obtain ⟨pk, sk, i, rng⟩ := v
  obtain ⟨ho, hpk, hsk, -, hrng⟩ := hv
  obtain ⟨l1, l2⟩ := keyGen_lengths (hl _ _) ho
  dsimp only at hpk hsk hrng l1 l2 ⊢
  refine Runs.bindO (printHex_runs hpk.holds l1 _) fun out1 ho1 => ?_
  refine Runs.bindO (printHex_runs hsk.holds l2 _) fun out2 ho2 => ?_
  have r2 : ∀ out : Mem UInt8, out.size = 32 → Runs (rb rng out 0 32) (fun r => out.Wrote r.1 0 (streamAt src (pos + 64) 32) ∧ S (pos + 96) r.2) := fun out ho =>
    hr _ _ _ _ _ hrng (by omega) (by omega)
  refine RunsO.bind (RunsO.with (kemEnc_runsO hK (S := S (pos + 96)) (ct := s.ct) (ss := s.key_b) r2 (hl _ _) hpk.holds l1 (by rw [h.ct]) (by rw [h.kb]))) fun e v hv => ?_
  obtain ⟨kb, c⟩ := e
  obtain ⟨ct, key_b, i, rng'⟩ := v
  obtain ⟨he, hct, hkb, -, hrng'⟩ := hv
  obtain ⟨l3, l4⟩ := encaps_lengths he
  dsimp only at hct hkb hrng' l3 l4 ⊢
  refine Runs.bindO (printHex_runs hct.holds l4 _) fun out3 ho3 => ?_
  refine Runs.bindO (printHex_runs hkb.holds l3 _) fun out4 ho4 => ?_
  refine RunsO.bind (RunsO.with (hK.dec (ss := s.key_a) hct.holds l4 hsk.holds l2 (by rw [h.ka]))) fun K' v hv => ?_
  obtain ⟨key_a, i⟩ := v
  obtain ⟨hd, hka, -⟩ := hv
  have l5 := decaps_length hd
  dsimp only at hka ⊢
  refine Runs.bindO (printHex_runs hka.holds l5 _) fun out5 ho5 => ?_
  refine Runs.bindO (differ_runs _ 0 _ _ hka.holds hkb.holds l5 l3) fun d hdd => ?_
  have htext : out5 ++ "\n".toList = s.out ++ (hexLine "Public Key: " ek ++ hexLine "Secret Key: " dk ++ hexLine "Ciphertext: " c ++ hexLine "Shared Secret B: " kb ++ hexLine "Shared Secret A: " K') := by
    rw [ho5, ho4, ho3, ho2, ho1]
    simp only [hexLine, List.append_assoc, show "\n".toList = ['\n'] from rfl]
  by_cases hkk : K' = kb
  · rw [if_pos hkk, hdd, show decide (K' ≠ kb) = false from by simp [hkk]]
    dsimp only
    have r3 := hr rng' (pos + 96) ct 0 (KYBER_CIPHERTEXTBYTES p) hrng' (by rw [hct.size, h.ct]; omega) (by cases p <;> decide)
    refine Runs.bindO r3 fun v hv => ?_
    obtain ⟨ct2, rng2⟩ := v
    obtain ⟨hct2, hrng2⟩ := hv
    dsimp only at hct2 hrng2 ⊢
    rw [← ct_size']
    refine RunsO.bind (RunsO.with (hK.dec (ss := key_a) hct2.holds (hl _ _) hsk.holds l2 (by rw [hka.size, h.ka]))) fun K'' v hv => ?_
    obtain ⟨key_a2, i⟩ := v
    obtain ⟨hd2, hka2, -⟩ := hv
    dsimp only at hka2 ⊢
    refine Runs.bindO (printHex_runs hka2.holds (decaps_length hd2) _) fun out6 ho6 => ?_
    show _ ∧ _
    dsimp only
    refine ⟨?_, rfl, rfl, rfl, ?_⟩
    · rw [ho6, htext]
      simp only [hexLine, List.append_assoc, show "\n".toList = ['\n'] from rfl]
    · exact ⟨hrng2, by rw [hpk.size, h.pk], by rw [hsk.size, h.sk], by rw [hct2.size, hct.size, h.ct], by rw [hka2.size, hka.size, h.ka], by rw [hkb.size, h.kb]⟩
  · rw [if_neg hkk, hdd, show decide (K' ≠ kb) = true from by simp [hkk]]
    exact ⟨htext, rfl, rfl⟩

theorem testVectors_succ (P : Params) (N : Nat) (src : Nat → UInt8) (m pos : Nat) : testVectors P N src (m + 1) pos =
    (tvOne P N src pos).bind fun o => if o.2 then (testVectors P N src m (pos + 96 + 32 * (P.du * P.k + P.dv))).map fun r => (o.1 ++ r.1, r.2.1, r.2.2) else some (o.1, "ERROR\n".toList, -1) := by
  rw [testVectors]
  unfold tvOne
  cases hk : KeyGen_internal P N (streamAt src pos 32) (streamAt src (pos + 32) 32) with
  | none => rfl
  | some o =>
    simp only [Option.bind_eq_bind, Option.bind_some]
    cases he : Encaps_internal P N o.1 (streamAt src (pos + 64) 32) with
    | none => rfl
    | some e =>
      simp only [Option.bind_some]
      cases hd : Decaps_internal P N o.2 e.2 with
      | none => rfl
      | some K' =>
        simp only [Option.bind_some]
        by_cases hkk : K' = e.1
        · rw [if_pos hkk, if_pos hkk]
          cases hd2 : Decaps_internal P N o.2 (streamAt src (pos + 96) (32 * (P.du * P.k + P.dv))) with
          | none => rfl
          | some K'' =>
            simp only [Option.bind_some, if_true]
            cases testVectors P N src m (pos + 96 + 32 * (P.du * P.k + P.dv)) with
            | none => rfl
            | some r => rfl
        · rw [if_neg hkk, if_neg hkk]
          rfl

theorem tvLoop_runsO {p : ParamSet} {fuel : Nat} {K : Nat → KemApi} (hK : ∀ i, ApiSpec p fuel (K i)) {rb : Rng σ} {src : Nat → UInt8} {S : Nat → σ → Prop} (hr : StreamRng rb src S) (n : Nat) :
    ∀ (m f pos : Nat) (s : TvSt σ), m < f → s.i + m = n → s.ret = none → TvInv p S pos s →
      RunsO (cwhile f (fun s : TvSt σ => s.ret.isNone && decide (s.i < n)) (fun s => tvBody p (K s.i) rb s) s) (testVectors (fips p) (iters fuel) src m pos)
        (fun o s' => s'.out = s.out ++ o.1 ∧ s'.err = s.err ++ o.2.1 ∧ s'.ret.getD 0 = o.2.2)
  | 0, f, pos, s, hf, hi, hret, h => by
    obtain ⟨f, rfl⟩ : ∃ g, f = g + 1 := ⟨f - 1, by omega⟩
    unfold cwhile
    rw [if_neg (by simp; omega)]
    rw [testVectors, runsO_some, runs_bind, runs_leak, runs_pure, hret]
    simp
  | m + 1, f, pos, s, hf, hi, hret, h => by
    obtain ⟨f, rfl⟩ : ∃ g, f = g + 1 := ⟨f - 1, by omega⟩
    unfold cwhile
    rw [if_pos (by simp [hret]; omega), testVectors_succ]
    refine Runs.bindO (P := fun _ => True) trivial fun _ _ => ?_
    refine RunsO.bind (tvBody_runsO (hK s.i) hr h) fun o s' hs => ?_
    obtain ⟨h1, h2⟩ := hs
    by_cases ho : o.2 = true
    · rw [if_pos ho] at h2 ⊢
      obtain ⟨h3, h4, h5, h6⟩ := h2
      rw [ct_size'] at h6
      have := tvLoop_runsO hK hr n m f _ s' (by omega) (by omega) h4 h6
      revert this
      generalize testVectors (fips p) (iters fuel) src m (pos + 96 + 32 * ((fips p).du * (fips p).k + (fips p).dv)) = w
      intro this
      cases w with
      | none => exact this
      | some r =>
        refine Runs.mono this fun s'' hs => ?_
        obtain ⟨a, b, c⟩ := hs
        exact ⟨by rw [a, h1, List.append_assoc], by rw [b, h3], c⟩
    · rw [if_neg ho] at h2 ⊢
      obtain ⟨f, rfl⟩ : ∃ g, f = g + 1 := ⟨f - 1, by omega⟩
      unfold cwhile
      rw [if_neg (by simp [h2.2])]
      rw [runsO_some, runs_bind, runs_leak, runs_pure]
      exact ⟨h1, h2.1, by rw [h2.2]; rfl⟩

theorem tvMain_runsO {p : ParamSet} {fuel : Nat} {K : Nat → KemApi} (hK : ∀ i, ApiSpec p fuel (K i)) {rb : Rng σ} {src : Nat → UInt8} {S : Nat → σ → Prop} (hr : StreamRng rb src S) {st : σ} {pos : Nat}
    (hst : S pos st) (n : Nat) : RunsO (tvMain p K rb st n) (testVectors (fips p) (iters fuel) src n pos) (fun o r => r = o) := by
  unfold tvMain
  refine (tvLoop_runsO hK hr n n (n + 1) pos _ (by omega) (by simp) rfl ⟨hst, ?_, ?_, ?_, ?_, ?_⟩).bindR fun o s hs => ?_
  all_goals first | exact Mem.size_uninit .. | skip
  obtain ⟨h1, h2, h3⟩ := hs
  rw [runs_pure, h1, h2, h3]
  rfl

/-! ### The generator of test_vectors.c -/

theorem rngstate_eq : Runs (shake128_absorb_once KeccakState.uninit (Mem.ofList []) 0 0) (fun st => st.s = rngstate.s ∧ st.pos = rngstate.pos) := by decide +kernel

theorem kout_streamAt (n k : Nat) : kout 168 (padded 168 0x1F []) n k = streamAt shakeStream n k := by
  have h : ∀ m, (SHAKE128 [] (m + 1)).getD m 0 = (kout 168 (padded 168 0x1F []) m 1).getD 0 0 := fun m => by
    rw [SHAKE128_eq, kout_add, List.getD_eq_getElem?_getD, List.getElem?_append_right (by rw [kout_length]), kout_length, Nat.sub_self, Nat.zero_add, List.getD_eq_getElem?_getD]
  have h1 : ∀ k n, kout 168 (padded 168 0x1F []) n k = streamAt shakeStream n k := by
    intro k
    induction k with
    | zero => intro n; exact List.length_eq_zero_iff.1 (kout_length ..)
    | succ k ih =>
      intro n
      rw [kout_add, ih, streamAt_add]
      congr 1
      have hl : (kout 168 (padded 168 0x1F []) (n + k) 1).length = 1 := kout_length ..
      obtain ⟨x, hx⟩ := List.length_eq_one_iff.1 hl
      rw [hx]
      show _ = [shakeStream (n + k + 0)]
      unfold shakeStream
      rw [Nat.add_zero (n + k), h, hx]
      rfl
  exact h1 k n

theorem tv_rng : StreamRng tv_randombytes shakeStream (SqS 168 (padded 168 0x1F [])) := by
  intro st n out oo k h ho hk
  refine (shake128_squeeze_runs h ho (by omega)).mono fun v hv => ?_
  rw [← kout_streamAt]
  exact hv

theorem tv_start : SqS 168 (padded 168 0x1F []) 0 rngstate := by
  have h := shake128_absorb_once_runs (st := KeccakState.uninit) (Mem.size_uninit ..) (Mem.holds_ofList []) rfl
  obtain ⟨st, t, e, h1, h2⟩ := h.exists_ok
  have h3 := rngstate_eq
  rw [show shake128_absorb_once KeccakState.uninit (Mem.ofList []) 0 0 = _ from e] at h3
  have h3 : st.s = rngstate.s ∧ st.pos = rngstate.pos := h3
  exact SqS.start ⟨by rw [← h3.1]; exact h1, by rw [← h3.2]; exact h2⟩ (by omega)

end Verif.Proof
