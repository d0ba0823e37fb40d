import Verif.Model.TestKyber
import Verif.Proof.Programs
import Verif.Proof.Drbg

/-! # test_kyber.c -/

namespace Verif.Proof
open Verif.Model Verif.Spec

attribute [local irreducible] KeyGen_internal Encaps_internal Decaps_internal

variable {σ : Type}

theorem exchange_runsO {p : ParamSet} {fuel : Nat} {K : KemApi} (hK : ApiSpec p fuel K) {rb : Rng σ} {src : Nat → UInt8} {S : Nat → σ → Prop} (hr : StreamRng rb src S) {pos : Nat} {st : σ}
    (hst : S pos st) {β γ : Type} (k : Mem UInt8 → Mem UInt8 → Mem UInt8 → σ → C γ) {m : C γ}
    (hm : m = kemKeypair K rb st (Mem.uninit UInt8 (KYBER_PUBLICKEYBYTES p)) (Mem.uninit UInt8 (KYBER_SECRETKEYBYTES p)) >>= fun v =>
      kemEnc K rb v.2.2.2 (Mem.uninit UInt8 (KYBER_CIPHERTEXTBYTES p)) (Mem.uninit UInt8 KYBER_SSBYTES) v.1 >>= fun w => k v.2.1 w.1 w.2.1 w.2.2.2) {g : List UInt8 × List UInt8 × List UInt8 → Option β} {Q : β → γ → Prop}
    (h : ∀ dk kb c sk ct key_b st, sk.Holds 0 dk → dk.length = KYBER_SECRETKEYBYTES p → sk.size = KYBER_SECRETKEYBYTES p → ct.Holds 0 c → c.length = KYBER_CIPHERTEXTBYTES p →
      ct.size = KYBER_CIPHERTEXTBYTES p → key_b.Holds 0 kb → kb.length = KYBER_SSBYTES → S (pos + 96) st → RunsO (k sk ct key_b st) (g (dk, kb, c)) Q) :
    RunsO m ((exchange (fips p) (iters fuel) src pos).bind g) Q := by
  have hl := streamAt_length src
  have e : (exchange (fips p) (iters fuel) src pos).bind g = (KeyGen_internal (fips p) (iters fuel) (streamAt src pos 32) (streamAt src (pos + 32) 32)).bind fun o =>
      (Encaps_internal (fips p) (iters fuel) o.1 (streamAt src (pos + 64) 32)).bind fun e => g (o.2, e.1, e.2) := by
    unfold exchange
    cases KeyGen_internal (fips p) (iters fuel) (streamAt src pos 32) (streamAt src (pos + 32) 32) with
    | none => rfl
    | some o =>
      simp only [Option.bind_eq_bind, Option.bind_some]
      cases Encaps_internal (fips p) (iters fuel) o.1 (streamAt src (pos + 64) 32) with
      | none => rfl
      | some e => rfl
  rw [e, hm]
  have r1 : ∀ out : Mem UInt8, out.size = 64 → Runs (rb st out 0 64) (fun r => out.Wrote r.1 0 (streamAt src pos 32 ++ streamAt src (pos + 32) 32) ∧ S (pos + 64) r.2) := fun out ho => by
    rw [← streamAt_add]
    exact hr _ _ _ _ _ hst (by omega) (by omega)
  refine RunsO.bind (RunsO.with (kemKeypair_runsO hK (S := S (pos + 64)) r1 (hl _ _) (hl _ _) (by rw [Mem.size_uninit]) (by rw [Mem.size_uninit]))) fun o v hv => ?_
  obtain ⟨ek, dk⟩ := o
  obtain ⟨pk, sk, i, rng⟩ := v
  obtain ⟨ho, hpk, hsk, -, hrng⟩ := hv
  obtain ⟨l1, l2⟩ := keyGen_lengths (hl _ _) ho
  dsimp only at hpk hsk hrng l1 l2 ⊢
  have r2 : ∀ out : Mem UInt8, out.size = 32 → Runs (rb rng out 0 32) (fun r => out.Wrote r.1 0 (streamAt src (pos + 64) 32) ∧ S (pos + 96) r.2) := fun out ho =>
    hr _ _ _ _ _ hrng (by omega) (by omega)
  refine RunsO.bind (RunsO.with (kemEnc_runsO hK (S := S (pos + 96)) r2 (hl _ _) hpk.holds l1 (by rw [Mem.size_uninit]) (by rw [Mem.size_uninit]))) fun e v hv => ?_
  obtain ⟨kb, c⟩ := e
  obtain ⟨ct, key_b, i, rng'⟩ := v
  obtain ⟨he, hct, hkb, -, hrng'⟩ := hv
  obtain ⟨l3, l4⟩ := encaps_lengths he
  exact h _ _ _ _ _ _ _ hsk.holds l2 (by rw [hsk.size, Mem.size_uninit]) hct.holds l4 (by rw [hct.size, Mem.size_uninit]) hkb.holds l3 hrng'

theorem memcmpNe_runs {a b : Mem UInt8} {l l' : List UInt8} {n : Nat} (ha : a.Holds 0 l) (hl : l.length = n) (hb : b.Holds 0 l') (hl' : l'.length = n) :
    Runs (memcmpNe a b n) (fun r => r = decide (l ≠ l')) := by
  unfold memcmpNe
  rw [runs_bind]
  refine (rdBytes_runs ha hl).mono fun x hx => ?_
  rw [runs_bind]
  refine (rdBytes_runs hb hl').mono fun y hy => ?_
  rw [runs_pure, hx, hy]

/-- The result of a test that fails if `e`. -/
def TestOk (S : Nat → σ → Prop) (err : String) (o : Bool × Nat) (r : TestRes σ) : Prop :=
  r.1 = (if o.1 then 1 else 0) ∧ r.2.1 = (if o.1 then err.toList else []) ∧ S o.2 r.2.2

theorem check_runs {a b : Mem UInt8} {l l' : List UInt8} {n : Nat} (ha : a.Holds 0 l) (hl : l.length = n) (hb : b.Holds 0 l') (hl' : l'.length = n) {γ : Type} {x y : γ} {Q : γ → Prop}
    (h1 : l ≠ l' → Q x) (h2 : l = l' → Q y) : Runs (do let d ← memcmpNe a b n; cif d (pure x) (pure y)) Q := by
  rw [runs_bind]
  refine (memcmpNe_runs ha hl hb hl').mono fun d hd => ?_
  rw [runs_cif, hd]
  exact ⟨fun h => by rw [runs_pure]; exact h1 (by simpa using h), fun h => by rw [runs_pure]; exact h2 (by simpa using h)⟩

theorem checkNot_runs {a b : Mem UInt8} {l l' : List UInt8} {n : Nat} (ha : a.Holds 0 l) (hl : l.length = n) (hb : b.Holds 0 l') (hl' : l'.length = n) {γ : Type} {x y : γ} {Q : γ → Prop}
    (h1 : l = l' → Q x) (h2 : l ≠ l' → Q y) : Runs (do let d ← memcmpNe a b n; cif (!d) (pure x) (pure y)) Q := by
  rw [runs_bind]
  refine (memcmpNe_runs ha hl hb hl').mono fun d hd => ?_
  rw [runs_cif, hd]
  exact ⟨fun h => by rw [runs_pure]; exact h1 (by simpa using h), fun h => by rw [runs_pure]; exact h2 (by simpa using h)⟩

/-! ## The three tests -/

variable (P : Params) (N : Nat) (src : Nat → UInt8)

def sKeys (pos : Nat) : Option (Bool × Nat) :=
  (exchange P N src pos).bind fun x => (Decaps_internal P N x.1 x.2.2).map fun K' => (decide (K' ≠ x.2.1), pos + 96)

def sSk (pos : Nat) : Option (Bool × Nat) :=
  (exchange P N src pos).bind fun x => (Decaps_internal P N (streamAt src (pos + 96) (768 * P.k + 96)) x.2.2).map fun K' => (decide (K' = x.2.1), pos + 96 + (768 * P.k + 96))

def placeOf (q : Nat) : Nat := (∑ i : Fin 8, (src (q + 1 + i)).toNat * 256 ^ i.val) % (32 * (P.du * P.k + P.dv))

def sCt (tries pos : Nat) : Option (Bool × Nat) :=
  (firstNonzero src tries pos).bind fun q => (exchange P N src (q + 9)).bind fun x =>
    (Decaps_internal P N x.1 (x.2.2.set (placeOf P src q) (x.2.2.getD (placeOf P src q) 0 ^^^ src q))).map fun K' => (decide (K' = x.2.1), q + 105)

variable {P N src}

theorem test_keys_runsO {p : ParamSet} {fuel : Nat} {K : KemApi} (hK : ApiSpec p fuel K) {rb : Rng σ} {S : Nat → σ → Prop} (hr : StreamRng rb src S) {pos : Nat} {st : σ} (hst : S pos st) :
    RunsO (test_keys p K rb st) (sKeys (fips p) (iters fuel) src pos) (TestOk S "ERROR keys\n") := by
  unfold test_keys sKeys
  refine exchange_runsO (γ := TestRes σ) hK hr hst (fun sk ct key_b st => do
    let (key_a, _) ← K.dec (Mem.uninit UInt8 KYBER_SSBYTES) ct sk
    let d ← memcmpNe key_a key_b KYBER_SSBYTES
    cif d (pure (1, "ERROR keys\n".toList, st)) (pure (0, [], st))) rfl fun dk kb c sk ct key_b st hsk l2 z2 hct l4 z4 hkb l3 hrng => ?_
  have hd := RunsO.with (hK.dec (ss := Mem.uninit UInt8 KYBER_SSBYTES) hct l4 hsk l2 (by rw [Mem.size_uninit]))
  dsimp only at hd ⊢
  rw [Option.map_eq_bind]
  refine RunsO.bind hd fun K' v hv => ?_
  obtain ⟨key_a, i⟩ := v
  obtain ⟨hd, hka, -⟩ := hv
  rw [Function.comp, runsO_some]
  refine check_runs hka.holds (decaps_length hd) hkb l3 (fun h => ?_) (fun h => ?_)
  · simp [TestOk, h, hrng]
  · simp [TestOk, h, hrng]

theorem test_invalid_sk_a_runsO {p : ParamSet} {fuel : Nat} {K : KemApi} (hK : ApiSpec p fuel K) {rb : Rng σ} {S : Nat → σ → Prop} (hr : StreamRng rb src S) {pos : Nat} {st : σ} (hst : S pos st) :
    RunsO (test_invalid_sk_a p K rb st) (sSk (fips p) (iters fuel) src pos) (TestOk S "ERROR invalid sk\n") := by
  unfold test_invalid_sk_a sSk
  refine exchange_runsO (γ := TestRes σ) hK hr hst (fun sk ct key_b st => do
    let (sk, st) ← rb st sk 0 (KYBER_SECRETKEYBYTES p)
    let (key_a, _) ← K.dec (Mem.uninit UInt8 KYBER_SSBYTES) ct sk
    let d ← memcmpNe key_a key_b KYBER_SSBYTES
    cif (!d) (pure (1, "ERROR invalid sk\n".toList, st)) (pure (0, [], st))) rfl fun dk kb c sk ct key_b st hsk l2 z2 hct l4 z4 hkb l3 hrng => ?_
  refine Runs.bindO (hr _ _ sk 0 _ hrng (by rw [z2]; omega) (by cases p <;> decide)) fun v hv => ?_
  obtain ⟨sk', st'⟩ := v
  obtain ⟨hsk', hrng'⟩ := hv
  have e : KYBER_SECRETKEYBYTES p = 768 * (fips p).k + 96 := sk_size p
  dsimp only at hsk' hrng' ⊢
  rw [← e]
  have hd := RunsO.with (hK.dec (ss := Mem.uninit UInt8 KYBER_SSBYTES) hct l4 hsk'.holds (streamAt_length ..) (by rw [Mem.size_uninit]))
  rw [Option.map_eq_bind]
  refine RunsO.bind hd fun K' v hv => ?_
  obtain ⟨key_a, i⟩ := v
  obtain ⟨hd, hka, -⟩ := hv
  rw [Function.comp, runsO_some]
  refine checkNot_runs hka.holds (decaps_length hd) hkb l3 (fun h => ?_) (fun h => ?_)
  · simp [TestOk, h, hrng']
  · simp [TestOk, h, hrng']

theorem firstNonzero_succ (src : Nat → UInt8) (f pos : Nat) : firstNonzero src (f + 1) pos = if src pos = 0 then firstNonzero src f (pos + 1) else some pos := by
  unfold firstNonzero
  rw [List.range_succ_eq_map, List.map_cons, List.find?_cons, Nat.add_zero]
  by_cases h : src pos = 0
  · simp only [h, ne_eq, not_true_eq_false, decide_false, if_true, List.map_map]
    congr 2
    funext i
    simp only [Function.comp]
    omega
  · simp [h]

theorem nonzeroByte_runsO {rb : Rng σ} {S : Nat → σ → Prop} (hr : StreamRng rb src S) : ∀ (f pos : Nat) (b : Mem UInt8) (st : σ), b.size = 1 → S pos st →
    RunsO (nonzeroByte rb f b st) (firstNonzero src f pos) (fun q r => r.1 = src q ∧ S (q + 1) r.2)
  | 0, _, _, _, _, _ => rfl
  | f + 1, pos, b, st, hb, hst => by
    unfold nonzeroByte
    rw [firstNonzero_succ]
    refine Runs.bindO (hr _ _ b 0 1 hst (by rw [hb]) (by decide)) fun v hv => ?_
    obtain ⟨b', st'⟩ := v
    obtain ⟨h1, h2⟩ := hv
    dsimp only at h1 h2 ⊢
    have hx : b'[0]? = some (some (src pos)) := h1.holds.has 0 0 (by simp [streamAt_length])
    refine Runs.bindO (P := fun x => x = src pos) (by rw [runs_rd_of hx]) fun x hx => ?_
    subst hx
    unfold cif
    by_cases h0 : src pos = 0
    · rw [if_pos h0]
      refine Runs.bindO (P := fun _ => True) trivial fun _ _ => ?_
      rw [if_pos (show (src pos == 0) = true by simp [h0])]
      exact nonzeroByte_runsO hr f (pos + 1) b' st' (by rw [h1.size, hb]) h2
    · rw [if_neg h0]
      refine Runs.bindO (P := fun _ => True) trivial fun _ _ => ?_
      rw [if_neg (show ¬ (src pos == 0) = true by simp [h0])]
      exact ⟨rfl, h2⟩

theorem leNat_streamAt (src : Nat → UInt8) (n : Nat) : leNat (streamAt src n 8) = ∑ i : Fin 8, (src (n + i)).toNat * 256 ^ i.val := by
  simp only [leNat, streamAt, List.range, List.range.loop, List.map_cons, List.map_nil, List.foldr_cons, List.foldr_nil, Fin.sum_univ_eight]
  simp
  ring

theorem test_invalid_ciphertext_runsO {p : ParamSet} {fuel : Nat} {K : KemApi} (hK : ApiSpec p fuel K) {rb : Rng σ} {S : Nat → σ → Prop} (hr : StreamRng rb src S) (tries : Nat) {pos : Nat} {st : σ}
    (hst : S pos st) : RunsO (test_invalid_ciphertext p K rb tries st) (sCt (fips p) (iters fuel) src tries pos) (TestOk S "ERROR invalid ciphertext\n") := by
  unfold test_invalid_ciphertext sCt
  refine RunsO.bind (nonzeroByte_runsO hr tries pos _ st (Mem.size_uninit ..) hst) fun q v hv => ?_
  obtain ⟨b, st1⟩ := v
  obtain ⟨hb, hst1⟩ := hv
  dsimp only at hb hst1 ⊢
  subst hb
  refine Runs.bindO (hr _ _ _ 0 8 hst1 (by rw [Mem.size_uninit]) (by decide)) fun v hv => ?_
  obtain ⟨pb, st2⟩ := v
  obtain ⟨hpb, hst2⟩ := hv
  dsimp only at hpb hst2 ⊢
  refine Runs.bindO (rdBytes_runs hpb.holds (streamAt_length ..)) fun l hl => ?_
  subst hl
  rw [leNat_streamAt]
  refine exchange_runsO (γ := TestRes σ) hK hr hst2 (fun sk ct key_b st => do
    let x ← rd ct ((∑ i : Fin 8, (src (q + 1 + i)).toNat * 256 ^ i.val) % KYBER_CIPHERTEXTBYTES p)
    let ct ← wr ct ((∑ i : Fin 8, (src (q + 1 + i)).toNat * 256 ^ i.val) % KYBER_CIPHERTEXTBYTES p) (x ^^^ src q)
    let (key_a, _) ← K.dec (Mem.uninit UInt8 KYBER_SSBYTES) ct sk
    let d ← memcmpNe key_a key_b KYBER_SSBYTES
    cif (!d) (pure (1, "ERROR invalid ciphertext\n".toList, st)) (pure (0, [], st))) rfl fun dk kb c sk ct key_b st hsk l2 z2 hct l4 z4 hkb l3 hrng => ?_
  have e : KYBER_CIPHERTEXTBYTES p = 32 * ((fips p).du * (fips p).k + (fips p).dv) := ct_size' p
  have hpos : 0 < KYBER_CIPHERTEXTBYTES p := by cases p <;> decide
  rw [e]
  rw [show (∑ i : Fin 8, (src (q + 1 + i)).toNat * 256 ^ i.val) % (32 * ((fips p).du * (fips p).k + (fips p).dv)) = placeOf (fips p) src q from rfl]
  have hplace : placeOf (fips p) src q < KYBER_CIPHERTEXTBYTES p := by rw [e]; exact Nat.mod_lt _ (e ▸ hpos)
  dsimp only
  generalize placeOf (fips p) src q = i at hplace ⊢
  have hx := hct.has 0 i (by omega)
  rw [Nat.zero_add] at hx
  refine Runs.bindO (P := fun x => x = c.getD i 0) (by rw [runs_rd_of hx]) fun x hx => ?_
  subst hx
  refine Runs.bindO (P := fun ct' => ct'.Holds 0 (c.set i (c.getD i 0 ^^^ src q))) ?_ fun ct' hct' => ?_
  · refine (runs_wr_upd (by omega)).mono fun ct' hu j hj => ?_
    rw [List.length_set] at hj
    have h0 := hct j hj
    rw [Nat.zero_add] at h0 ⊢
    by_cases hij : i = j
    · subst hij
      rw [hu.has.get (Nat.le_refl _) (Nat.lt_succ_self _), List.getElem_set_self]
    · rw [hu.frame j (by omega), h0, List.getElem_set_ne hij]
  have hd := RunsO.with (hK.dec (ss := Mem.uninit UInt8 KYBER_SSBYTES) hct' (by rw [List.length_set, l4]) hsk l2 (by rw [Mem.size_uninit]))
  rw [Option.map_eq_bind]
  refine RunsO.bind hd fun K' v hv => ?_
  obtain ⟨key_a, i⟩ := v
  obtain ⟨hd, hka, -⟩ := hv
  rw [Function.comp, runsO_some]
  refine checkNot_runs hka.holds (decaps_length hd) hkb l3 (fun h => ?_) (fun h => ?_)
  · simp only [TestOk, h, decide_true, if_true, true_and]
    exact hrng
  · simp only [TestOk, h, decide_false, Bool.false_eq_true, if_false, true_and]
    exact hrng

/-! ## The program -/

def sRound (P : Params) (N : Nat) (src : Nat → UInt8) (tries pos : Nat) : Option (List Char × Bool × Nat) :=
  (sKeys P N src pos).bind fun a => (sSk P N src a.2).bind fun b => (sCt P N src tries b.2).bind fun c =>
    some ((if a.1 then "ERROR keys\n".toList else []) ++ (if b.1 then "ERROR invalid sk\n".toList else []) ++ (if c.1 then "ERROR invalid ciphertext\n".toList else []), !(a.1 || b.1 || c.1), c.2)

theorem testRound_eq (P : Params) (N : Nat) (src : Nat → UInt8) (tries pos : Nat) : testRound P N src tries pos = sRound P N src tries pos := by
  unfold testRound sRound sKeys sSk sCt
  simp only [Option.bind_eq_bind]
  cases exchange P N src pos with
  | none => rfl
  | some x =>
    obtain ⟨dk₁, K₁, c₁⟩ := x
    simp only [Option.bind_some]
    cases Decaps_internal P N dk₁ c₁ with
    | none => rfl
    | some K₁' =>
      simp only [Option.bind_some, Option.map_some]
      cases exchange P N src (pos + 96) with
      | none => rfl
      | some x =>
        obtain ⟨dk₂, K₂, c₂⟩ := x
        simp only [Option.bind_some]
        rw [show pos + 96 + 96 = pos + 192 by omega]
        cases Decaps_internal P N (streamAt src (pos + 192) (768 * P.k + 96)) c₂ with
        | none => rfl
        | some K₂' =>
          simp only [Option.bind_some, Option.map_some]
          cases firstNonzero src tries (pos + 192 + (768 * P.k + 96)) with
          | none => rfl
          | some q =>
            simp only [Option.bind_some]
            cases exchange P N src (q + 9) with
            | none => rfl
            | some x =>
              obtain ⟨dk₃, K₃, c₃⟩ := x
              simp only [Option.bind_some]
              unfold placeOf
              cases Decaps_internal P N dk₃ (c₃.set ((∑ i : Fin 8, (src (q + 1 + i)).toNat * 256 ^ i.val) % (32 * (P.du * P.k + P.dv)))
                  (c₃.getD ((∑ i : Fin 8, (src (q + 1 + i)).toNat * 256 ^ i.val) % (32 * (P.du * P.k + P.dv))) 0 ^^^ src q)) with
              | none => rfl
              | some K₃' =>
                simp only [Option.bind_some, Option.map_some]
                by_cases h1 : K₁' = K₁ <;> by_cases h2 : K₂' = K₂ <;> by_cases h3 : K₃' = K₃ <;> simp [h1, h2, h3]

theorem or_flags (a b c : Bool) : decide ((BitVec.ofInt 32 (if a then 1 else 0) ||| BitVec.ofInt 32 (if b then 1 else 0) ||| BitVec.ofInt 32 (if c then 1 else 0)).toInt ≠ 0) = (a || b || c) := by
  revert a b c; decide

theorem tkBody_runsO {p : ParamSet} {fuel : Nat} {K : Nat → KemApi} (hK : ∀ i, ApiSpec p fuel (K i)) {rb : Rng σ} {S : Nat → σ → Prop} (hr : StreamRng rb src S) (tries : Nat) {pos : Nat} {s : TkSt σ}
    (h : S pos s.rng) : RunsO (tkBody p K rb tries s) (testRound (fips p) (iters fuel) src tries pos)
      (fun o s' => s'.out = s.out ++ o.1 ∧ s'.failed = !o.2.1 ∧ S o.2.2 s'.rng ∧ (o.2.1 = true → s'.i = s.i + 1)) := by
  rw [testRound_eq]
  unfold tkBody sRound
  refine RunsO.bind (test_keys_runsO (hK 0) hr h) fun a v hv => ?_
  obtain ⟨r0, t0, st0⟩ := v
  obtain ⟨e0, e0', h0⟩ := hv
  dsimp only at e0 e0' h0 ⊢
  refine RunsO.bind (test_invalid_sk_a_runsO (hK 1) hr h0) fun b v hv => ?_
  obtain ⟨r1, t1, st1⟩ := v
  obtain ⟨e1, e1', h1⟩ := hv
  dsimp only at e1 e1' h1 ⊢
  refine RunsO.bind (test_invalid_ciphertext_runsO (hK 2) hr tries h1) fun c v hv => ?_
  obtain ⟨r2, t2, st2⟩ := v
  obtain ⟨e2, e2', h2⟩ := hv
  dsimp only at e2 e2' h2 ⊢
  rw [runsO_some, runs_cif, e0, e1, e2, or_flags]
  refine ⟨fun hc => ?_, fun hc => ?_⟩
  · rw [runs_pure]
    dsimp only
    rw [hc]
    exact ⟨by rw [e0', e1', e2', List.append_assoc, List.append_assoc, List.append_assoc], rfl, h2, fun h => by cases h⟩
  · rw [runs_pure]
    dsimp only
    rw [hc]
    exact ⟨by rw [e0', e1', e2', List.append_assoc, List.append_assoc, List.append_assoc], rfl, h2, fun _ => rfl⟩

/-- The end of `main`. -/
def finish (p : ParamSet) (s : TkSt σ) : List Char × Int :=
  if s.failed then (s.out, 1) else
    (s.out ++ "CRYPTO_SECRETKEYBYTES:  ".toList ++ decimal (KYBER_SECRETKEYBYTES p) ++ "\nCRYPTO_PUBLICKEYBYTES:  ".toList ++ decimal (KYBER_PUBLICKEYBYTES p) ++
      "\nCRYPTO_CIPHERTEXTBYTES: ".toList ++ decimal (KYBER_CIPHERTEXTBYTES p) ++ "\n".toList, 0)

theorem testKyber_succ (P : Params) (N : Nat) (src : Nat → UInt8) (tries m pos : Nat) : testKyber P N src tries (m + 1) pos =
    (testRound P N src tries pos).bind fun o => if o.2.1 then (testKyber P N src tries m o.2.2).map fun r => (o.1 ++ r.1, r.2) else some (o.1, 1) := by
  rw [testKyber]
  cases testRound P N src tries pos with
  | none => rfl
  | some o =>
    simp only [Option.bind_eq_bind, Option.bind_some]
    by_cases h : o.2.1 = true
    · rw [if_pos h, if_pos h]
      cases testKyber P N src tries m o.2.2 <;> rfl
    · rw [if_neg h, if_neg h]

theorem tkLoop_runsO {p : ParamSet} {fuel : Nat} {K : Nat → Nat → KemApi} (hK : ∀ i j, ApiSpec p fuel (K i j)) {rb : Rng σ} {S : Nat → σ → Prop} (hr : StreamRng rb src S) (tries n : Nat) :
    ∀ (m f pos : Nat) (s : TkSt σ), m < f → s.i + m = n → s.failed = false → S pos s.rng →
      RunsO (cwhile f (fun s : TkSt σ => !s.failed && decide (s.i < n)) (fun s => tkBody p (K s.i) rb tries s) s) (testKyber (fips p) (iters fuel) src tries m pos)
        (fun o r => finish p r = (s.out ++ o.1, o.2))
  | 0, f, pos, s, hf, hi, hret, h => by
    obtain ⟨f, rfl⟩ : ∃ g, f = g + 1 := ⟨f - 1, by omega⟩
    unfold cwhile
    rw [if_neg (by simp; omega)]
    rw [testKyber, runsO_some, runs_bind, runs_leak, runs_pure, finish, hret, sk_size, pk_size', ct_size']
    simp only [decimal, toString, String.toList_append, List.append_assoc, Bool.false_eq_true, if_false]
  | m + 1, f, pos, s, hf, hi, hret, h => by
    obtain ⟨f, rfl⟩ : ∃ g, f = g + 1 := ⟨f - 1, by omega⟩
    rw [cwhile, if_pos (by simp [hret]; omega), testKyber_succ]
    refine Runs.bindO (P := fun _ => True) trivial fun _ _ => ?_
    refine RunsO.bind (tkBody_runsO (K := K s.i) (hK s.i) hr tries h) fun o s' hs => ?_
    obtain ⟨h1, h2, h3, h4⟩ := hs
    by_cases ho : o.2.1 = true
    · rw [if_pos ho]
      have := tkLoop_runsO hK hr tries n m f _ s' (by omega) (by have := h4 ho; omega) (by rw [h2, ho]; rfl) h3
      revert this
      generalize testKyber (fips p) (iters fuel) src tries m o.2.2 = w
      intro this
      cases w with
      | none => exact this
      | some r =>
        refine Runs.mono this fun s'' hs => ?_
        dsimp only at hs ⊢
        rw [hs, h1, List.append_assoc]
    · rw [if_neg ho]
      obtain ⟨f, rfl⟩ : ∃ g, f = g + 1 := ⟨f - 1, by omega⟩
      have hf : s'.failed = true := by rw [h2]; simpa using ho
      rw [cwhile, if_neg (by simp [hf])]
      rw [runsO_some, runs_bind, runs_leak, runs_pure, finish, hf, if_pos rfl, h1]

theorem tkMain_runsO {p : ParamSet} {fuel : Nat} {K : Nat → Nat → KemApi} (hK : ∀ i j, ApiSpec p fuel (K i j)) {rb : Rng σ} {S : Nat → σ → Prop} (hr : StreamRng rb src S) {st : σ} {pos : Nat}
    (hst : S pos st) (tries n : Nat) : RunsO (tkMain p K rb tries st n) (testKyber (fips p) (iters fuel) src tries n pos) (fun o r => r = o) := by
  unfold tkMain
  refine (tkLoop_runsO hK hr tries n n (n + 1) pos _ (by omega) (by simp) rfl hst).bindR fun o s hs => ?_
  exact hs

end Verif.Proof
