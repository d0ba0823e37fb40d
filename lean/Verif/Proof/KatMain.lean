import Verif.Proof.KatFiles

/-! # The main function of PQCgenKAT_kem.c -/

namespace Verif.Proof
open Verif.Model Verif.Spec

attribute [local irreducible] KeyGen_internal Encaps_internal Decaps_internal CTR_DRBG_Generate katStart

/-! ## The generator -/

/-- A state of the generator of the right size, with a counter that can still be incremented `n` times. -/
def GoodState (s : DrbgState) (n : Nat) : Prop := s.Key.length = 32 ∧ s.V.length = 16 ∧ s.reseed_counter + n < 2147483648

section
attribute [local semireducible] CTR_DRBG_Generate katStart

theorem good_start {aes : Cipher} (hA : IsCipher aes) {e : List UInt8} (he : e.length = 48) : GoodState (katStart aes e) 2147483646 := by
  have := Update_lengths hA (K := List.replicate 32 0) (v := List.replicate 16 0) (data := xorStr e (List.replicate 48 0)) (by simp) (by simp) (by simp [xorStr, he])
  exact ⟨this.1, this.2, by have : (katStart aes e).reseed_counter = 1 := rfl; omega⟩

theorem good_generate {aes : Cipher} (hA : IsCipher aes) {s : DrbgState} {n k : Nat} (h : GoodState s (n + 1)) : GoodState (CTR_DRBG_Generate aes k s).2 n := by
  obtain ⟨h1, h2, h3⟩ := h
  have := Update_lengths hA (K := s.Key) (v := ctrAdd s.V ((k + 15) / 16)) (data := List.replicate 48 0) h1 (by rw [ctrAdd_length, h2]) (by simp)
  exact ⟨this.1, this.2, by simp only [CTR_DRBG_Generate]; omega⟩

theorem generate_length {aes : Cipher} (hA : IsCipher aes) {s : DrbgState} {n k : Nat} (h : GoodState s n) : (CTR_DRBG_Generate aes k s).1.length = k := by
  simp only [CTR_DRBG_Generate]
  rw [List.length_take, ctrBlocks_length hA h.1 h.2.1]
  omega

theorem katInit_runs {aes : Cipher} (hA : IsCipher aes) {g : DRBG} {entropy : Mem UInt8} {e : List UInt8} (hK : g.Key.size = 32) (hV : g.V.size = 16) (he : entropy.Holds 0 e) (hel : e.length = 48) :
    Runs (randombytes_init aes g entropy none) (fun g' => g' = drbgMem (katStart aes e)) :=
  drbg_init_runs hA hK hV he hel (s := List.replicate 48 0) (by simp) rfl
end

theorem katRng_runs {aes : Cipher} (hA : IsCipher aes) {s : DrbgState} {n : Nat} (h : GoodState s (n + 1)) {x : Mem UInt8} {k : Nat} (hx : k ≤ x.size) (hk : k < 2147483648) :
    Runs (katRng aes (drbgMem s) x 0 k) (fun r => x.Wrote r.1 0 (CTR_DRBG_Generate aes k s).1 ∧ r.2 = drbgMem (CTR_DRBG_Generate aes k s).2) := by
  unfold katRng
  rw [runs_bind]
  refine (generate_runs hA h.1 h.2.1 (by have := h.2.2; omega) (by omega) hk).mono fun r hr => ?_
  obtain ⟨x', i, g⟩ := r
  exact ⟨hr.1, hr.2.2⟩

theorem mem_size_ofList (l : List UInt8) : (Mem.ofList l).size = l.length := by simp [Mem.ofList]

/-! ## The request file -/

theorem record_eq (i : Nat) (seed r : List UInt8) : asciiBytes ("count = " ++ toString i ++ "\n") ++ hexField "seed = " seed ++ reqTail ++ r =
    asciiBytes "count = " ++ (asciiBytes (toString i) ++ 10 :: (asciiBytes "seed = " ++ (hexUpper seed ++ 10 :: (reqTail ++ r)))) := by
  rw [asciiBytes_append, asciiBytes_append, hexField, show asciiBytes "\n" = [10] by decide]
  simp only [List.append_assoc, List.cons_append, List.nil_append]

theorem katReq_runs {aes : Cipher} (hA : IsCipher aes) {s : DrbgState} {n : Nat} (h : GoodState s n) {seed : Mem UInt8} (hs : seed.size = 48) :
    Runs (katReq aes n (drbgMem s) seed) (fun r => r.1 = katRequests 0 (katSeeds aes n s) ∧ r.2.1.Key.size = 32 ∧ r.2.1.V.size = 16 ∧ r.2.2.size = 48) := by
  unfold katReq
  refine (runs_cfor (fun i (v : File × DRBG × Mem UInt8) => ∃ t, GoodState t (n - i) ∧ v.2.1 = drbgMem t ∧ v.2.2.size = 48 ∧
    v.1 ++ katRequests i (katSeeds aes (n - i) t) = katRequests 0 (katSeeds aes n s)) (Nat.zero_le _) ⟨s, h, rfl, hs, rfl⟩ ?_).mono fun v hv => ?_
  · rintro i ⟨fp, g, seed⟩ - hi ⟨t, ht, hg, hz, he⟩
    dsimp only at hg hz he ⊢
    subst hg
    rw [show n - i = (n - (i + 1)) + 1 by omega] at ht he
    rw [runs_bind]
    refine (katRng_runs hA ht (by omega) (by decide)).mono fun r hr => ?_
    obtain ⟨seed', g'⟩ := r
    obtain ⟨hw, hg'⟩ := hr
    dsimp only at hw hg' ⊢
    rw [runs_bind]
    refine (fprintBstr_runs hw.holds (generate_length hA ht) (by decide)).mono fun fp' hfp => ?_
    rw [runs_pure]
    refine ⟨_, good_generate hA ht, hg', by rw [hw.size, hz], ?_⟩
    dsimp only
    rw [← he, katSeeds, katRequests, hfp, fmtInt_nat, asciiBytes_append, asciiBytes_append, show asciiBytes "pk =\nsk =\nct =\nss =\n\n" = txt "pk =\n" ++ txt "sk =\n" ++ txt "ct =\n" ++ txt "ss =\n\n" by decide +kernel]
    simp only [List.append_assoc]
    rfl
  · obtain ⟨t, ht, hg, hz, he⟩ := hv
    rw [Nat.sub_self] at he ht
    simp only [katSeeds, katRequests, List.append_nil] at he
    refine ⟨he, ?_, ?_, hz⟩
    · rw [hg]; simp [drbgMem, ht.1]
    · rw [hg]; simp [drbgMem, ht.2.1]

/-! ## The response file -/

variable (aes : Cipher)

/-- One record, and whether the shared secrets agree. -/
def katRecord (P : Params) (N i : Nat) (seed : List UInt8) : Option (List UInt8 × Bool) :=
  (KeyGen_internal P N ((CTR_DRBG_Generate aes 64 (katStart aes seed)).1.take 32) ((CTR_DRBG_Generate aes 64 (katStart aes seed)).1.drop 32)).bind fun k =>
  (Encaps_internal P N k.1 (CTR_DRBG_Generate aes 32 (CTR_DRBG_Generate aes 64 (katStart aes seed)).2).1).bind fun e =>
  (Decaps_internal P N k.2 e.2).bind fun K' =>
    some (asciiBytes ("count = " ++ toString i ++ "\n") ++ hexField "seed = " seed ++ hexField "pk = " k.1 ++ hexField "sk = " k.2 ++ hexField "ct = " e.2 ++ hexField "ss = " e.1 ++ asciiBytes "\n",
      decide (K' = e.1))

def badSs : List UInt8 := asciiBytes "crypto_kem_dec returned bad 'ss' value\n"

theorem katResponses_cons (P : Params) (N i : Nat) (seed : List UInt8) (seeds : List (List UInt8)) : katResponses aes P N i (seed :: seeds) =
    (katRecord aes P N i seed).bind fun r => if r.2 then (katResponses aes P N (i + 1) seeds).bind fun t => some (r.1 ++ t.1, t.2) else some (r.1, badSs, -4) := by
  rw [katResponses, katRecord]
  simp only [Option.bind_eq_bind]
  cases KeyGen_internal P N ((CTR_DRBG_Generate aes 64 (katStart aes seed)).1.take 32) ((CTR_DRBG_Generate aes 64 (katStart aes seed)).1.drop 32) with
  | none => rfl
  | some k =>
    obtain ⟨ek, dk⟩ := k
    simp only [Option.bind_some]
    cases Encaps_internal P N ek (CTR_DRBG_Generate aes 32 (CTR_DRBG_Generate aes 64 (katStart aes seed)).2).1 with
    | none => rfl
    | some e =>
      obtain ⟨K, c⟩ := e
      simp only [Option.bind_some]
      cases Decaps_internal P N dk c with
      | none => rfl
      | some K' =>
        simp only [Option.bind_some]
        by_cases h : K' = K
        · simp only [h, if_true, decide_true]
        · simp only [h, if_false, decide_false, Bool.false_eq_true, badSs]

variable {aes}

/-- What the second loop needs of its variables. -/
structure KatOk (p : ParamSet) (s : KatSt) : Prop where
  key : s.g.Key.size = 32
  v : s.g.V.size = 16
  seed : s.seed.size = 48
  pk : s.pk.size = KYBER_PUBLICKEYBYTES p
  sk : s.sk.size = KYBER_SECRETKEYBYTES p
  ct : s.ct.size = KYBER_CIPHERTEXTBYTES p
  ss : s.ss.size = KYBER_SSBYTES
  ss1 : s.ss1.size = KYBER_SSBYTES
  ret : s.ret = none
  done : s.done = false

theorem ascii_ne_zero_count : ∀ x ∈ asciiBytes "count = ", x ≠ 0 := by decide
theorem ascii_ne_zero_seed : ∀ x ∈ asciiBytes "seed = ", x ≠ 0 := by decide

theorem katBody_last {p : ParamSet} {K : KemApi} {fn : List UInt8} {s : KatSt} {J : List UInt8} (hJ : J = [] ∨ J = reqTail) (hs : s.req = J) :
    Runs (katBody p K aes fn s) (fun s' => s' = { s with req := [], done := true }) := by
  unfold katBody
  rw [runs_bind, hs]
  refine (FindMarker_runs (holds_cstr "count = ") ascii_ne_zero_count J).mono fun r hr => ?_
  rw [after_count_none hJ] at hr
  subst hr
  dsimp only [fmResult]
  rw [runs_cif]
  exact ⟨fun h => absurd h (by decide), fun _ => by rw [runs_pure]⟩

theorem katBody_runsO (hA : IsCipher aes) {p : ParamSet} {fuel : Nat} {K : KemApi} (hK : ApiSpec p fuel K) {fn : List UInt8} {s : KatSt} (ok : KatOk p s) {J : List UInt8}
    (hJ : J = [] ∨ J = reqTail) {i : Nat} (hi : i ≤ 2147483647) {seed : List UInt8} (hseed : seed.length = 48) {seeds : List (List UInt8)} (hs : s.req = J ++ katRequests i (seed :: seeds)) :
    RunsO (katBody p K aes fn s) (katRecord aes (fips p) (iters fuel) i seed) (fun r s' => s'.rsp = s.rsp ++ r.1 ∧
      if r.2 then s'.out = s.out ∧ KatOk p s' ∧ s'.req = reqTail ++ katRequests (i + 1) seeds else s'.out = s.out ++ badSs ∧ s'.ret = some (-4)) := by
  unfold katBody katRecord
  refine Runs.bindO (FindMarker_runs (holds_cstr "count = ") ascii_ne_zero_count s.req) fun r hr => ?_
  rw [hs, katRequests, show asciiBytes "pk =\nsk =\nct =\nss =\n\n" = reqTail from rfl, record_eq, after_count hJ] at hr
  subst hr
  dsimp only [fmResult]
  refine runsO_cif (fun _ => ?_) (fun h => absurd h (by simp))
  refine Runs.bindO (fscanf_runs hi _) fun r hr => ?_
  subst hr
  dsimp only [Option.or]
  refine Runs.bindO (ReadHex_runs (holds_cstr "seed = ") ascii_ne_zero_seed (L := 48) (by decide) (by rw [ok.seed]) _) fun r hr => ?_
  rw [after_seed] at hr
  obtain ⟨okv, seed', req⟩ := r
  obtain ⟨h1, h2, h3⟩ := hr
  rw [hexRun_hexUpper] at h2 h3
  dsimp only at h1 h2 h3 ⊢
  rw [hexNumber_hexUpper, beBytes_beNat _ _ hseed] at h2
  subst h1
  refine runsO_cif (fun h => absurd h (by simp)) (fun _ => ?_)
  refine Runs.bindO (fprintBstr_runs h2.holds hseed (by decide)) fun rsp1 hr1 => ?_
  refine Runs.bindO (katInit_runs hA ok.key ok.v h2.holds hseed) fun g hg => ?_
  subst hg
  have hg0 := good_start hA hseed
  have hl64 := generate_length hA (k := 64) hg0
  have hg1 := good_generate hA (k := 64) hg0
  have hl32 := generate_length hA (k := 32) hg1
  have hg2 := good_generate hA (k := 32) hg1
  refine RunsO.bind (RunsO.with (kemKeypair_runsO hK (d := (CTR_DRBG_Generate aes 64 (katStart aes seed)).1.take 32) (z := (CTR_DRBG_Generate aes 64 (katStart aes seed)).1.drop 32)
    (S := fun g => g = drbgMem (CTR_DRBG_Generate aes 64 (katStart aes seed)).2) (fun out ho => by
      rw [List.take_append_drop]; exact katRng_runs hA hg0 (by omega) (by decide)) (by simp [hl64]) (by simp [hl64]) (by rw [ok.pk]) (by rw [ok.sk]))) fun o v hv => ?_
  obtain ⟨ek, dk⟩ := o
  obtain ⟨pk, sk, rr, g⟩ := v
  obtain ⟨ho, hpk, hsk, hrr, hg⟩ := hv
  obtain ⟨l1, l2⟩ := keyGen_lengths (by simp [hl64]) ho
  dsimp only at hpk hsk hrr hg l1 l2 ⊢
  subst hrr; subst hg
  refine runsO_cif (fun h => absurd h (by simp)) (fun _ => ?_)
  refine Runs.bindO (fprintBstr_runs hpk.holds l1 (by cases p <;> decide)) fun rsp2 hr2 => ?_
  refine Runs.bindO (fprintBstr_runs hsk.holds l2 (by cases p <;> decide)) fun rsp3 hr3 => ?_
  refine RunsO.bind (RunsO.with (kemEnc_runsO hK (S := fun g => g = drbgMem (CTR_DRBG_Generate aes 32 (CTR_DRBG_Generate aes 64 (katStart aes seed)).2).2) (fun out ho => katRng_runs hA hg1 (by omega) (by decide))
    hl32 hpk.holds l1 (by rw [ok.ct]) (by rw [ok.ss]))) fun o v hv => ?_
  obtain ⟨kb, c⟩ := o
  obtain ⟨ct, ss, rr, g⟩ := v
  obtain ⟨he, hct, hss, hrr, hg⟩ := hv
  obtain ⟨l3, l4⟩ := encaps_lengths he
  dsimp only at hct hss hrr hg l3 l4 ⊢
  subst hrr; subst hg
  refine runsO_cif (fun h => absurd h (by simp)) (fun _ => ?_)
  refine Runs.bindO (fprintBstr_runs hct.holds l4 (by cases p <;> decide)) fun rsp4 hr4 => ?_
  refine Runs.bindO (fprintBstr_runs hss.holds l3 (by decide)) fun rsp5 hr5 => ?_
  refine RunsO.bind (RunsO.with (hK.dec (ss := s.ss1) hct.holds l4 hsk.holds l2 (by rw [ok.ss1]))) fun K' v hv => ?_
  obtain ⟨ss1, rr⟩ := v
  obtain ⟨hd, hs1, hrr⟩ := hv
  dsimp only at hs1 hrr ⊢
  subst hrr
  refine runsO_cif (fun h => absurd h (by simp)) (fun _ => ?_)
  have hrsp : rsp5 ++ txt "\n" = s.rsp ++ (asciiBytes ("count = " ++ toString i ++ "\n") ++ hexField "seed = " seed ++ hexField "pk = " ek ++ hexField "sk = " dk ++ hexField "ct = " c ++ hexField "ss = " kb ++ asciiBytes "\n") := by
    rw [hr5, hr4, hr3, hr2, hr1, fmtInt_nat, asciiBytes_append, asciiBytes_append]
    simp only [List.append_assoc]
    rfl
  rw [runsO_some]
  refine check_runs hss.holds l3 hs1.holds (decaps_length hd) (fun h => ?_) (fun h => ?_)
  · refine ⟨hrsp, ?_⟩
    rw [if_neg (by simpa using fun h' => h h'.symm)]
    exact ⟨rfl, rfl⟩
  · refine ⟨hrsp, ?_⟩
    rw [if_pos (by simpa using h.symm)]
    exact ⟨rfl, ⟨by simp [drbgMem, hg2.1], by simp [drbgMem, hg2.2.1], by rw [h2.size, ok.seed], by rw [hpk.size, ok.pk], by rw [hsk.size, ok.sk], by rw [hct.size, ok.ct], by rw [hss.size, ok.ss],
      by rw [hs1.size, ok.ss1], rfl, rfl⟩, h3⟩

theorem katLoop_runsO (hA : IsCipher aes) {p : ParamSet} {fuel : Nat} {K : Nat → KemApi} (hK : ∀ i, ApiSpec p fuel (K i)) {fn : List UInt8} (seeds : List (List UInt8)) {i n : Nat} {s : KatSt}
    {J : List UInt8} (ok : KatOk p s) (hJ : J = [] ∨ J = reqTail) (hi : i + seeds.length ≤ 2147483647) (hl : ∀ x ∈ seeds, x.length = 48) (hs : s.req = J ++ katRequests i seeds) (hn : seeds.length + 2 ≤ n) :
    RunsO (cwhile n (fun s : KatSt => s.ret.isNone && !s.done) (fun s => katBody p (K s.req.length) aes fn s) s) (katResponses aes (fips p) (iters fuel) i seeds)
      (fun r s' => s'.rsp = s.rsp ++ r.1 ∧ s'.out = s.out ++ r.2.1 ∧ s'.ret.getD 0 = r.2.2) := by
  induction seeds generalizing i n s J with
  | nil =>
    obtain ⟨n, rfl⟩ : ∃ k, n = k + 2 := ⟨n - 2, by omega⟩
    rw [cwhile, if_pos (by rw [ok.ret, ok.done]; rfl), katResponses, runsO_some, runs_bind, runs_leak, runs_bind]
    rw [katRequests, List.append_nil] at hs
    refine (katBody_last hJ hs).mono fun s' h' => ?_
    subst h'
    rw [cwhile, if_neg (by simp), runs_bind, runs_leak, runs_pure]
    simp [ok.ret]
  | cons seed seeds ih =>
    rw [List.length_cons] at hi hn
    obtain ⟨n, rfl⟩ : ∃ k, n = k + 1 := ⟨n - 1, by omega⟩
    rw [cwhile, if_pos (by rw [ok.ret, ok.done]; rfl), katResponses_cons]
    refine Runs.bindO (P := fun _ => True) trivial fun _ _ => ?_
    refine RunsO.bind (katBody_runsO hA (hK _) ok hJ (by omega) (hl seed (by simp)) hs) fun r s' h' => ?_
    obtain ⟨r, b⟩ := r
    obtain ⟨h1, h2⟩ := h'
    dsimp only at h1 h2 ⊢
    cases b with
    | false =>
      rw [if_neg (by decide)] at h2 ⊢
      obtain ⟨h2, h3⟩ := h2
      obtain ⟨n, rfl⟩ : ∃ k, n = k + 1 := ⟨n - 1, by omega⟩
      rw [runsO_some, cwhile, if_neg (by rw [h3]; simp), runs_bind, runs_leak, runs_pure]
      exact ⟨h1, h2, by rw [h3]; rfl⟩
    | true =>
      rw [if_pos rfl] at h2 ⊢
      obtain ⟨h2, h3, h4⟩ := h2
      have := ih (i := i + 1) (n := n) h3 (Or.inr rfl) (by omega) (fun x hx => hl x (by simp [hx])) h4 (by omega)
      revert this
      cases katResponses aes (fips p) (iters fuel) (i + 1) seeds with
      | none => exact fun h => h
      | some t =>
        intro h
        refine Runs.mono h fun s'' h'' => ?_
        obtain ⟨a, b, c⟩ := h''
        exact ⟨by rw [a, h1, List.append_assoc], by rw [b, h2], c⟩

theorem katSeeds_lengths (hA : IsCipher aes) : ∀ (n : Nat) (s : DrbgState), GoodState s n → (katSeeds aes n s).length = n ∧ ∀ x ∈ katSeeds aes n s, x.length = 48
  | 0, s, _ => ⟨rfl, fun x hx => by cases hx⟩
  | n + 1, s, h => by
    have ih := katSeeds_lengths hA n _ (good_generate hA (k := 48) h)
    rw [katSeeds]
    refine ⟨by rw [List.length_cons, ih.1], fun x hx => ?_⟩
    rcases List.mem_cons.1 hx with rfl | hx
    · exact generate_length hA h
    · exact ih.2 x hx

/-- The entropy input of the program: the bytes 0, 1, …, 47. -/
def katEntropy : List UInt8 := (List.range 48).map UInt8.ofNat

theorem katName_runs (p : ParamSet) (suffix : String) (h : suffix = ".req" ∨ suffix = ".rsp") : Runs (katName p suffix) (fun l => l = asciiBytes ("PQCkemKAT_" ++ toString (768 * (fips p).k + 96) ++ suffix)) := by
  rcases h with rfl | rfl <;> cases p <;> decide +kernel

theorem entropy_runs : Runs (cfor 0 48 (Mem.uninit UInt8 48) fun i m => wr m i (UInt8.ofNat i)) (fun m => m = Mem.ofList katEntropy) := by decide +kernel

theorem katEntropy_length : katEntropy.length = 48 := by decide

attribute [local irreducible] katEntropy

theorem katMain_runsO (hA : IsCipher aes) {p : ParamSet} {fuel : Nat} {K : Nat → KemApi} (hK : ∀ i, ApiSpec p fuel (K i)) {g : DRBG} (hg : g.Key.size = 32) (hg' : g.V.size = 16) {n : Nat} (hn : n < 2147483647) :
    RunsO (katMain p K aes (true, true, true) g n) (katResponses aes (fips p) (iters fuel) 0 (katSeeds aes n (katStart aes katEntropy)))
      (fun r v => v.req = katRequests 0 (katSeeds aes n (katStart aes katEntropy)) ∧ v.rsp = asciiBytes ("# " ++ CRYPTO_ALGNAME p ++ "\n\n") ++ r.1 ∧ v.out = r.2.1 ∧ v.ret = r.2.2) := by
  unfold katMain
  refine Runs.bindO (katName_runs p _ (Or.inl rfl)) fun fn hfn => ?_
  refine runsO_cif (fun h => absurd h (by decide)) (fun _ => ?_)
  refine Runs.bindO (katName_runs p _ (Or.inr rfl)) fun fn' hfn' => ?_
  refine runsO_cif (fun h => absurd h (by decide)) (fun _ => ?_)
  refine Runs.bindO (P := fun m => m = Mem.ofList katEntropy) (by with_reducible exact entropy_runs) fun e he => ?_
  subst he
  have hel := katEntropy_length
  refine Runs.bindO (katInit_runs hA hg hg' (Mem.holds_ofList katEntropy) hel) fun g1 hg1 => ?_
  subst hg1
  have hgood : GoodState (katStart aes katEntropy) n := by
    have := good_start hA hel
    exact ⟨this.1, this.2.1, by have := this.2.2; omega⟩
  refine Runs.bindO (katReq_runs hA hgood (by rw [Mem.size_uninit])) fun r hr => ?_
  obtain ⟨req, g2, seed⟩ := r
  obtain ⟨h1, h2, h3, h4⟩ := hr
  dsimp only at h1 h2 h3 h4 ⊢
  refine runsO_cif (fun h => absurd h (by decide)) (fun _ => ?_)
  obtain ⟨l1, l2⟩ := katSeeds_lengths hA n _ hgood
  refine RunsO.bindR (katLoop_runsO hA hK _ (i := 0) (J := []) ⟨h2, h3, h4, ?_, ?_, ?_, ?_, ?_, rfl, rfl⟩ (Or.inl rfl) (by omega) l2 h1 (by omega)) fun r s hs => ?_
  · rw [Mem.size_uninit]
  · rw [Mem.size_uninit]
  · rw [Mem.size_uninit]
  · rw [Mem.size_uninit]
  · rw [Mem.size_uninit]
  · rw [runs_pure]
    obtain ⟨a, b, c⟩ := hs
    refine ⟨h1, ?_, ?_, c⟩
    · dsimp only; rw [a, asciiBytes_append, asciiBytes_append]; rfl
    · dsimp only; rw [b]; rfl

theorem katMain_open_read (hA : IsCipher aes) {p : ParamSet} {K : Nat → KemApi} {g : DRBG} (hg : g.Key.size = 32) (hg' : g.V.size = 16) {n : Nat} (hn : n < 2147483647) :
    Runs (katMain p K aes (true, true, false) g n) (fun v => v = ⟨katRequests 0 (katSeeds aes n (katStart aes katEntropy)), [],
      asciiBytes ("Couldn't open <PQCkemKAT_" ++ toString (768 * (fips p).k + 96) ++ ".req> for read\n"), -1⟩) := by
  suffices ∀ o : Option Unit, o = some () → RunsO (katMain p K aes (true, true, false) g n) o (fun _ v => v = ⟨katRequests 0 (katSeeds aes n (katStart aes katEntropy)), [],
      asciiBytes ("Couldn't open <PQCkemKAT_" ++ toString (768 * (fips p).k + 96) ++ ".req> for read\n"), -1⟩) from this _ rfl
  intro o ho
  unfold katMain
  refine Runs.bindO (katName_runs p _ (Or.inl rfl)) fun fn hfn => ?_
  refine runsO_cif (fun h => absurd h (by decide)) (fun _ => ?_)
  refine Runs.bindO (katName_runs p _ (Or.inr rfl)) fun fn' hfn' => ?_
  refine runsO_cif (fun h => absurd h (by decide)) (fun _ => ?_)
  refine Runs.bindO (P := fun m => m = Mem.ofList katEntropy) (by with_reducible exact entropy_runs) fun e he => ?_
  subst he
  have hel := katEntropy_length
  refine Runs.bindO (katInit_runs hA hg hg' (Mem.holds_ofList katEntropy) hel) fun g1 hg1 => ?_
  subst hg1
  have hgood : GoodState (katStart aes katEntropy) n := by
    have := good_start hA hel
    exact ⟨this.1, this.2.1, by have := this.2.2; omega⟩
  refine Runs.bindO (katReq_runs hA hgood (by rw [Mem.size_uninit])) fun r hr => ?_
  obtain ⟨req, g2, seed⟩ := r
  dsimp only at hr ⊢
  refine runsO_cif (fun _ => ?_) (fun h => absurd h (by decide))
  rw [ho, runsO_some, runs_pure, hr.1, hfn]
  congr 1
  rw [show "Couldn't open <PQCkemKAT_" = "Couldn't open <" ++ "PQCkemKAT_" from rfl, show ".req> for read\n" = ".req" ++ "> for read\n" from rfl]
  simp only [asciiBytes_append, List.append_assoc]
  rfl

end Verif.Proof
