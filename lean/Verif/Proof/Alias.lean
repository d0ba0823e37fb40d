import Verif.Proof.Kem
import Verif.Model.Alias

/-! # The KEM calls with all arguments in one memory -/

namespace Verif.Proof
open Verif.Model Verif.Spec

/-! ## Pointers into a memory -/

theorem tail_size (X : Mem UInt8) (o : Nat) : (tail X o).size = X.size - o := by
  unfold tail; simp

theorem tail_get (X : Mem UInt8) (o i : Nat) : (tail X o)[i]? = X[o + i]? := by
  unfold tail
  rw [Array.getElem?_extract]
  split
  · rfl
  · rw [Array.getElem?_eq_none (by omega)]

theorem tail_holds {X : Mem UInt8} {o : Nat} {l : List UInt8} (h : X.Holds o l) : (tail X o).Holds 0 l := fun i hi => by
  rw [tail_get, Nat.zero_add]; exact h i hi

theorem tail_wrote {X r : Mem UInt8} {o : Nat} {l : List UInt8} (ho : o ≤ X.size) (h : (tail X o).Wrote r 0 l) : X.Wrote (X.extract 0 o ++ r) o l := by
  have hsz : (X.extract 0 o).size = o := by simp; omega
  have hr : ∀ i, (X.extract 0 o ++ r)[o + i]? = r[i]? := fun i => by
    rw [Array.getElem?_append_right (by omega), hsz, Nat.add_sub_cancel_left]
  refine ⟨?_, fun i hi => ?_, fun j hj => ?_⟩
  · rw [Array.size_append, hsz, h.size, tail_size]; omega
  · rw [hr]; have := h.holds i hi; rwa [Nat.zero_add] at this
  · by_cases hjo : j < o
    · rw [Array.getElem?_append_left (by omega), Array.getElem?_extract, if_pos (by omega), Nat.zero_add]
    · obtain ⟨i, rfl⟩ : ∃ i, j = o + i := ⟨j - o, by omega⟩
      rw [hr, h.frame i (by omega), tail_get]

theorem onTail_runs {X : Mem UInt8} {o n : Nat} {l : List UInt8} {f : Mem UInt8 → C (Mem UInt8)} (ho : o + n ≤ X.size)
    (hf : ∀ r : Mem UInt8, n ≤ r.size → Runs (f r) fun r' => r.Wrote r' 0 l) : Runs (onTail X o f) fun X' => X.Wrote X' o l := by
  unfold onTail
  rw [runs_bind]
  exact (hf _ (by rw [tail_size]; omega)).mono fun r hr => tail_wrote (by omega) hr

/-- A copy between regions that do not overlap. -/
theorem memcpyIn_runs {X : Mem UInt8} {d s n : Nat} {l : List UInt8} (hs : X.Holds s l) (hn : l.length = n) (hd : d + n ≤ X.size) (ho : d + n ≤ s ∨ s + n ≤ d) :
    Runs (memcpyIn X d s n) fun X' => X.Wrote X' d l := by
  unfold memcpyIn
  rw [if_neg (by omega)]
  exact runs_memcpy_str hs hn hd

theorem memcpyIn_ub {X : Mem UInt8} {d s n : Nat} (h1 : d < s + n) (h2 : s < d + n) : memcpyIn X d s n = .ub .alias := by
  unfold memcpyIn
  rw [if_pos ⟨h1, h2⟩]

/-- All cells of a region are initialised. -/
def Init (X : Mem UInt8) (o n : Nat) : Prop := ∀ i, i < n → ∃ b, X[o + i]? = some (some b)

theorem Mem.Holds.init {X : Mem UInt8} {o : Nat} {l : List UInt8} (h : X.Holds o l) : Init X o l.length := fun i hi => ⟨_, h i hi⟩

theorem Mem.Wrote.init {X X' : Mem UInt8} {o o' n : Nat} {l : List UInt8} (h : X.Wrote X' o l) (hi : Init X o' n) : Init X' o' n := fun i hin => by
  by_cases hj : o' + i < o ∨ o + l.length ≤ o' + i
  · rw [h.frame _ hj]; exact hi i hin
  · have := h.holds (o' + i - o) (by omega)
    rw [show o + (o' + i - o) = o' + i from by omega] at this
    exact ⟨_, this⟩

theorem Init.holds {X : Mem UInt8} {o n : Nat} (h : Init X o n) : ∃ l : List UInt8, l.length = n ∧ X.Holds o l := by
  refine ⟨List.ofFn fun i : Fin n => (h i.val i.isLt).choose, by simp, fun i hi => ?_⟩
  have hi' : i < n := by simpa using hi
  rw [List.getElem_ofFn]
  exact (h i hi').choose_spec

/-! ## What the calls need of the functions that differ between the builds -/

structure PkeSpec (P : Pke) (p : ParamSet) (fuel : Nat) : Prop where
  keypair : ∀ {coins : Mem UInt8} {d : List UInt8}, coins.Holds 0 d → d.length = 32 →
    RunsO (P.keypair coins) (K_PKE_KeyGen (fips p) (iters fuel) d) fun o s =>
      (∀ r : Mem UInt8, KYBER_INDCPA_SECRETKEYBYTES p ≤ r.size → Runs (P.pack_sk r s.1) fun r' => r.Wrote r' 0 o.2) ∧
      ∀ r : Mem UInt8, KYBER_INDCPA_PUBLICKEYBYTES p ≤ r.size → Runs (P.pack_pk r s.2.1 s.2.2) fun r' => r.Wrote r' 0 o.1
  enc : ∀ {m : Mem UInt8} {mo : Nat} {pk : Mem UInt8} {po : Nat} {coins : Mem UInt8} {co : Nat} {ek M r : List UInt8},
    m.Holds mo M → M.length = 32 → pk.Holds po ek → ek.length = KYBER_INDCPA_PUBLICKEYBYTES p → coins.Holds co r → r.length = 32 →
    RunsO (P.enc m mo pk po coins co) (K_PKE_Encrypt (fips p) (iters fuel) ek M r) fun o s =>
      ∀ c : Mem UInt8, KYBER_INDCPA_BYTES p ≤ c.size → Runs (P.pack_ciphertext c s.1 s.2) fun c' => c.Wrote c' 0 o
  dec : ∀ {m : Mem UInt8} {mo : Nat} {c sk : Mem UInt8} {ct dk : List UInt8}, c.Holds 0 ct → ct.length = KYBER_INDCPA_BYTES p →
    sk.Holds 0 dk → dk.length = KYBER_INDCPA_SECRETKEYBYTES p → mo + 32 ≤ m.size → Runs (P.dec m mo c sk) fun s => m.Wrote s mo (K_PKE_Decrypt (fips p) dk ct)
  verify : ∀ {a b : Mem UInt8} {ao bo n : Nat} {f g : Nat → UInt8}, a.Has ao n f → b.Has bo n g →
    Runs (P.verify a ao b bo n) fun r => (r = 0 ∨ r = 1) ∧ (r = 0 ↔ ∀ i, i < n → f i = g i)
  cmov : ∀ {r x : Mem UInt8} {ro xo n : Nat} {f g : Nat → UInt8}, r.Has ro n f → x.Has xo n g → ∀ b : Bool,
    Runs (P.cmov r ro x xo n (if b then 1 else 0)) fun r' => r.Upd r' ro n fun i => if b then g i else f i

variable {P : Pke} {p : ParamSet} {fuel : Nat}

/-! ## Encapsulation -/

theorem kem_enc_in_runsO (S : PkeSpec P p fuel) {X : Mem UInt8} {ct ss pk coins : Nat} {ek m : List UInt8} (hm : X.Holds coins m) (hml : m.length = 32)
    (hek : X.Holds pk ek) (hekl : ek.length = KYBER_PUBLICKEYBYTES p) (hct : ct + KYBER_CIPHERTEXTBYTES p ≤ X.size) (hss : ss + KYBER_SSBYTES ≤ X.size) :
    RunsO (kem_enc_in P p X ct ss pk coins) (Encaps_internal (fips p) (iters fuel) ek m)
      (fun o s => (∃ X1, X.Wrote X1 ct o.2 ∧ X1.Wrote s.1 ss o.1) ∧ s.2 = 0) := by
  unfold kem_enc_in
  dsimp only
  rw [show KYBER_SYMBYTES = 32 from rfl]
  refine Runs.bindO (runs_memcpy_str (dst := Mem.uninit UInt8 (2 * 32)) hm hml (by rw [Mem.size_uninit]; omega)) fun b1 hb1 => ?_
  refine Runs.bindO (sha3_256_runs (h := b1) (ho := 32) hek hekl (by rw [hb1.size, Mem.size_uninit])) fun b2 hb2 => ?_
  have h2 : (Mem.uninit UInt8 (2 * 32)).Wrote b2 0 (m ++ H ek) := hb1.append (by rw [hml, Nat.zero_add]; exact hb2)
  refine Runs.bindO (hash_g_runs (h := Mem.uninit UInt8 (2 * 32)) (ho := 0) h2.holds (by
    rw [List.length_append, hml, show (H ek).length = 32 from SHA3_256_length ek]) (by rw [Mem.size_uninit])) fun kr hkr => ?_
  obtain ⟨_, hK, hr⟩ := hkr
  unfold Encaps_internal
  have hKl := G_fst_length (m ++ H ek)
  have hrl := G_snd_length (m ++ H ek)
  generalize G (m ++ H ek) = g at *
  obtain ⟨K, r⟩ := g
  dsimp only at hK hr hKl hrl ⊢
  rw [Nat.zero_add] at hr
  have hm2 : b2.Holds 0 m := (Mem.Holds.append.1 h2.holds).1
  refine RunsO.bind (S.enc hm2 hml hek hekl hr hrl) fun c s hs => ?_
  obtain ⟨b, v⟩ := s
  dsimp only at hs ⊢
  show Runs _ _
  rw [runs_bind]
  refine (onTail_runs hct hs).mono fun X1 hX1 => ?_
  rw [runs_bind]
  refine (runs_memcpy_str hK hKl (by rw [hX1.size]; exact hss)).mono fun X2 hX2 => ?_
  exact ⟨⟨X1, hX1, hX2⟩, rfl⟩

/-! ## Decapsulation -/

theorem kem_dec_in_runsO (S : PkeSpec P p fuel) {X : Mem UInt8} {ss ct sk : Nat} {c dk : List UInt8} (hc : X.Holds ct c) (hcl : c.length = KYBER_CIPHERTEXTBYTES p)
    (hdk : X.Holds sk dk) (hdkl : dk.length = KYBER_SECRETKEYBYTES p) (hss : ss + KYBER_SSBYTES ≤ X.size) :
    RunsO (kem_dec_in P p X ss ct sk) (Decaps_internal (fips p) (iters fuel) dk c) (fun o s => X.Wrote s.1 ss o ∧ s.2 = 0) := by
  have e1 := pk_size p
  have e2 := isk_size p
  have e3 := sk_size p
  have e4 := ct_size' p
  have hss' : ss + 32 ≤ X.size := hss
  unfold kem_dec_in
  dsimp only
  rw [show KYBER_SYMBYTES = 32 from rfl, e2, e3]
  rw [e3] at hdkl
  have hdkPKE := Mem.Holds.bytes (tail_holds hdk) 0 (384 * (fips p).k) (by omega) (by omega)
  have hek := Mem.Holds.bytes hdk (384 * (fips p).k) (768 * (fips p).k + 32) (by omega) (by omega)
  have hh := Mem.Holds.bytes hdk (768 * (fips p).k + 32) (768 * (fips p).k + 64) (by omega) (by omega)
  have hz := Mem.Holds.bytes hdk (768 * (fips p).k + 64) (768 * (fips p).k + 96) (by omega) (by omega)
  have ldk := bytes_length (B := dk) (a := 0) (b := 384 * (fips p).k) (by omega) (by omega)
  have lek := bytes_length (B := dk) (a := 384 * (fips p).k) (b := 768 * (fips p).k + 32) (by omega) (by omega)
  have lh := bytes_length (B := dk) (a := 768 * (fips p).k + 32) (b := 768 * (fips p).k + 64) (by omega) (by omega)
  have lz := bytes_length (B := dk) (a := 768 * (fips p).k + 64) (b := 768 * (fips p).k + 96) (by omega) (by omega)
  unfold Decaps_internal
  dsimp only
  generalize bytes dk 0 (384 * (fips p).k) = dkPKE at *
  generalize bytes dk (384 * (fips p).k) (768 * (fips p).k + 32) = ek at *
  generalize bytes dk (768 * (fips p).k + 32) (768 * (fips p).k + 64) = h at *
  generalize bytes dk (768 * (fips p).k + 64) (768 * (fips p).k + 96) = z at *
  rw [Nat.zero_add] at hdkPKE
  refine Runs.bindO (S.dec (m := Mem.uninit UInt8 (2 * 32)) (mo := 0) (tail_holds hc) hcl hdkPKE (by omega) (by rw [Mem.size_uninit]; omega)) fun b1 hb1 => ?_
  have hml := decrypt_length (fips p) dkPKE c
  generalize K_PKE_Decrypt (fips p) dkPKE c = m at *
  rw [show 768 * (fips p).k + 96 - 2 * 32 = 768 * (fips p).k + 32 from by omega, show 768 * (fips p).k + 96 - 32 = 768 * (fips p).k + 64 from by omega]
  refine Runs.bindO (runs_memcpy_str (dst := b1) hh (by omega) (by rw [hb1.size, Mem.size_uninit])) fun b2 hb2 => ?_
  have h2 : (Mem.uninit UInt8 (2 * 32)).Wrote b2 0 (m ++ h) := hb1.append (by rw [hml, Nat.zero_add]; exact hb2)
  refine Runs.bindO (hash_g_runs (h := Mem.uninit UInt8 (2 * 32)) (ho := 0) h2.holds (by
    rw [List.length_append, hml, lh]; omega) (by rw [Mem.size_uninit])) fun kr hkr => ?_
  obtain ⟨_, hK, hr⟩ := hkr
  have hKl := G_fst_length (m ++ h)
  have hrl := G_snd_length (m ++ h)
  generalize G (m ++ h) = g at *
  obtain ⟨K, r⟩ := g
  dsimp only at hK hr hKl hrl ⊢
  rw [Nat.zero_add] at hr
  have hm2 : b2.Holds 0 m := (Mem.Holds.append.1 h2.holds).1
  refine RunsO.bind (RunsO.with (S.enc hm2 hml hek (by omega) hr hrl)) fun c' s hs => ?_
  obtain ⟨b, v⟩ := s
  obtain ⟨hc', hcmp⟩ := hs
  have lc' := encrypt_length hc'
  dsimp only at hcmp ⊢
  show Runs _ _
  rw [runs_bind]
  refine (hcmp (Mem.uninit UInt8 (KYBER_CIPHERTEXTBYTES p)) (by rw [Mem.size_uninit]; exact Nat.le_refl _)).mono fun cmp hcmp => ?_
  rw [runs_bind]
  have v1 := hc.has 0
  have v2 := hcmp.holds.has 0
  rw [hcl] at v1
  rw [lc', ← e4] at v2
  refine (S.verify v1 v2).mono fun fail hfail => ?_
  have hfail : fail = 0 ↔ c = c' := by
    rw [hfail.2]
    constructor
    · intro hh
      apply List.ext_getElem (by omega)
      intro i h1 h2
      have := hh i (by omega)
      simpa [List.getD_eq_getElem?_getD, h1, h2] using this
    · rintro rfl i _; rfl
  rw [runs_bind]
  refine (rkprf_runs hz (by omega) hc hcl (by omega)).mono fun ss1 hss1 => ?_
  rw [runs_bind]
  have hb : (if fail = 0 then (1 : UInt8) else 0) = if decide (fail = 0) then 1 else 0 := by simp
  rw [hb]
  have w1 := hss1.holds.has 0
  have w2 := hK.has 0
  rw [SHAKE256_length] at w1
  rw [hKl] at w2
  refine (S.cmov w1 w2 (decide (fail = 0))).mono fun ss2 hss2 => ?_
  refine ⟨?_, rfl⟩
  have hJ : (J (z ++ c)).length = 32 := SHAKE256_length _ _
  have hw : ss1.Wrote ss2 ss (if c = c' then K else J (z ++ c)) := by
    refine hss2.wrote_of (by split <;> assumption) fun i hi => ?_
    by_cases hf : fail = 0
    · have hcc := hfail.1 hf
      simp only [hf, hcc, decide_true, if_true]
      rw [if_pos hcc] at hi
      rw [List.getD_eq_getElem?_getD, List.getElem?_eq_getElem hi]; rfl
    · have hcc : ¬ c = c' := fun h => hf (hfail.2 h)
      simp only [hf, hcc, decide_false, if_false]
      rw [if_neg hcc] at hi
      rw [if_neg (by simp), List.getD_eq_getElem?_getD]
      show (J (z ++ c))[i]?.getD 0 = _
      rw [List.getElem?_eq_getElem hi]; rfl
  refine ⟨by rw [hw.size, hss1.size], hw.holds, fun i hi => ?_⟩
  have hl : (if c = c' then K else J (z ++ c)).length = 32 := by split <;> assumption
  rw [hl] at hi
  rw [hw.frame i (by rw [hl]; exact hi), hss1.frame i (by rw [SHAKE256_length]; exact hi)]

/-! ## Key generation -/

/-- The writes of key generation up to the copy of the public key. -/
theorem kem_keypair_in_front (S : PkeSpec P p fuel) {X : Mem UInt8} {pk sk coins : Nat} {d : List UInt8} (hd : X.Holds coins d) (hdl : d.length = 32)
    (hpk : pk + KYBER_PUBLICKEYBYTES p ≤ X.size) (hsk : sk + KYBER_SECRETKEYBYTES p ≤ X.size) :
    RunsO (do let s ← P.keypair (tail X coins)
              let X ← onTail X sk fun r => P.pack_sk r s.1
              onTail X pk fun r => P.pack_pk r s.2.1 s.2.2)
      (K_PKE_KeyGen (fips p) (iters fuel) d) fun o X2 => ∃ X1, X.Wrote X1 sk o.2 ∧ X1.Wrote X2 pk o.1 := by
  have e1 := pk_size p
  have e1' := pk_size' p
  have e2 := isk_size p
  have e3 := sk_size p
  have := S.keypair (tail_holds hd) hdl
  cases ho : K_PKE_KeyGen (fips p) (iters fuel) d with
  | none =>
    rw [ho] at this
    show _ = C.diverge
    rw [show P.keypair (tail X coins) = .diverge from this]
    rfl
  | some o =>
    rw [ho] at this
    show Runs _ _
    rw [runs_bind]
    refine Runs.mono this fun s hs => ?_
    rw [runs_bind]
    refine (onTail_runs (n := KYBER_INDCPA_SECRETKEYBYTES p) (by omega) hs.1).mono fun X1 h1 => ?_
    refine (onTail_runs (n := KYBER_INDCPA_PUBLICKEYBYTES p) (by rw [h1.size]; omega) hs.2).mono fun X2 h2 => ?_
    exact ⟨X1, h1, h2⟩

theorem kem_keypair_in_eq (P : Pke) (p : ParamSet) (X : Mem UInt8) (pk sk coins : Nat) : kem_keypair_in P p X pk sk coins = (do
    let X ← (do let s ← P.keypair (tail X coins)
                let X ← onTail X sk fun r => P.pack_sk r s.1
                onTail X pk fun r => P.pack_pk r s.2.1 s.2.2)
    let X ← memcpyIn X (sk + KYBER_INDCPA_SECRETKEYBYTES p) pk (KYBER_PUBLICKEYBYTES p)
    let X ← hash_h X (sk + (KYBER_SECRETKEYBYTES p - 2 * KYBER_SYMBYTES)) X pk (KYBER_PUBLICKEYBYTES p)
    let X ← memcpyIn X (sk + (KYBER_SECRETKEYBYTES p - KYBER_SYMBYTES)) (coins + KYBER_SYMBYTES) KYBER_SYMBYTES
    pure (X, 0)) := by
  unfold kem_keypair_in
  simp only [bind_assoc]

theorem ub_of_runs {α β : Type} {m : C α} {f : α → C β} {Q : α → Prop} {u : UB} (h : Runs m Q) (hf : ∀ v, Q v → f v = .ub u) : (m >>= f) = .ub u := by
  obtain ⟨v, t, rfl, hv⟩ := h.exists_ok
  show C.bind _ _ = _
  simp [C.bind, hf v hv]

/-- All writes of key generation, if no `memcpy` overlaps. -/
theorem kem_keypair_in_runsO (S : PkeSpec P p fuel) {X : Mem UInt8} {pk sk coins : Nat} {d : List UInt8} (hd : X.Holds coins d) (hdl : d.length = 32)
    (hz : Init X (coins + 32) 32) (hpk : pk + KYBER_PUBLICKEYBYTES p ≤ X.size) (hsk : sk + KYBER_SECRETKEYBYTES p ≤ X.size)
    (hd1 : pk + KYBER_PUBLICKEYBYTES p ≤ sk + KYBER_INDCPA_SECRETKEYBYTES p ∨ sk + KYBER_INDCPA_SECRETKEYBYTES p + KYBER_PUBLICKEYBYTES p ≤ pk)
    (hd2 : coins + 64 ≤ sk + KYBER_SECRETKEYBYTES p - 32 ∨ sk + KYBER_SECRETKEYBYTES p ≤ coins + 32) :
    RunsO (kem_keypair_in P p X pk sk coins) (K_PKE_KeyGen (fips p) (iters fuel) d) fun o s => s.2 = 0 ∧ ∃ X1 X2 X3 z,
      X.Wrote X1 sk o.2 ∧ X1.Wrote X2 pk o.1 ∧ X2.Wrote X3 (sk + KYBER_INDCPA_SECRETKEYBYTES p) (o.1 ++ H o.1) ∧
      z.length = 32 ∧ X3.Holds (coins + 32) z ∧ X3.Wrote s.1 (sk + KYBER_SECRETKEYBYTES p - 32) z := by
  have e1 := pk_size p
  have e1' := pk_size' p
  have e2 := isk_size p
  have e3 := sk_size p
  rw [kem_keypair_in_eq]
  have := RunsO.with (kem_keypair_in_front S hd hdl hpk hsk)
  cases ho : K_PKE_KeyGen (fips p) (iters fuel) d with
  | none =>
    rw [ho] at this
    show _ = C.diverge
    rw [show (do let s ← P.keypair (tail X coins)
                 let X ← onTail X sk fun r => P.pack_sk r s.1
                 onTail X pk fun r => P.pack_pk r s.2.1 s.2.2) = C.diverge from this]
    rfl
  | some o =>
    rw [ho] at this
    obtain ⟨ek, dk⟩ := o
    obtain ⟨l1, l2⟩ := keygen_length ho
    dsimp only at l1 l2
    show Runs _ _
    rw [runs_bind]
    refine Runs.mono this fun X2 h2 => ?_
    obtain ⟨_, X1, h1, h2⟩ := h2
    dsimp only at h1 h2
    have s2 : X2.size = X.size := h2.size.trans h1.size
    rw [runs_bind, e2, e1', e3, show KYBER_SYMBYTES = 32 from rfl]
    rw [e2, e1'] at hd1
    rw [e3] at hd2
    refine (memcpyIn_runs h2.holds l1 (by omega) (by omega)).mono fun X3 h3 => ?_
    rw [runs_bind]
    have hp3 : X3.Holds pk ek := h3.holds_frame h2.holds (by omega)
    refine (sha3_256_runs hp3 l1 (by rw [h3.size]; omega)).mono fun X4 h4 => ?_
    have h4' : X2.Wrote X4 (sk + 384 * (fips p).k) (ek ++ H ek) := h3.append (by
      rw [l1, show sk + 384 * (fips p).k + (384 * (fips p).k + 32) = sk + (768 * (fips p).k + 96 - 2 * 32) from by omega]
      exact h4)
    obtain ⟨z, hzl, hz4⟩ := (Mem.Wrote.init h4' (Mem.Wrote.init h2 (Mem.Wrote.init h1 hz))).holds
    rw [runs_bind]
    refine (memcpyIn_runs hz4 hzl (by rw [h4'.size]; omega) (by omega)).mono fun X5 h5 => ?_
    rw [runs_pure]
    rw [show sk + (768 * (fips p).k + 96 - 32) = sk + (768 * (fips p).k + 96) - 32 from by omega] at h5
    exact ⟨rfl, X1, X2, X4, z, h1, h2, h4', hzl, hz4, h5⟩

/-- The public key over the place of its copy. -/
theorem kem_keypair_in_ub1 (S : PkeSpec P p fuel) {X : Mem UInt8} {pk sk coins : Nat} {d : List UInt8} (hd : X.Holds coins d) (hdl : d.length = 32)
    (hpk : pk + KYBER_PUBLICKEYBYTES p ≤ X.size) (hsk : sk + KYBER_SECRETKEYBYTES p ≤ X.size)
    (h1 : sk + KYBER_INDCPA_SECRETKEYBYTES p < pk + KYBER_PUBLICKEYBYTES p) (h2 : pk < sk + KYBER_INDCPA_SECRETKEYBYTES p + KYBER_PUBLICKEYBYTES p)
    (ho : K_PKE_KeyGen (fips p) (iters fuel) d ≠ none) : kem_keypair_in P p X pk sk coins = .ub .alias := by
  rw [kem_keypair_in_eq]
  have := kem_keypair_in_front S hd hdl hpk hsk
  cases hk : K_PKE_KeyGen (fips p) (iters fuel) d with
  | none => exact absurd hk ho
  | some o =>
    rw [hk] at this
    refine ub_of_runs (show Runs _ _ from this) fun X2 _ => ?_
    rw [memcpyIn_ub (by omega) (by omega)]
    rfl

/-- The second half of the coins over the place of its copy. -/
theorem kem_keypair_in_ub2 (S : PkeSpec P p fuel) {X : Mem UInt8} {pk sk coins : Nat} {d : List UInt8} (hd : X.Holds coins d) (hdl : d.length = 32)
    (hpk : pk + KYBER_PUBLICKEYBYTES p ≤ X.size) (hsk : sk + KYBER_SECRETKEYBYTES p ≤ X.size)
    (h1 : sk + KYBER_SECRETKEYBYTES p - 32 < coins + 64) (h2 : coins + 32 < sk + KYBER_SECRETKEYBYTES p)
    (ho : K_PKE_KeyGen (fips p) (iters fuel) d ≠ none) : kem_keypair_in P p X pk sk coins = .ub .alias := by
  have e1 := pk_size p
  have e1' := pk_size' p
  have e2 := isk_size p
  have e3 := sk_size p
  rw [kem_keypair_in_eq]
  have := RunsO.with (kem_keypair_in_front S hd hdl hpk hsk)
  cases hk : K_PKE_KeyGen (fips p) (iters fuel) d with
  | none => exact absurd hk ho
  | some o =>
    rw [hk] at this
    obtain ⟨l1, l2⟩ := keygen_length hk
    refine ub_of_runs (show Runs _ _ from this) fun X2 hX2 => ?_
    obtain ⟨_, X1, w1, w2⟩ := hX2
    have s2 : X2.size = X.size := w2.size.trans w1.size
    by_cases hov : sk + KYBER_INDCPA_SECRETKEYBYTES p < pk + KYBER_PUBLICKEYBYTES p ∧ pk < sk + KYBER_INDCPA_SECRETKEYBYTES p + KYBER_PUBLICKEYBYTES p
    · rw [memcpyIn_ub hov.1 hov.2]
      rfl
    · rw [e2, e1', e3, show KYBER_SYMBYTES = 32 from rfl]
      rw [e2, e1'] at hov
      rw [e3] at h1 h2
      refine ub_of_runs (memcpyIn_runs w2.holds l1 (by omega) (by omega)) fun X3 h3 => ?_
      have hp3 : X3.Holds pk o.1 := h3.holds_frame w2.holds (by omega)
      refine ub_of_runs (sha3_256_runs hp3 l1 (by rw [h3.size]; omega)) fun X4 h4 => ?_
      rw [memcpyIn_ub (by omega) (by omega)]
      rfl

end Verif.Proof
