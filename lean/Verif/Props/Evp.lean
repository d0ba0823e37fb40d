import Verif.Model.Evp
import Verif.Props.Drbg

/-! # C61, C62: the generators when calls of OpenSSL fail

C61 and C62 take AES-256 as a function. Here the calls of OpenSSL are made one by one and each may fail: then the program ends, and otherwise the results are those of C61 and C62. No result is ever used that a failed
call left behind. -/

set_option autoImplicit false

namespace Verif.Props
open Verif.Model Verif.Spec Verif.Proof

section
variable {σ Ctx α β τ : Type}

/-- What is assumed of OpenSSL: after an initialisation that returns 1 the context has the key, and an encryption that returns 1 gives the block under this key; `live` is the number of contexts. -/
structure OpenSSL (L : Evp σ Ctx) (aes : Cipher) (keyed : σ → Ctx → List UInt8 → Prop) (live : σ → Nat) : Prop where
  init : ∀ ctx k s, (L.init ctx k s).1 = 1 → keyed (L.init ctx k s).2 ctx k
  update : ∀ ctx k c s, keyed s ctx k → (L.update ctx c s).1.1 = 1 → (L.update ctx c s).1.2 = aes k c
  live_new : ∀ s, (L.new s).1.isSome → live (L.new s).2 = live s + 1
  live_init : ∀ ctx k s, live (L.init ctx k s).2 = live s
  live_update : ∀ ctx c s, live (L.update ctx c s).2 = live s
  live_free : ∀ ctx s, live (L.free ctx s) = live s - 1

/-- No call fails. -/
def NoFailure (L : Evp σ Ctx) : Prop := ∀ s, (L.new s).1.isSome ∧ ∀ ctx k, (L.init ctx k s).1 = 1 ∧ (L.update ctx k s).1.1 = 1

/-- Run from the state `s`, the code with OpenSSL ends the program, and this only if a call can fail, or it does the same as the code with a function for AES and leaves a state with `Q`. -/
def SimAt (L : Evp σ Ctx) (s : σ) (m : Ab σ α) (c : C α) (Q : σ → Prop) : Prop :=
  match m s with
    | .ok (some v, s') _ => Q s' ∧ ∃ t, c = .ok v t
    | .ok (none, _) _ => ¬ NoFailure L
    | .ub u => c = .ub u
    | .diverge => c = .diverge

/-- In every state, and no context is left behind. -/
def Sim (L : Evp σ Ctx) (live : σ → Nat) (m : Ab σ α) (c : C α) : Prop := ∀ s, SimAt L s m c fun s' => live s' = live s

variable {L : Evp σ Ctx} {live : σ → Nat}

theorem simAt_pure {s : σ} {Q : σ → Prop} (v : α) (h : Q s) : SimAt L s (pure v : Ab σ α) (pure v) Q := ⟨h, [], rfl⟩

theorem simAt_lift {s : σ} {Q : σ → Prop} (m : C α) (h : Q s) : SimAt L s (Ab.lift m) m Q := by
  unfold SimAt Ab.lift
  cases m with
  | ok v t => exact ⟨h, t, rfl⟩
  | ub u => rfl
  | diverge => rfl

theorem simAt_bind {s : σ} {R Q : σ → Prop} {m : Ab σ α} {c : C α} {f : α → Ab σ β} {g : α → C β} (h : SimAt L s m c R) (hf : ∀ v s', R s' → SimAt L s' (f v) (g v) Q) :
    SimAt L s (m >>= f) (c >>= g) Q := by
  unfold SimAt at h
  show match C.bind (m s) _ with
    | .ok (some v, s') _ => Q s' ∧ ∃ t, C.bind c g = .ok v t
    | .ok (none, _) _ => ¬ NoFailure L
    | .ub u => C.bind c g = .ub u
    | .diverge => C.bind c g = .diverge
  cases hm : m s with
  | ub u =>
    rw [hm] at h
    rw [show c = .ub u from h]
    rfl
  | diverge =>
    rw [hm] at h
    rw [show c = .diverge from h]
    rfl
  | ok r t =>
    rw [hm] at h
    obtain ⟨_ | v, s'⟩ := r
    · exact h
    · obtain ⟨hl, t', hc⟩ := h
      subst hc
      have h2 := hf v s' hl
      unfold SimAt at h2
      unfold C.bind
      dsimp only
      cases hfv : f v s' with
      | ub u =>
        rw [hfv] at h2
        rw [show g v = .ub u from h2]
      | diverge =>
        rw [hfv] at h2
        rw [show g v = .diverge from h2]
      | ok r t'' =>
        rw [hfv] at h2
        obtain ⟨_ | w, s''⟩ := r
        · exact h2
        · obtain ⟨h3, t3, h4⟩ := h2
          rw [h4]
          exact ⟨h3, _, rfl⟩

theorem simAt_call {s : σ} {Q : σ → Prop} {f : σ → α × σ} {k : α → Ab σ β} {c : C β} (h : SimAt L (f s).2 (k (f s).1) c Q) : SimAt L s (Ab.call f >>= k) c Q := by
  have e : (Ab.call f >>= k) s = k (f s).1 (f s).2 := by
    show C.bind (C.ok (some (f s).1, (f s).2) []) _ = _
    unfold C.bind
    dsimp only
    cases k (f s).1 (f s).2 <;> rfl
  unfold SimAt at h ⊢
  rw [e]
  exact h

theorem simAt_abort {s : σ} {Q : σ → Prop} {c : C α} (h : ¬ NoFailure L) : SimAt L s (handleErrors : Ab σ α) c Q := h

theorem sim_pure (v : α) : Sim L live (pure v : Ab σ α) (pure v) := fun _ => simAt_pure v rfl

theorem sim_lift (m : C α) : Sim L live (Ab.lift m) m := fun _ => simAt_lift m rfl

theorem sim_bind {m : Ab σ α} {c : C α} {f : α → Ab σ β} {g : α → C β} (h : Sim L live m c) (hf : ∀ v, Sim L live (f v) (g v)) : Sim L live (m >>= f) (c >>= g) :=
  fun s => simAt_bind (h s) fun v s' hs => by
    have := hf v s'
    rwa [hs] at this

theorem sim_for {body : Nat → τ → Ab σ τ} {cbody : Nat → τ → C τ} (h : ∀ i x, Sim L live (body i x) (cbody i x)) (lo hi : Nat) (x : τ) : Sim L live (afor lo hi x body) (cfor lo hi x cbody) := by
  unfold afor cfor
  generalize hi - lo = n
  induction n generalizing lo x with
  | zero => exact sim_bind (sim_lift _) fun _ => sim_pure x
  | succ n ih => exact sim_bind (sim_lift _) fun _ => sim_bind (h lo x) fun y => ih (lo + 1) y

theorem sim_while {cond : τ → Bool} {body : τ → Ab σ τ} {cbody : τ → C τ} (h : ∀ x, Sim L live (body x) (cbody x)) (fuel : Nat) (x : τ) :
    Sim L live (awhile fuel cond body x) (cwhile fuel cond cbody x) := by
  induction fuel generalizing x with
  | zero => exact fun _ => rfl
  | succ n ih =>
    unfold awhile cwhile
    cases cond x
    · exact sim_bind (sim_lift _) fun _ => sim_pure x
    · exact sim_bind (sim_lift _) fun _ => sim_bind (h x) fun y => ih y

theorem sim_if (b : Bool) {m n : Ab σ α} {c d : C α} (h1 : Sim L live m c) (h2 : Sim L live n d) : Sim L live (aif b m n) (cif b c d) := by
  unfold aif cif
  refine sim_bind (sim_lift _) fun _ => ?_
  cases b
  · exact h2
  · exact h1

variable {aes : Cipher} {keyed : σ → Ctx → List UInt8 → Prop}

theorem sim_ecb (H : OpenSSL L aes keyed live) (key ctr buffer : Mem UInt8) (bo : Nat) : Sim L live (evpECB L key ctr buffer bo) (AES256_ECB aes key ctr buffer bo) := fun s => by
  unfold evpECB AES256_ECB
  refine simAt_call ?_
  have hn := H.live_new s
  have hf : NoFailure L → (L.new s).1.isSome := fun h => (h s).1
  cases h0 : (L.new s).1 with
  | none =>
    rw [h0] at hf
    exact simAt_abort fun h => by cases hf h
  | some ctx =>
    rw [h0] at hn
    have hn := hn rfl
    refine simAt_bind (R := fun s' => s' = (L.new s).2) (simAt_lift _ rfl) fun k s1 h1 => simAt_call ?_
    subst h1
    have hk := H.init ctx k (L.new s).2
    have hl := H.live_init ctx k (L.new s).2
    by_cases hr : (L.init ctx k (L.new s).2).1 = 1
    · rw [if_neg (not_not.2 hr)]
      generalize (L.init ctx k (L.new s).2).2 = s2 at hk hl
      refine simAt_bind (R := fun s' => s' = s2) (simAt_lift _ rfl) fun c s3 h3 => simAt_call ?_
      subst h3
      have hu := H.update ctx k c s3 (hk hr)
      have hm := H.live_update ctx c s3
      by_cases hq : (L.update ctx c s3).1.1 = 1
      · have ho := hu hq
        dsimp only
        rw [if_neg (not_not.2 hq), ho]
        generalize (L.update ctx c s3).2 = s4 at hm
        generalize cfor 0 16 buffer _ = w
        have e : SimAt L s4 (Ab.lift w >>= fun b => Ab.call (fun s => ((), L.free ctx s)) >>= fun _ => pure b) (w >>= pure) fun s' => live s' = live s := ?_
        · rwa [bind_pure] at e
        refine simAt_bind (R := fun s' => s' = s4) (simAt_lift _ rfl) fun b s5 h5 => simAt_call ?_
        subst h5
        refine simAt_pure b ?_
        show live (L.free ctx s5) = live s
        rw [H.live_free, hm, hl, hn, Nat.add_sub_cancel]
      · dsimp only
        rw [if_pos hq]
        exact simAt_abort fun h => hq ((h s3).2 ctx c).2
    · rw [if_pos hr]
      exact simAt_abort fun h => hr ((h (L.new s).2).2 ctx k).1

theorem sim_update (H : OpenSSL L aes keyed live) (provided : Option (Mem UInt8)) (Key V : Mem UInt8) : Sim L live (evpUpdate L provided Key V) (AES256_CTR_DRBG_Update aes provided Key V) := by
  unfold evpUpdate AES256_CTR_DRBG_Update
  refine sim_bind (sim_for (fun i x => ?_) _ _ _) fun x => sim_bind (sim_lift _) fun _ => sim_bind (sim_lift _) fun _ => sim_bind (sim_lift _) fun _ => sim_pure _
  exact sim_bind (sim_lift _) fun _ => sim_bind (sim_ecb H _ _ _ _) fun _ => sim_pure _

theorem sim_init (H : OpenSSL L aes keyed live) (g : DRBG) (entropy : Mem UInt8) (pers : Option (Mem UInt8)) : Sim L live (evpInit L g entropy pers) (randombytes_init aes g entropy pers) := by
  unfold evpInit randombytes_init
  exact sim_bind (sim_lift _) fun _ => sim_bind (sim_lift _) fun _ => sim_bind (sim_lift _) fun _ => sim_bind (sim_lift _) fun _ => sim_bind (sim_update H _ _ _) fun _ => sim_pure _

theorem sim_randombytes (H : OpenSSL L aes keyed live) (g : DRBG) (x : Mem UInt8) (xo xlen : Nat) : Sim L live (evpRandombytes L g x xo xlen) (drbg_randombytes aes g x xo xlen) := by
  unfold evpRandombytes drbg_randombytes
  refine sim_bind (sim_while (fun s => ?_) _ _) fun _ => sim_bind (sim_update H _ _ _) fun _ => sim_bind (sim_lift _) fun _ => sim_pure _
  unfold evpBody rbBody
  refine sim_bind (sim_lift _) fun _ => sim_bind (sim_ecb H _ _ _ _) fun _ => sim_if _ ?_ ?_
  · exact sim_bind (sim_lift _) fun _ => sim_bind (sim_lift _) fun _ => sim_pure _
  · exact sim_bind (sim_lift _) fun _ => sim_pure _

theorem sim_seedexpander (H : OpenSSL L aes keyed live) (ctx : AES_XOF) (x : Option (Mem UInt8)) (xo xlen : Nat) :
    Sim L live (evpSeedexpander L ctx x xo xlen) (seedexpander aes ctx x xo xlen) := by
  unfold evpSeedexpander seedexpander
  refine sim_bind (sim_lift _) fun _ => ?_
  cases x with
  | none => exact sim_pure _
  | some x =>
    refine sim_if _ (sim_pure _) (sim_bind (sim_while (fun s => ?_) _ _) fun _ => sim_pure _)
    unfold evpSeBody seBody
    refine sim_bind (sim_lift _) fun _ => sim_if _ ?_ ?_
    · exact sim_bind (sim_lift _) fun _ => sim_pure _
    · exact sim_bind (sim_lift _) fun _ => sim_bind (sim_ecb H _ _ _ _) fun _ => sim_bind (sim_lift _) fun _ => sim_pure _

/-- The program ends, and this only if a call of OpenSSL can fail, or the code returns a result with `Q` and leaves no context behind; nothing is undefined. -/
def EndsOr (L : Evp σ Ctx) (live : σ → Nat) (m : Ab σ α) (Q : α → Prop) : Prop :=
  ∀ s, match m s with
    | .ok (some v, s') _ => live s' = live s ∧ Q v
    | .ok (none, _) _ => ¬ NoFailure L
    | _ => False

theorem sim_runs {m : Ab σ α} {c : C α} {Q : α → Prop} (h : Sim L live m c) (hc : Runs c Q) : EndsOr L live m Q := fun s => by
  have h1 := h s
  unfold SimAt at h1
  cases hm : m s with
  | ub u =>
    rw [hm] at h1
    rw [show c = .ub u from h1] at hc
    exact hc
  | diverge =>
    rw [hm] at h1
    rw [show c = .diverge from h1] at hc
    exact hc
  | ok r t =>
    rw [hm] at h1
    obtain ⟨_ | v, s'⟩ := r
    · exact h1
    · obtain ⟨hl, t', e⟩ := h1
      rw [e] at hc
      exact ⟨hl, hc⟩

/-- C61. `randombytes_init` with OpenSSL, whose calls may fail. -/
theorem C61_openssl_init (L : Evp σ Ctx) (aes : Cipher) (keyed : σ → Ctx → List UInt8 → Prop) (live : σ → Nat) (H : OpenSSL L aes keyed live) (hA : IsCipher aes) (g : DRBG) (hK : g.Key.size = 32) (hV : g.V.size = 16)
    (entropy : Mem UInt8) (e : List UInt8) (he : entropy.Holds 0 e) (hel : e.length = 48) (pers : Option (Mem UInt8)) (s : List UInt8) (hsl : s.length = 48)
    (hs : match pers with | none => s = List.replicate 48 0 | some d => d.Holds 0 s) :
    EndsOr L live (evpInit L g entropy pers) fun g' =>
      g'.Key = Mem.ofList (CTR_DRBG_Instantiate aes e s).Key ∧ g'.V = Mem.ofList (CTR_DRBG_Instantiate aes e s).V ∧ g'.reseed_counter = 1 :=
  sim_runs (sim_init H g entropy pers) (C61_init aes hA g hK hV entropy e he hel pers s hsl hs)

/-- C61. `randombytes` with OpenSSL, whose calls may fail: either the program ends, or it writes the output of CTR_DRBG_Generate. -/
theorem C61_openssl (L : Evp σ Ctx) (aes : Cipher) (keyed : σ → Ctx → List UInt8 → Prop) (live : σ → Nat) (H : OpenSSL L aes keyed live) (hA : IsCipher aes) (K V : List UInt8) (hK : K.length = 32)
    (hV : V.length = 16) (n : Nat) (hn : n < 2 ^ 31 - 1) (x : Mem UInt8) (xo xlen : Nat) (hx : xo + xlen ≤ x.size) (hlen : xlen < 2 ^ 31) :
    EndsOr L live (evpRandombytes L ⟨Mem.ofList K, Mem.ofList V, n⟩ x xo xlen) fun r => r.2.1 = 0 ∧ x.Wrote r.1 xo (CTR_DRBG_Generate aes xlen ⟨K, V, n⟩).1 ∧
      r.2.2 = ⟨Mem.ofList (CTR_DRBG_Generate aes xlen ⟨K, V, n⟩).2.Key, Mem.ofList (CTR_DRBG_Generate aes xlen ⟨K, V, n⟩).2.V, ((n + 1 : Nat) : Int)⟩ :=
  sim_runs (sim_randombytes H _ x xo xlen) (C61_randombytes aes hA K V hK hV n hn x xo xlen hx hlen)

/-- C62. `seedexpander` after `seedexpander_init`, with OpenSSL, whose calls may fail. -/
theorem C62_openssl (L : Evp σ Ctx) (aes : Cipher) (keyed : σ → Ctx → List UInt8 → Prop) (live : σ → Nat) (H : OpenSSL L aes keyed live) (hA : IsCipher aes) (c : AES_XOF) (hk : c.key.size = 32)
    (hc : c.ctr.size = 16) (hb : c.buffer.size = 16) (seed div : Mem UInt8) (s d : List UInt8) (hs : seed.Holds 0 s) (hsl : s.length = 32) (hd : div.Holds 0 d) (hdl : d.length = 8) (maxlen : Nat)
    (hm : maxlen < 2 ^ 32) (x : Mem UInt8) (xo len : Nat) (hx : xo + len ≤ x.size) (hl : len < maxlen) :
    EndsOr L live (do let (_, c) ← Ab.lift (seedexpander_init c seed div maxlen); evpSeedexpander L c (some x) xo len) fun r => ∃ x', r.2.2 = some x' ∧ x.Wrote x' xo (expanderBytes aes s d maxlen 0 len) :=
  sim_runs (sim_bind (sim_lift _) fun _ => sim_seedexpander H _ _ _ _) (C62_frame aes hA c hk hc hb seed div s d hs hsl hd hdl maxlen hm x xo len hx hl)

end

/-! ## Concrete cases -/

/-- An OpenSSL that keeps the key of its one context, counts its calls, and fails from call `n` on; the cipher adds the first byte of the key. -/
def fadingEvp (n : Nat) : Evp (Nat × List UInt8 × Nat) Unit where
  new s := (if s.1 < n then some () else none, (s.1 + 1, s.2.1, s.2.2 + if s.1 < n then 1 else 0))
  init _ k s := (if s.1 < n then 1 else 0, (s.1 + 1, k, s.2.2))
  update _ c s := ((if s.1 < n then 1 else 0, c.map (· + s.2.1.headD 0)), (s.1 + 1, s.2.1, s.2.2))
  free _ s := (s.1, s.2.1, s.2.2 - 1)

def addCipher : Cipher := fun k c => c.map (· + k.headD 0)

theorem fading_ssl (n : Nat) : OpenSSL (fadingEvp n) addCipher (fun s _ k => s.2.1 = k) (fun s => s.2.2) where
  init _ _ _ _ := rfl
  update _ _ _ _ h _ := by subst h; rfl
  live_new s h := by
    show s.2.2 + (if s.1 < n then 1 else 0) = s.2.2 + 1
    by_cases hn : s.1 < n
    · rw [if_pos hn]
    · have h' : (if s.1 < n then some () else none).isSome = true := h
      rw [if_neg hn] at h'
      cases h'
  live_init _ _ _ := rfl
  live_update _ _ _ := rfl
  live_free _ _ := rfl

/-- Four blocks are 12 calls: with 12 the request for 10 bytes is answered, with 11 the program ends. -/
example : (match evpRandombytes (fadingEvp 12) ⟨Mem.ofList (List.replicate 32 1), Mem.ofList (List.replicate 16 0), 1⟩ (Mem.uninit UInt8 10) 0 10 (0, [], 0) with
      | .ok (some r, s) _ => r.1.toList == ([1, 1, 1, 1, 1, 1, 1, 1, 1, 1] : List UInt8).map some && s.2.2 == 0
      | _ => false) = true ∧
    (match evpRandombytes (fadingEvp 11) ⟨Mem.ofList (List.replicate 32 1), Mem.ofList (List.replicate 16 0), 1⟩ (Mem.uninit UInt8 10) 0 10 (0, [], 0) with
      | .ok (none, s) _ => s.2.2 == 1
      | _ => false) = true := by decide +kernel

example (n : Nat) : EndsOr (fadingEvp n) (fun s => s.2.2) (evpRandombytes (fadingEvp n) ⟨Mem.ofList (List.replicate 32 1), Mem.ofList (List.replicate 16 0), (1 : Nat)⟩ (Mem.uninit UInt8 10) 0 10) fun r => r.2.1 = 0 := by
  intro s
  have h := C61_openssl (fadingEvp n) addCipher _ _ (fading_ssl n) (fun _ c _ hc => by unfold addCipher; rw [List.length_map, hc]) (List.replicate 32 1) (List.replicate 16 0) rfl rfl 1 (by decide) (Mem.uninit UInt8 10) 0 10
    (by rw [Mem.size_uninit]) (by decide) s
  revert h
  cases evpRandombytes (fadingEvp n) ⟨Mem.ofList (List.replicate 32 1), Mem.ofList (List.replicate 16 0), (1 : Nat)⟩ (Mem.uninit UInt8 10) 0 10 s with
  | ub u => exact id
  | diverge => exact id
  | ok r t =>
    obtain ⟨_ | v, s'⟩ := r
    · exact id
    · exact fun h => ⟨h.1, h.2.1⟩

end Verif.Props
