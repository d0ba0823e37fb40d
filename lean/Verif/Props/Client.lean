import Verif.Props.Bind
import Verif.Props.AvxLeak

/-! # C91: programs that use the KEM

A program makes calls of the randomised API one after the other. Which call comes next, and with which arguments, may depend in any way on the results so far. The theorems say what such a program
gets from the code, whichever build serves each call, and what all its calls together leak. -/

set_option autoImplicit false

namespace Verif.Props
open Verif.Model Verif.Spec Verif.Proof

/-- A program that uses the KEM: it ends with a value, or makes a call and goes on depending on the return value and the bytes written. -/
inductive Client (α : Type) where
  | done (a : α)
  | keypair (k : Int → List UInt8 → List UInt8 → Client α)
  | enc (ek : List UInt8) (k : Int → List UInt8 → List UInt8 → Client α)
  | dec (c dk : List UInt8) (k : Int → List UInt8 → Client α)

/-- The arguments have the lengths of the API (api.h), as long as the results do. -/
def Client.Sized {α : Type} (P : Params) : Client α → Prop
  | .done _ => True
  | .keypair k => ∀ ek dk, ek.length = ekLen P → dk.length = dkLen P → (k 0 ek dk).Sized P
  | .enc ek k => ek.length = ekLen P ∧ ∀ c K, c.length = ctLen P → K.length = 32 → (k 0 c K).Sized P
  | .dec c dk k => c.length = ctLen P ∧ dk.length = dkLen P ∧ ∀ K, K.length = 32 → (k 0 K).Sized P

/-! ## The program with the standard -/

/-- How the operating system's results end a request for `n` bytes: not (`none`), by abort (`some none`), or leaving the rest of its results. -/
def serve : List SysRet → Nat → Option (Option (List SysRet))
  | cs, 0 => some (some cs)
  | [], _ + 1 => none
  | .got k :: cs, n + 1 => serve cs (n + 1 - min k (n + 1))
  | .eintr :: cs, n + 1 => serve cs (n + 1)
  | .fail :: _, _ + 1 => some none

/-- `n` random bytes and the state of the operating system after it. -/
def ask (os : OS) (n : Nat) : Option (Option (List UInt8 × OS)) :=
  (serve os.calls n).map fun r => r.map fun rest => (osBytes os n, ⟨os.src, os.pos + n, rest⟩)

/-- ML-KEM.KeyGen of FIPS 203 with the operating system as random bit generator: no result yet, aborted, or the keys. -/
def stdKeyGen (P : Params) (N : Nat) (os : OS) : Option (Option (List UInt8 × List UInt8 × OS)) :=
  ask os 64 >>= fun
    | none => some none
    | some (x, os') => (KeyGen_internal P N (x.take 32) (x.drop 32)).map fun o => some (o.1, o.2, os')

/-- ML-KEM.Encaps. -/
def stdEncaps (P : Params) (N : Nat) (os : OS) (ek : List UInt8) : Option (Option (List UInt8 × List UInt8 × OS)) :=
  ask os 32 >>= fun
    | none => some none
    | some (m, os') => (Encaps_internal P N ek m).map fun o => some (o.2, o.1, os')

/-- The program with the functions of the standard, with at most `N` steps of each sampling loop: no result yet, aborted, or its value and the state of the operating system. -/
def Client.std {α : Type} (P : Params) (N : Nat) : OS → Client α → Option (Option (α × OS))
  | os, .done a => some (some (a, os))
  | os, .keypair k => stdKeyGen P N os >>= fun
    | none => some none
    | some (ek, dk, os') => (k 0 ek dk).std P N os'
  | os, .enc ek k => stdEncaps P N os ek >>= fun
    | none => some none
    | some (c, K, os') => (k 0 c K).std P N os'
  | os, .dec c dk k => Decaps_internal P N dk c >>= fun K => (k 0 K).std P N os

/-! ## The program with the code -/

def keypairRnd : Build → ParamSet → Nat → OS → Mem UInt8 → Mem UInt8 → C (Option (Mem UInt8 × Mem UInt8 × Int × OS))
  | .ref => crypto_kem_keypair
  | .avx2 junk => fun p => Avx.crypto_kem_keypair p junk
def encRnd : Build → ParamSet → Nat → OS → Mem UInt8 → Mem UInt8 → Mem UInt8 → C (Option (Mem UInt8 × Mem UInt8 × Int × OS))
  | .ref => crypto_kem_enc
  | .avx2 junk => fun p => Avx.crypto_kem_enc p junk

/-- The bytes of a buffer; undefined if one was not written. -/
def allBytes (m : Mem UInt8) : C (List UInt8) :=
  match m.toList.mapM id with
  | none => .ub .uninit
  | some l => pure l

/-- The program with the code: call number `i` goes to build `b i`. Output buffers are fresh objects of the announced sizes. -/
def Client.run {α : Type} (b : Nat → Build) (p : ParamSet) (fuel : Nat) : Nat → OS → Client α → C (Option (α × OS))
  | _, os, .done a => pure (some (a, os))
  | i, os, .keypair k => keypairRnd (b i) p fuel os (Mem.uninit UInt8 (KYBER_PUBLICKEYBYTES p)) (Mem.uninit UInt8 (KYBER_SECRETKEYBYTES p)) >>= fun
    | none => pure none
    | some (pk, sk, rc, os') => allBytes pk >>= fun pk => allBytes sk >>= fun sk => (k rc pk sk).run b p fuel (i + 1) os'
  | i, os, .enc ek k => encRnd (b i) p fuel os (Mem.uninit UInt8 (KYBER_CIPHERTEXTBYTES p)) (Mem.uninit UInt8 KYBER_SSBYTES) (Mem.ofList ek) >>= fun
    | none => pure none
    | some (ct, ss, rc, os') => allBytes ct >>= fun ct => allBytes ss >>= fun ss => (k rc ct ss).run b p fuel (i + 1) os'
  | i, os, .dec c dk k => decOf (b i) p fuel (Mem.uninit UInt8 KYBER_SSBYTES) (Mem.ofList c) (Mem.ofList dk) >>= fun (ss, rc) =>
    allBytes ss >>= fun ss => (k rc ss).run b p fuel (i + 1) os

/-! ## Helpers -/

theorem serve_outcome : ∀ (cs : List SysRet) (n : Nat), serve cs n = outcome cs n := by
  intro cs
  induction cs with
  | nil => intro n; cases n <;> simp [serve, outcome]
  | cons a cs ih => intro n; cases n <;> cases a <;> simp [serve, outcome, ih]

theorem mapM_some (l : List UInt8) : (l.map some).mapM (id : Option UInt8 → Option UInt8) = some l := by
  induction l with
  | nil => rfl
  | cons a l ih => simp [List.mapM_cons, ih]

theorem allBytes_ofList (l : List UInt8) : allBytes (Mem.ofList l) = pure l := by
  unfold allBytes Mem.ofList
  rw [mapM_some]

theorem wrote_all {n : Nat} {m : Mem UInt8} {l : List UInt8} (h : (Mem.uninit UInt8 n).Wrote m 0 l) (hl : l.length = n) : m = Mem.ofList l :=
  h.holds.ext (by rw [h.size, Mem.size_uninit, hl])

theorem runsO_same {α β : Type} {m m' : C α} {o : Option β} {Q : β → α → Prop} (h : RunsO m o Q) (hs : SameResult m' m) : RunsO m' o Q := by
  cases o with
  | some x => exact hs.runs h
  | none =>
    rw [runsO_none] at *
    rcases hs with ⟨h1, _⟩ | ⟨v, t, t', h1, h2⟩
    · exact h1
    · rw [h] at h2; cases h2

theorem keygen_len {p : ParamSet} {N : Nat} {d z ek dk : List UInt8} (hz : z.length = 32) (h : KeyGen_internal (fips p) N d z = some (ek, dk)) :
    ek.length = ekLen (fips p) ∧ dk.length = dkLen (fips p) := by
  obtain ⟨l, e, _⟩ := keygen_parts hz h
  refine ⟨?_, l⟩
  rw [← e]
  unfold dkEk bytes ekLen
  rw [List.length_take, List.length_drop, l]
  omega

theorem encaps_len {P : Params} {N : Nat} {ek m K c : List UInt8} (h : Encaps_internal P N ek m = some (K, c)) : c.length = ctLen P ∧ K.length = 32 := by
  unfold Encaps_internal at h
  have hg := G_fst_length (m ++ H ek)
  generalize G (m ++ H ek) = g at *
  obtain ⟨K', r⟩ := g
  dsimp only at h hg
  cases he : K_PKE_Encrypt P N ek m r with
  | none => rw [he] at h; simp at h
  | some c' =>
    rw [he] at h
    have h : (K', c') = (K, c) := Option.some.inj h
    cases h
    exact ⟨encrypt_length he, hg⟩

theorem runsO_mem {α β : Type} {m : C α} {o : Option β} {Q R : β → α → Prop} (h : RunsO m o Q) (hQ : ∀ b v, o = some b → Q b v → R b v) : RunsO m o R := by
  cases o with
  | some b => exact Runs.mono h fun v hv => hQ b v rfl hv
  | none => exact h

theorem ask_runs {os : OS} {n : Nat} :
    RunsO (randombytes os (Mem.uninit UInt8 n) 0 n) (ask os n) (fun o s => match o with
      | none => s = none
      | some (x, os') => s = some (Mem.ofList x, os') ∧ x.length = n) := by
  have h := randombytes_runsO (os := os) (out := Mem.uninit UInt8 n) (oo := 0) (n := n) (by rw [Mem.size_uninit]; omega)
  unfold ask
  rw [serve_outcome]
  refine runsO_map (h.mono fun o s hs => ?_)
  cases o with
  | none => exact hs
  | some rest =>
    obtain ⟨out', rfl, hw⟩ := hs
    have hl : (osBytes os n).length = n := by simp [osBytes]
    have := wrote_all hw hl
    subst this
    exact ⟨rfl, hl⟩

theorem ref_keypair_runs (p : ParamSet) (fuel : Nat) (os : OS) :
    RunsO (crypto_kem_keypair p fuel os (Mem.uninit UInt8 (KYBER_PUBLICKEYBYTES p)) (Mem.uninit UInt8 (KYBER_SECRETKEYBYTES p))) (stdKeyGen (fips p) (112 + 56 * fuel) os) (fun o s => match o with
      | none => s = none
      | some (ek, dk, os') => s = some (Mem.ofList ek, Mem.ofList dk, 0, os') ∧ ek.length = ekLen (fips p) ∧ dk.length = dkLen (fips p)) := by
  unfold crypto_kem_keypair stdKeyGen
  refine (ask_runs (os := os) (n := 64)).bind fun o s hs => ?_
  cases o with
  | none => subst hs; exact rfl
  | some o =>
    obtain ⟨x, os'⟩ := o
    obtain ⟨rfl, hl⟩ := hs
    have l1 : (x.take 32).length = 32 := by rw [List.length_take]; omega
    have l2 : (x.drop 32).length = 32 := by rw [List.length_drop]; omega
    have hx : (Mem.ofList x).Holds 0 (x.take 32 ++ x.drop 32) := by rw [List.take_append_drop]; exact Mem.holds_ofList _
    rw [Mem.Holds.append, l1, Nat.zero_add] at hx
    refine runsO_map ?_
    have hk := keypair_ref p fuel (Mem.uninit UInt8 (KYBER_PUBLICKEYBYTES p)) (Mem.uninit UInt8 (KYBER_SECRETKEYBYTES p)) _ _ _ hx.1 l1 hx.2 l2
      (by rw [Mem.size_uninit, pk_size']; rfl) (by rw [Mem.size_uninit, sk_size]; rfl)
    refine (runsO_mem hk fun o s ho hs => (⟨ho, hs⟩ : KeyGen_internal (fips p) (112 + 56 * fuel) (x.take 32) (x.drop 32) = some o ∧ _)).bindR fun o s hs => ?_
    obtain ⟨s1, s2, s3⟩ := s
    obtain ⟨ho, h1, h2, -⟩ := hs
    obtain ⟨g1, g2⟩ := keygen_len l2 ho
    have e1 := wrote_all h1 (by rw [g1, pk_size']; rfl)
    have e2 := wrote_all h2 (by rw [g2, sk_size]; rfl)
    dsimp only at e1 e2
    subst e1 e2
    exact ⟨rfl, g1, g2⟩

theorem ref_enc_runs (p : ParamSet) (fuel : Nat) (os : OS) (ek : List UInt8) (hek : ek.length = ekLen (fips p)) :
    RunsO (crypto_kem_enc p fuel os (Mem.uninit UInt8 (KYBER_CIPHERTEXTBYTES p)) (Mem.uninit UInt8 KYBER_SSBYTES) (Mem.ofList ek)) (stdEncaps (fips p) (112 + 56 * fuel) os ek)
      (fun o s => match o with
      | none => s = none
      | some (c, K, os') => s = some (Mem.ofList c, Mem.ofList K, 0, os') ∧ c.length = ctLen (fips p) ∧ K.length = 32) := by
  unfold crypto_kem_enc stdEncaps
  refine (ask_runs (os := os) (n := 32)).bind fun o s hs => ?_
  cases o with
  | none => subst hs; exact rfl
  | some o =>
    obtain ⟨x, os'⟩ := o
    obtain ⟨rfl, hl⟩ := hs
    refine runsO_map ?_
    have hk := enc_ref p fuel (Mem.uninit UInt8 (KYBER_CIPHERTEXTBYTES p)) (Mem.uninit UInt8 KYBER_SSBYTES) (Mem.ofList ek) (Mem.ofList x) ek x (Mem.holds_ofList _) hl (Mem.holds_ofList _) hek
      (by rw [Mem.size_uninit, ct_size']; rfl) (by rw [Mem.size_uninit]; rfl)
    refine (runsO_mem hk fun o s ho hs => (⟨ho, hs⟩ : Encaps_internal (fips p) (112 + 56 * fuel) ek x = some o ∧ _)).bindR fun o s hs => ?_
    obtain ⟨s1, s2, s3⟩ := s
    obtain ⟨ho, h1, h2, -⟩ := hs
    obtain ⟨g1, g2⟩ := encaps_len ho
    have e1 := wrote_all h1 (by rw [g1, ct_size']; rfl)
    have e2 := wrote_all h2 (by rw [g2]; rfl)
    dsimp only at e1 e2
    subst e1 e2
    exact ⟨rfl, g1, g2⟩

theorem keypair_runs (b : Build) (p : ParamSet) (fuel : Nat) (os : OS) :
    RunsO (keypairRnd b p fuel os (Mem.uninit UInt8 (KYBER_PUBLICKEYBYTES p)) (Mem.uninit UInt8 (KYBER_SECRETKEYBYTES p))) (stdKeyGen (fips p) (112 + 56 * fuel) os) (fun o s => match o with
      | none => s = none
      | some (ek, dk, os') => s = some (Mem.ofList ek, Mem.ofList dk, 0, os') ∧ ek.length = ekLen (fips p) ∧ dk.length = dkLen (fips p)) := by
  cases b with
  | ref => exact ref_keypair_runs p fuel os
  | avx2 junk => exact runsO_same (ref_keypair_runs p fuel os) (C55_keypair p junk fuel os _ _ (by rw [Mem.size_uninit, pk_size']; rfl) (by rw [Mem.size_uninit, sk_size]; rfl))

theorem enc_runs (b : Build) (p : ParamSet) (fuel : Nat) (os : OS) (ek : List UInt8) (hek : ek.length = ekLen (fips p)) :
    RunsO (encRnd b p fuel os (Mem.uninit UInt8 (KYBER_CIPHERTEXTBYTES p)) (Mem.uninit UInt8 KYBER_SSBYTES) (Mem.ofList ek)) (stdEncaps (fips p) (112 + 56 * fuel) os ek)
      (fun o s => match o with
      | none => s = none
      | some (c, K, os') => s = some (Mem.ofList c, Mem.ofList K, 0, os') ∧ c.length = ctLen (fips p) ∧ K.length = 32) := by
  cases b with
  | ref => exact ref_enc_runs p fuel os ek hek
  | avx2 junk => exact runsO_same (ref_enc_runs p fuel os ek hek) (C55_enc p junk fuel os _ _ _ ek (Mem.holds_ofList _) hek (by rw [Mem.size_uninit, ct_size']; rfl) (by rw [Mem.size_uninit]; rfl))

theorem dec_runs (b : Build) (p : ParamSet) (fuel : Nat) (c dk : List UInt8) (hc : c.length = ctLen (fips p)) (hdk : dk.length = dkLen (fips p)) :
    RunsO (decOf b p fuel (Mem.uninit UInt8 KYBER_SSBYTES) (Mem.ofList c) (Mem.ofList dk)) (Decaps_internal (fips p) (112 + 56 * fuel) dk c)
      (fun K s => s = (Mem.ofList K, 0) ∧ K.length = 32) := by
  have h : RunsO (decOf b p fuel (Mem.uninit UInt8 KYBER_SSBYTES) (Mem.ofList c) (Mem.ofList dk)) (Decaps_internal (fips p) (112 + 56 * fuel) dk c)
      (fun o s => (Mem.uninit UInt8 KYBER_SSBYTES).Wrote s.1 0 o ∧ s.2 = 0) := by
    cases b with
    | ref => exact dec_ref p fuel _ _ _ c dk (Mem.holds_ofList _) hc (Mem.holds_ofList _) hdk (by rw [Mem.size_uninit]; rfl)
    | avx2 junk => exact dec_avx p junk fuel _ _ _ c dk (Mem.holds_ofList _) hc (Mem.holds_ofList _) hdk (by rw [Mem.size_uninit]; rfl)
  refine runsO_mem h fun K s hK hs => ?_
  obtain ⟨s1, s2⟩ := s
  obtain ⟨h1, h2⟩ := hs
  have l := decaps_length hK
  have e := wrote_all h1 (by rw [l]; rfl)
  dsimp only at e h2
  subst e h2
  exact ⟨rfl, l⟩

theorem map_mono {β γ : Type} {o o' : Option β} {f : β → γ} (h : ∀ b, o = some b → o' = some b) {r : γ} (hr : o.map f = some r) : o'.map f = some r := by
  obtain ⟨b, e, rfl⟩ := Option.map_eq_some_iff.1 hr
  rw [h b e, Option.map_some]

theorem bind_mono {β γ : Type} {o o' : Option β} {f f' : β → Option γ} (h : ∀ b, o = some b → o' = some b) (hf : ∀ b r, f b = some r → f' b = some r) {r : γ} (hr : (o >>= f) = some r) :
    (o' >>= f') = some r := by
  obtain ⟨b, e, h'⟩ := Option.bind_eq_some_iff.1 hr
  rw [h b e]
  exact hf b r h'

theorem stdKeyGen_mono {P : Params} {N N' : Nat} (hN : N ≤ N') {os : OS} {r : Option (List UInt8 × List UInt8 × OS)} (h : stdKeyGen P N os = some r) : stdKeyGen P N' os = some r := by
  unfold stdKeyGen at h ⊢
  refine bind_mono (fun _ e => e) (fun b r h => ?_) h
  cases b with
  | none => exact h
  | some o => exact map_mono (fun b e => KeyGen_internal_mono hN e) h

theorem stdEncaps_mono {P : Params} {N N' : Nat} (hN : N ≤ N') {os : OS} {ek : List UInt8} {r : Option (List UInt8 × List UInt8 × OS)} (h : stdEncaps P N os ek = some r) :
    stdEncaps P N' os ek = some r := by
  unfold stdEncaps at h ⊢
  refine bind_mono (fun _ e => e) (fun b r h => ?_) h
  cases b with
  | none => exact h
  | some o => exact map_mono (fun b e => Encaps_internal_mono hN e) h

theorem std_mono {α : Type} {P : Params} {N N' : Nat} (hN : N ≤ N') (x : Client α) : ∀ (os : OS) {r : Option (α × OS)}, x.std P N os = some r → x.std P N' os = some r := by
  induction x with
  | done a => intro os r h; exact h
  | keypair k ih =>
    intro os r h
    rw [Client.std] at h ⊢
    refine bind_mono (fun b e => stdKeyGen_mono hN e) (fun b r h => ?_) h
    cases b with
    | none => exact h
    | some o => exact ih 0 o.1 o.2.1 o.2.2 h
  | enc ek k ih =>
    intro os r h
    rw [Client.std] at h ⊢
    refine bind_mono (fun b e => stdEncaps_mono hN e) (fun b r h => ?_) h
    cases b with
    | none => exact h
    | some o => exact ih 0 o.1 o.2.1 o.2.2 h
  | dec c dk k ih =>
    intro os r h
    rw [Client.std] at h ⊢
    exact bind_mono (fun b e => Decaps_internal_mono hN e) (fun b r h => ih 0 b os h) h

/-! ## Results -/

/-- C91. The program gets from the code what it gets from the functions of the standard, for every distribution of its calls to the two builds: it is aborted if and when it is with the standard, it has
not ended yet if it has not with the standard, and it ends with the same value and the operating system in the same state. In particular nothing is undefined. -/
theorem C91_standard {α : Type} (b : Nat → Build) (p : ParamSet) (fuel : Nat) (x : Client α) (h : x.Sized (fips p)) :
    ∀ (i : Nat) (os : OS), RunsO (x.run b p fuel i os) (x.std (fips p) (112 + 56 * fuel) os) (fun o r => r = o) := by
  induction x with
  | done a => intro i os; exact rfl
  | keypair k ih =>
    intro i os
    unfold Client.run Client.std
    refine (keypair_runs (b i) p fuel os).bind fun o s hs => ?_
    cases o with
    | none => subst hs; exact rfl
    | some o =>
      obtain ⟨ek, dk, os'⟩ := o
      obtain ⟨rfl, l1, l2⟩ := hs
      dsimp only
      rw [allBytes_ofList, allBytes_ofList, pure_bind, pure_bind]
      exact ih 0 ek dk (h ek dk l1 l2) (i + 1) os'
  | enc ek k ih =>
    intro i os
    unfold Client.run Client.std
    refine (enc_runs (b i) p fuel os ek h.1).bind fun o s hs => ?_
    cases o with
    | none => subst hs; exact rfl
    | some o =>
      obtain ⟨c, K, os'⟩ := o
      obtain ⟨rfl, l1, l2⟩ := hs
      dsimp only
      rw [allBytes_ofList, allBytes_ofList, pure_bind, pure_bind]
      exact ih 0 c K (h.2 c K l1 l2) (i + 1) os'
  | dec c dk k ih =>
    intro i os
    unfold Client.run Client.std
    refine (dec_runs (b i) p fuel c dk h.1 h.2.1).bind fun K s hs => ?_
    obtain ⟨rfl, l⟩ := hs
    dsimp only
    rw [allBytes_ofList, pure_bind]
    exact ih 0 K (h.2.2 K l) (i + 1) os

/-- C91. No program can tell from the results of its calls which build serves them. -/
theorem C91_builds {α : Type} (b b' : Nat → Build) (p : ParamSet) (fuel : Nat) (x : Client α) (h : x.Sized (fips p)) (os : OS) :
    SameResult (x.run b p fuel 0 os) (x.run b' p fuel 0 os) :=
  same_of_runsO (C91_standard b p fuel x h 0 os) (C91_standard b' p fuel x h 0 os) fun _ _ _ e e' => e.trans e'.symm

/-- C91. No call of the program is undefined. -/
theorem C91_defined {α : Type} (b : Nat → Build) (p : ParamSet) (fuel : Nat) (x : Client α) (h : x.Sized (fips p)) (os : OS) : NoUB (x.run b p fuel 0 os) :=
  noUB_of_runsO (C91_standard b p fuel x h 0 os)

/-- C91. If the program ends with the standard, with some number `N` of steps of its sampling loops, it does with the code for every fuel from `N` on, with the same value. -/
theorem C91_terminates {α : Type} (b : Nat → Build) (p : ParamSet) (N fuel : Nat) (hN : N ≤ fuel) (x : Client α) (h : x.Sized (fips p)) (os : OS) (r : Option (α × OS))
    (hr : x.std (fips p) N os = some r) : Runs (x.run b p fuel 0 os) (· = r) :=
  (C91_standard b p fuel x h 0 os).runs (std_mono (by omega) x os hr)

/-! ## Leakage -/

/-- The seed ρ in an encapsulation key and in a decapsulation key. -/
def ekSeed (P : Params) (ek : List UInt8) : List UInt8 := bytes ek (384 * P.k) (384 * P.k + 32)
def dkSeed (P : Params) (dk : List UInt8) : List UInt8 := bytes dk (768 * P.k) (768 * P.k + 32)

/-- Two programs that make the same sequence of calls, as long as the seeds of their keys agree: which call comes next does not depend on anything else, so not on secret keys, shared secrets, messages or
ciphertexts. -/
inductive Alike (P : Params) {α β : Type} : Client α → Client β → Prop
  | done (a : α) (b : β) : Alike P (.done a) (.done b)
  | keypair (k : Int → List UInt8 → List UInt8 → Client α) (k' : Int → List UInt8 → List UInt8 → Client β)
      (h : ∀ rc ek dk ek' dk', ekSeed P ek = ekSeed P ek' → dkSeed P dk = ekSeed P ek → dkSeed P dk' = ekSeed P ek' → Alike P (k rc ek dk) (k' rc ek' dk')) :
      Alike P (.keypair k) (.keypair k')
  | enc (ek ek' : List UInt8) (k : Int → List UInt8 → List UInt8 → Client α) (k' : Int → List UInt8 → List UInt8 → Client β) (hs : ekSeed P ek = ekSeed P ek')
      (h : ∀ rc c K c' K', Alike P (k rc c K) (k' rc c' K')) : Alike P (.enc ek k) (.enc ek' k')
  | dec (c dk c' dk' : List UInt8) (k : Int → List UInt8 → Client α) (k' : Int → List UInt8 → Client β) (hs : dkSeed P dk = dkSeed P dk')
      (h : ∀ rc K K', Alike P (k rc K) (k' rc K')) : Alike P (.dec c dk k) (.dec c' dk' k')

/-- The seeds of the key pairs that the program generates. -/
def Client.seeds {α : Type} (P : Params) (N : Nat) : OS → Client α → List (List UInt8)
  | _, .done _ => []
  | os, .keypair k => (SHA3_512 (osBytes os 32 ++ [UInt8.ofNat P.k])).take 32 :: match stdKeyGen P N os with
    | some (some (ek, dk, os')) => (k 0 ek dk).seeds P N os'
    | _ => []
  | os, .enc ek k => match stdEncaps P N os ek with
    | some (some (c, K, os')) => (k 0 c K).seeds P N os'
    | _ => []
  | os, .dec c dk k => match Decaps_internal P N dk c with
    | some K => (k 0 K).seeds P N os
    | none => []

/-- As `SameLeakage`, for programs with results of different types. -/
def SameLeak {α β : Type} (m : C α) (m' : C β) : Prop := (∃ v v' t, m = .ok v t ∧ m' = .ok v' t) ∨ (m = .diverge ∧ m' = .diverge)

/-- The same build, whatever is in uninitialised memory. -/
def SameBuild : Build → Build → Prop
  | .ref, .ref => True
  | .avx2 _, .avx2 _ => True
  | _, _ => False

theorem sameLeakage_seq {α α' β β' : Type} {m : C α} {m' : C α'} {f : α → C β} {f' : α' → C β'} (h : SameLeak m m')
    (hf : ∀ v v' t, m = .ok v t → m' = .ok v' t → SameLeak (f v) (f' v')) : SameLeak (m >>= f) (m' >>= f') := by
  rcases h with ⟨v, v', t, e, e'⟩ | ⟨rfl, rfl⟩
  · have := hf v v' t e e'
    subst e e'
    show SameLeak (C.bind _ _) (C.bind _ _)
    rcases this with ⟨w, w', s, e1, e2⟩ | ⟨e1, e2⟩
    · simp only [C.bind, e1, e2]; exact Or.inl ⟨w, w', _, rfl, rfl⟩
    · simp only [C.bind, e1, e2]; exact Or.inr ⟨rfl, rfl⟩
  · exact Or.inr ⟨rfl, rfl⟩

theorem keypair_leak {b b' : Build} (hb : SameBuild b b') (p : ParamSet) (fuel : Nat) {os os' : OS} (hc : os.calls = os'.calls)
    (hρ : (SHA3_512 (osBytes os 32 ++ [UInt8.ofNat (fips p).k])).take 32 = (SHA3_512 (osBytes os' 32 ++ [UInt8.ofNat (fips p).k])).take 32) :
    SameLeak (keypairRnd b p fuel os (Mem.uninit UInt8 (KYBER_PUBLICKEYBYTES p)) (Mem.uninit UInt8 (KYBER_SECRETKEYBYTES p)))
      (keypairRnd b' p fuel os' (Mem.uninit UInt8 (KYBER_PUBLICKEYBYTES p)) (Mem.uninit UInt8 (KYBER_SECRETKEYBYTES p))) := by
  have h1 : ekLen (fips p) ≤ (Mem.uninit UInt8 (KYBER_PUBLICKEYBYTES p)).size := by rw [Mem.size_uninit, pk_size']; rfl
  have h2 : dkLen (fips p) ≤ (Mem.uninit UInt8 (KYBER_SECRETKEYBYTES p)).size := by rw [Mem.size_uninit, sk_size]; rfl
  cases b <;> cases b' <;> first | exact hb.elim | skip
  · exact C57_keypair p fuel os os' _ _ _ _ hc h1 h2 h1 h2 hρ
  · exact C57_keypair_avx p _ _ fuel os os' _ _ _ _ hc h1 h2 h1 h2 hρ

theorem enc_leak {b b' : Build} (hb : SameBuild b b') (p : ParamSet) (fuel : Nat) {os os' : OS} (hc : os.calls = os'.calls) {ek ek' : List UInt8} (hek : ek.length = ekLen (fips p))
    (hek' : ek'.length = ekLen (fips p)) (hρ : ekSeed (fips p) ek = ekSeed (fips p) ek') :
    SameLeak (encRnd b p fuel os (Mem.uninit UInt8 (KYBER_CIPHERTEXTBYTES p)) (Mem.uninit UInt8 KYBER_SSBYTES) (Mem.ofList ek))
      (encRnd b' p fuel os' (Mem.uninit UInt8 (KYBER_CIPHERTEXTBYTES p)) (Mem.uninit UInt8 KYBER_SSBYTES) (Mem.ofList ek')) := by
  have h1 : ctLen (fips p) ≤ (Mem.uninit UInt8 (KYBER_CIPHERTEXTBYTES p)).size := by rw [Mem.size_uninit, ct_size']; rfl
  have h2 : 32 ≤ (Mem.uninit UInt8 KYBER_SSBYTES).size := by rw [Mem.size_uninit]; rfl
  cases b <;> cases b' <;> first | exact hb.elim | skip
  · exact C57_enc p fuel os os' _ _ _ _ _ _ ek ek' hc (Mem.holds_ofList _) hek h1 h2 (Mem.holds_ofList _) hek' h1 h2 hρ
  · exact C57_enc_avx p _ _ fuel os os' _ _ _ _ _ _ ek ek' hc (Mem.holds_ofList _) hek h1 h2 (Mem.holds_ofList _) hek' h1 h2 hρ

theorem dec_leak {b b' : Build} (hb : SameBuild b b') (p : ParamSet) (fuel : Nat) {c c' dk dk' : List UInt8} (hcl : c.length = ctLen (fips p)) (hcl' : c'.length = ctLen (fips p))
    (hdk : dk.length = dkLen (fips p)) (hdk' : dk'.length = dkLen (fips p)) (hρ : dkSeed (fips p) dk = dkSeed (fips p) dk') :
    SameLeak (decOf b p fuel (Mem.uninit UInt8 KYBER_SSBYTES) (Mem.ofList c) (Mem.ofList dk)) (decOf b' p fuel (Mem.uninit UInt8 KYBER_SSBYTES) (Mem.ofList c') (Mem.ofList dk')) := by
  have h2 : 32 ≤ (Mem.uninit UInt8 KYBER_SSBYTES).size := by rw [Mem.size_uninit]; rfl
  cases b <;> cases b' <;> first | exact hb.elim | skip
  · exact C10_dec p fuel _ _ _ _ _ _ c dk c' dk' (Mem.holds_ofList _) hcl (Mem.holds_ofList _) hdk h2 (Mem.holds_ofList _) hcl' (Mem.holds_ofList _) hdk' h2 hρ
  · exact C56_dec p _ _ fuel _ _ _ _ _ _ c dk c' dk' (Mem.holds_ofList _) hcl (Mem.holds_ofList _) hdk h2 (Mem.holds_ofList _) hcl' (Mem.holds_ofList _) hdk' h2 hρ

theorem ask_calls {os os' : OS} (hc : os.calls = os'.calls) (n : Nat) :
    (ask os n = none ∧ ask os' n = none) ∨ (ask os n = some none ∧ ask os' n = some none) ∨
    ∃ rest, ask os n = some (some (osBytes os n, ⟨os.src, os.pos + n, rest⟩)) ∧ ask os' n = some (some (osBytes os' n, ⟨os'.src, os'.pos + n, rest⟩)) := by
  unfold ask
  rw [← hc]
  cases serve os.calls n with
  | none => exact Or.inl ⟨rfl, rfl⟩
  | some o => cases o with
    | none => exact Or.inr (Or.inl ⟨rfl, rfl⟩)
    | some rest => exact Or.inr (Or.inr ⟨rest, rfl, rfl⟩)

/-- The state of the operating system after a key generation depends on its results only. -/
theorem stdKeyGen_calls {P : Params} {N : Nat} {os os' : OS} (hc : os.calls = os'.calls) {o o' : Option (List UInt8 × List UInt8 × OS)} (h : stdKeyGen P N os = some o)
    (h' : stdKeyGen P N os' = some o') :
    (o = none ∧ o' = none) ∨ ∃ ek dk r ek' dk' r', o = some (ek, dk, r) ∧ o' = some (ek', dk', r') ∧ r.calls = r'.calls ∧
      KeyGen_internal P N (osBytes os 32) ((osBytes os 64).drop 32) = some (ek, dk) ∧ KeyGen_internal P N (osBytes os' 32) ((osBytes os' 64).drop 32) = some (ek', dk') := by
  have ht : ∀ os : OS, (osBytes os 64).take 32 = osBytes os 32 := fun os => by rw [osBytes_split, List.take_left' (by simp [osBytes])]
  unfold stdKeyGen at h h'
  rcases ask_calls hc 64 with ⟨e, e'⟩ | ⟨e, e'⟩ | ⟨rest, e, e'⟩ <;> rw [e] at h <;> rw [e'] at h'
  · exact absurd h (by simp)
  · simp only [Option.bind_eq_bind, Option.bind_some, Option.some.injEq] at h h'
    exact Or.inl ⟨h.symm, h'.symm⟩
  · simp only [Option.bind_eq_bind, Option.bind_some, ht] at h h'
    obtain ⟨⟨ek, dk⟩, k1, rfl⟩ := Option.map_eq_some_iff.1 h
    obtain ⟨⟨ek', dk'⟩, k2, rfl⟩ := Option.map_eq_some_iff.1 h'
    exact Or.inr ⟨ek, dk, _, ek', dk', _, rfl, rfl, rfl, k1, k2⟩

theorem stdEncaps_calls {P : Params} {N : Nat} {os os' : OS} (hc : os.calls = os'.calls) {ek ek' : List UInt8} {o o' : Option (List UInt8 × List UInt8 × OS)} (h : stdEncaps P N os ek = some o)
    (h' : stdEncaps P N os' ek' = some o') :
    (o = none ∧ o' = none) ∨ ∃ c K r c' K' r', o = some (c, K, r) ∧ o' = some (c', K', r') ∧ r.calls = r'.calls := by
  unfold stdEncaps at h h'
  rcases ask_calls hc 32 with ⟨e, e'⟩ | ⟨e, e'⟩ | ⟨rest, e, e'⟩ <;> rw [e] at h <;> rw [e'] at h'
  · exact absurd h (by simp)
  · simp only [Option.bind_eq_bind, Option.bind_some, Option.some.injEq] at h h'
    exact Or.inl ⟨h.symm, h'.symm⟩
  · simp only [Option.bind_eq_bind, Option.bind_some] at h h'
    obtain ⟨⟨K, c⟩, k1, rfl⟩ := Option.map_eq_some_iff.1 h
    obtain ⟨⟨K', c'⟩, k2, rfl⟩ := Option.map_eq_some_iff.1 h'
    exact Or.inr ⟨c, K, _, c', K', _, rfl, rfl, rfl⟩

theorem keygen_seeds {p : ParamSet} {N : Nat} {d z ek dk : List UInt8} (hz : z.length = 32) (h : KeyGen_internal (fips p) N d z = some (ek, dk)) :
    ekSeed (fips p) ek = (SHA3_512 (d ++ [UInt8.ofNat (fips p).k])).take 32 ∧ dkSeed (fips p) dk = ekSeed (fips p) ek := by
  obtain ⟨l, e, -⟩ := keygen_parts hz h
  have g := (keygen_len hz h).1
  constructor
  · rw [← ek_seed p h]
    unfold ekSeed bytes
    rw [List.take_of_length_le]
    rw [List.length_drop, g]; unfold ekLen; omega
  · rw [← e]
    unfold ekSeed dkSeed dkEk bytes
    rw [List.drop_take, List.take_take, List.drop_drop]
    congr 1
    · omega
    · congr 1; omega

/-- C91. Two runs of programs that make the same sequence of calls, served by the same builds, under operating systems with the same results but other bytes: if the seeds of the generated key pairs
agree, all branches and all addresses of all calls agree. So a program that keeps its secrets out of its own decisions does not leak them through the KEM: neither by one call nor by all of them together. -/
theorem C91_leak {α β : Type} (b b' : Nat → Build) (hb : ∀ i, SameBuild (b i) (b' i)) (p : ParamSet) (fuel : Nat) (x : Client α) (y : Client β) (hxy : Alike (fips p) x y) :
    x.Sized (fips p) → y.Sized (fips p) → ∀ (i : Nat) (os os' : OS), os.calls = os'.calls → x.seeds (fips p) (112 + 56 * fuel) os = y.seeds (fips p) (112 + 56 * fuel) os' →
    SameLeak (x.run b p fuel i os) (y.run b' p fuel i os') := by
  induction hxy with
  | done a a' => intro _ _ i os os' _ _; exact Or.inl ⟨_, _, [], rfl, rfl⟩
  | keypair k k' h ih =>
    intro hx hy i os os' hc hs
    rw [Client.seeds, Client.seeds, List.cons.injEq] at hs
    rw [Client.run, Client.run]
    refine sameLeakage_seq (keypair_leak (hb i) p fuel hc hs.1) fun v v' t e e' => ?_
    obtain ⟨o, ho, hv⟩ := ok_of_runsO (keypair_runs (b i) p fuel os) e
    obtain ⟨o', ho', hv'⟩ := ok_of_runsO (keypair_runs (b' i) p fuel os') e'
    rcases stdKeyGen_calls hc ho ho' with ⟨rfl, rfl⟩ | ⟨ek, dk, r, ek', dk', r', rfl, rfl, hr, k1, k2⟩
    · dsimp only at hv hv'
      subst hv hv'
      exact Or.inl ⟨_, _, [], rfl, rfl⟩
    · obtain ⟨rfl, l1, l2⟩ := hv
      obtain ⟨rfl, l1', l2'⟩ := hv'
      dsimp only
      rw [allBytes_ofList, allBytes_ofList, allBytes_ofList, allBytes_ofList, pure_bind, pure_bind, pure_bind, pure_bind]
      obtain ⟨s1, s2⟩ := keygen_seeds (by simp [osBytes]) k1
      obtain ⟨s1', s2'⟩ := keygen_seeds (by simp [osBytes]) k2
      have h2 := hs.2
      rw [ho, ho'] at h2
      exact ih 0 ek dk ek' dk' (by rw [s1, s1', hs.1]) s2 s2' (hx ek dk l1 l2) (hy ek' dk' l1' l2') (i + 1) r r' hr h2
  | enc ek ek' k k' hρ h ih =>
    intro hx hy i os os' hc hs
    rw [Client.seeds, Client.seeds] at hs
    rw [Client.run, Client.run]
    refine sameLeakage_seq (enc_leak (hb i) p fuel hc hx.1 hy.1 hρ) fun v v' t e e' => ?_
    obtain ⟨o, ho, hv⟩ := ok_of_runsO (enc_runs (b i) p fuel os ek hx.1) e
    obtain ⟨o', ho', hv'⟩ := ok_of_runsO (enc_runs (b' i) p fuel os' ek' hy.1) e'
    rcases stdEncaps_calls hc ho ho' with ⟨rfl, rfl⟩ | ⟨c, K, r, c', K', r', rfl, rfl, hr⟩
    · dsimp only at hv hv'
      subst hv hv'
      exact Or.inl ⟨_, _, [], rfl, rfl⟩
    · obtain ⟨rfl, l1, l2⟩ := hv
      obtain ⟨rfl, l1', l2'⟩ := hv'
      dsimp only
      rw [allBytes_ofList, allBytes_ofList, allBytes_ofList, allBytes_ofList, pure_bind, pure_bind, pure_bind, pure_bind]
      rw [ho, ho'] at hs
      exact ih 0 c K c' K' (hx.2 c K l1 l2) (hy.2 c' K' l1' l2') (i + 1) r r' hr hs
  | dec c dk c' dk' k k' hρ h ih =>
    intro hx hy i os os' hc hs
    rw [Client.seeds, Client.seeds] at hs
    rw [Client.run, Client.run]
    refine sameLeakage_seq (dec_leak (hb i) p fuel hx.1 hy.1 hx.2.1 hy.2.1 hρ) fun v v' t e e' => ?_
    obtain ⟨K, ho, rfl, l⟩ := ok_of_runsO (dec_runs (b i) p fuel c dk hx.1 hx.2.1) e
    obtain ⟨K', ho', rfl, l'⟩ := ok_of_runsO (dec_runs (b' i) p fuel c' dk' hy.1 hy.2.1) e'
    dsimp only
    rw [allBytes_ofList, allBytes_ofList, pure_bind, pure_bind]
    rw [ho, ho'] at hs
    exact ih 0 K K' (hx.2.2 K l) (hy.2.2 K' l') (i + 1) os os' hc hs

/-! ## A program -/

/-- Generates a key pair, encapsulates to it, decapsulates, and gives both secrets. -/
def roundTrip : Client (List UInt8 × List UInt8) :=
  .keypair fun _ ek dk => .enc ek fun _ c K => .dec c dk fun _ K' => .done (K, K')

theorem roundTrip_sized (P : Params) : roundTrip.Sized P := fun _ _ h1 h2 => ⟨h1, fun _ _ h3 _ => ⟨h3, h2, fun _ _ => trivial⟩⟩

theorem roundTrip_alike (P : Params) : Alike P roundTrip roundTrip :=
  .keypair _ _ fun _ _ _ _ _ h1 h2 h3 => .enc _ _ _ _ h1 fun _ _ _ _ _ => .dec _ _ _ _ _ _ (by rw [h2, h3, h1]) fun _ _ _ => .done _ _

/-- C91. Whoever gets a key pair from the code can use it without waiting longer: encapsulation to it and decapsulation with it, of any ciphertext, run their sampling loops on the seed on which key generation
ended them, and end within the same number of steps. -/
theorem C91_usable (P : Params) (N : Nat) (d z ek dk : List UInt8) (hz : z.length = 32) (h : KeyGen_internal P N d z = some (ek, dk)) :
    (∀ m, ∃ K c, Encaps_internal P N ek m = some (K, c)) ∧ ∀ c, ∃ K, Decaps_internal P N dk c = some K := by
  obtain ⟨-, e, -, -, hA⟩ := keygen_parts hz h
  constructor
  · intro m
    obtain ⟨A, hA⟩ := Option.isSome_iff_exists.1 hA
    unfold Encaps_internal
    generalize G (m ++ H ek) = g
    obtain ⟨K, r⟩ := g
    dsimp only
    rw [K_PKE_Encrypt_eq, hA]
    exact ⟨_, _, rfl⟩
  · intro c
    exact decaps_isSome (by rw [e]; exact hA) c

/-- An operating system with the same results and the same first 32 bytes of zeros, then other bytes. -/
def sampleOS (x : UInt8) : OS := ⟨fun i => if i < 32 then 0 else x, 0, [.got 64, .eintr, .got 20, .got 12]⟩

theorem sampleOS_bytes (x : UInt8) : osBytes (sampleOS x) 32 = List.replicate 32 0 := rfl

theorem roundTrip_std {P : Params} {N : Nat} {os os1 os2 : OS} {d z ek dk m K c K' : List UInt8} (hd : d.length = 32) (a1 : ask os 64 = some (some (d ++ z, os1)))
    (a2 : ask os1 32 = some (some (m, os2))) (hk : KeyGen_internal P N d z = some (ek, dk)) (he : Encaps_internal P N ek m = some (K, c)) (hd' : Decaps_internal P N dk c = some K') :
    roundTrip.std P N os = some (some ((K, K'), os2)) := by
  have s1 : stdKeyGen P N os = some (some (ek, dk, os1)) := by
    unfold stdKeyGen
    rw [a1]
    simp only [Option.bind_eq_bind, Option.bind_some]
    rw [List.take_left' hd, List.drop_left' hd, hk, Option.map_some]
  have s2 : stdEncaps P N os1 ek = some (some (c, K, os2)) := by
    unfold stdEncaps
    rw [a2]
    simp only [Option.bind_eq_bind, Option.bind_some]
    rw [he, Option.map_some]
  unfold roundTrip
  rw [Client.std, s1]
  simp only [Option.bind_eq_bind, Option.bind_some]
  rw [Client.std, s2]
  simp only [Option.bind_eq_bind, Option.bind_some]
  rw [Client.std, hd']
  rfl

theorem sampleOS_ask1 (x : UInt8) : ask (sampleOS x) 64 = some (some (List.replicate 32 0 ++ List.replicate 32 x, ⟨(sampleOS x).src, 64, [.eintr, .got 20, .got 12]⟩)) := rfl
theorem sampleOS_ask2 (x : UInt8) : ask ⟨(sampleOS x).src, 64, [.eintr, .got 20, .got 12]⟩ 32 = some (some (List.replicate 32 x, ⟨(sampleOS x).src, 96, []⟩)) := rfl

/-- A case in which the program ends: ML-KEM-512, the key pair and the decapsulation by one build and the encapsulation by the other. -/
theorem roundTrip_ends (junk : Junk) (x : UInt8) : ∃ K K' os', Runs (roundTrip.run (fun i => if i = 1 then .ref else .avx2 junk) .k2 1 0 (sampleOS x)) (· = some ((K, K'), os')) := by
  obtain ⟨ek, dk, hk⟩ := kat_keygen (List.replicate 32 x)
  obtain ⟨h1, h2⟩ := C91_usable _ _ _ _ ek dk List.length_replicate hk
  obtain ⟨K, c, he⟩ := h1 (List.replicate 32 x)
  obtain ⟨K', hd⟩ := h2 c
  have hs := roundTrip_std List.length_replicate (sampleOS_ask1 x) (sampleOS_ask2 x) hk he hd
  have hr := C91_standard (fun i => if i = 1 then .ref else .avx2 junk) .k2 1 roundTrip (roundTrip_sized _) 0 (sampleOS x)
  rw [show fips .k2 = ML_KEM_512 from rfl, show 112 + 56 * 1 = 168 from rfl] at hr
  exact ⟨K, K', _, hr.runs hs⟩

theorem roundTrip_seeds (P : Params) (N : Nat) (os : OS) : roundTrip.seeds P N os = [(SHA3_512 (osBytes os 32 ++ [UInt8.ofNat P.k])).take 32] := by
  unfold roundTrip
  rw [Client.seeds, List.cons.injEq]
  refine ⟨rfl, ?_⟩
  split
  · rw [Client.seeds]
    split
    · rw [Client.seeds]
      split
      · rw [Client.seeds]
      · rfl
    · rfl
  · rfl

/-- The hypotheses of `C91_leak` can hold with different secrets: the two runs have other values z and other messages, end, and leak the same. -/
example (junk junk' : Junk) : ∃ v v' t, roundTrip.run (fun i => if i = 1 then .ref else .avx2 junk) .k2 1 0 (sampleOS 0) = .ok v t ∧
    roundTrip.run (fun i => if i = 1 then .ref else .avx2 junk') .k2 1 0 (sampleOS 255) = .ok v' t := by
  have h := C91_leak (fun i => if i = 1 then .ref else .avx2 junk) (fun i => if i = 1 then .ref else .avx2 junk') (fun i => by by_cases h : i = 1 <;> simp [h, SameBuild]) .k2 1
    roundTrip roundTrip (roundTrip_alike _) (roundTrip_sized _) (roundTrip_sized _) 0 (sampleOS 0) (sampleOS 255) rfl
    (by rw [roundTrip_seeds, roundTrip_seeds, sampleOS_bytes, sampleOS_bytes])
  rcases h with h | ⟨h, _⟩
  · exact h
  · obtain ⟨K, K', os', hr⟩ := roundTrip_ends junk 0
    rw [h] at hr
    exact hr.elim

end Verif.Props
