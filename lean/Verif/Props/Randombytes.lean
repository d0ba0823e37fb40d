import Verif.Proof.Randombytes

/-! # Properties of randombytes (C29) and of the randomised KEM calls (C30) -/

set_option autoImplicit false

namespace Verif.Props
open Verif.Model Verif.Proof

/-- The bytes number `pos`, ..., `pos + n - 1` that the operating system delivers. -/
def osBytes (os : OS) (n : Nat) : List UInt8 := (List.range n).map fun i => os.src (os.pos + i)

/-- Sum of the lengths of successful reads. -/
def delivered (cs : List SysRet) : Nat := (cs.map fun | .got n => n | .eintr => 0 | .fail => 0).sum

theorem delivered_eq (cs : List SysRet) : delivered cs = total cs := by
  induction cs with
  | nil => rfl
  | cons c cs ih => cases c <;> simp [delivered, total, ← ih]

/-! ## C29 -/

/-- C29. For every schedule of system call results: if `randombytes` returns, the buffer holds the next `n` bytes of the operating system in order, nothing else in memory
changed, and exactly `n` bytes were consumed. (`some (none)` is abort.) -/
theorem C29_returns_full (os : OS) (out : Mem UInt8) (oo n : Nat) (h : oo + n ≤ out.size) (out' : Mem UInt8) (os' : OS) (t : Trace)
    (hr : randombytes os out oo n = .ok (some (out', os')) t) :
    out.Wrote out' oo (osBytes os n) ∧ os'.src = os.src ∧ os'.pos = os.pos + n := by
  have := randombytes_runsO (os := os) h
  rw [hr] at this
  cases ho : outcome os.calls n with
  | none => rw [ho] at this; simp [RunsO] at this
  | some o =>
    rw [ho] at this
    cases o with
    | none => simp [RunsO, Runs] at this
    | some rest =>
      obtain ⟨out'', h1, h2⟩ := this
      simp only [Option.some.injEq, Prod.mk.injEq] at h1
      obtain ⟨rfl, rfl⟩ := h1
      exact ⟨h2, rfl, rfl⟩

/-- C29. It does return if the calls before the first failure deliver enough, however they are cut (short reads, empty reads, interruptions). -/
theorem C29_returns (os : OS) (out : Mem UInt8) (oo n : Nat) (h : oo + n ≤ out.size) (pre post : List SysRet) (hc : os.calls = pre ++ post)
    (hp : SysRet.fail ∉ pre) (hn : n ≤ delivered pre) : Runs (randombytes os out oo n) (fun r => r.isSome) := by
  rw [delivered_eq] at hn
  obtain ⟨rest, e⟩ := outcome_done pre post n hp hn
  refine ((randombytes_runsO (os := os) h).runs (by rw [hc]; exact e)).mono fun r hr => ?_
  obtain ⟨out', rfl, _⟩ := hr
  rfl

/-- C29. It aborts if a call fails before enough bytes were delivered. -/
theorem C29_aborts (os : OS) (out : Mem UInt8) (oo n : Nat) (h : oo + n ≤ out.size) (pre post : List SysRet) (hc : os.calls = pre ++ .fail :: post)
    (hp : SysRet.fail ∉ pre) (hn : delivered pre < n) : Runs (randombytes os out oo n) (fun r => r = none) := by
  rw [delivered_eq] at hn
  exact (randombytes_runsO (os := os) h).runs (by rw [hc]; exact outcome_abort pre post n hp hn)

/-- C29. Otherwise (no failure, not enough bytes so far) it is still waiting: it never returns with a partly filled buffer. -/
theorem C29_waits (os : OS) (out : Mem UInt8) (oo n : Nat) (h : oo + n ≤ out.size) (hp : SysRet.fail ∉ os.calls) (hn : delivered os.calls < n) :
    randombytes os out oo n = .diverge := by
  rw [delivered_eq] at hn
  have := randombytes_runsO (os := os) h
  rwa [outcome_blocked _ n hp hn, runsO_none] at this

/-- C29, the variant reading /dev/urandom, whatever happens when opening the device. -/
theorem C29_dev_returns_full (fd : Bool) (opens : List SysRet) (os : OS) (out : Mem UInt8) (oo n : Nat) (h : oo + n ≤ out.size) (out' : Mem UInt8) (os' : OS)
    (opens' : List SysRet) (t : Trace) (hr : randombytesDev fd opens os out oo n = .ok (some (out', os', opens')) t) :
    out.Wrote out' oo (osBytes os n) ∧ os'.src = os.src ∧ os'.pos = os.pos + n := by
  unfold randombytesDev at hr
  obtain ⟨o, t1, t2, h1, h2⟩ := C.bind_ok hr
  cases o with
  | none => simp [pure] at h2
  | some opens =>
    obtain ⟨r, t3, t4, h3, h4⟩ := C.bind_ok h2
    cases r with
    | none => simp [pure] at h4
    | some s =>
      obtain ⟨s1, s2⟩ := s
      simp only [pure, Option.map_some, C.ok.injEq, Option.some.injEq, Prod.mk.injEq] at h4
      obtain ⟨⟨rfl, rfl, _⟩, _⟩ := h4
      exact C29_returns_full os out oo n h _ _ t3 h3

/-- C29, the Windows variant (in pieces of at most 1 MiB): no undefined behaviour, and if it returns the buffer is full. -/
theorem C29_win (acq rel : Bool) (oks : List Bool) (os : OS) (hpos : os.pos = 0) (out : Mem UInt8) (oo n : Nat) (h : oo + n ≤ out.size) :
    (∀ u, randombytesWin acq rel oks os.src out oo n ≠ .ub u) ∧
    ∀ v t, randombytesWin acq rel oks os.src out oo n = .ok (some v) t → out.Wrote v.1 oo (osBytes os n) ∧ v.2 = n := by
  have hs := win_safe (acq := acq) (rel := rel) (oks := oks) (src := os.src) h
  refine ⟨fun u hu => by rw [hu] at hs; exact hs, fun v t hr => ?_⟩
  rcases hs.ok hr with h | ⟨out', h, hw⟩
  · simp at h
  · simp only [Option.some.injEq] at h
    subst h
    refine ⟨?_, rfl⟩
    unfold osBytes
    rw [hpos]
    exact hw

/-- A schedule with an interruption, an empty read and short reads: eight bytes arrive in order in cells 1 to 8. -/
example : Runs (randombytes ⟨fun i => UInt8.ofNat i, 5, [.eintr, .got 3, .got 0, .got 1, .got 9]⟩ (Mem.uninit UInt8 10) 1 8)
    (fun r => r.map (·.1) = some #[none, some 5, some 6, some 7, some 8, some 9, some 10, some 11, some 12, none]) := by decide +kernel
example : Runs (randombytes ⟨fun i => UInt8.ofNat i, 5, [.eintr, .got 3, .fail, .got 9]⟩ (Mem.uninit UInt8 10) 1 8) (fun r => (r.map (·.1)) = none) := by decide +kernel

/-! ## C30 -/

/-- The outcome of a run without its trace. -/
inductive Outcome (α : Type) where
  | returned (v : α)
  | undefined (u : UB)
  | notYet

def outcomeOf {α : Type} : C α → Outcome α
  | .ok v _ => .returned v
  | .ub u => .undefined u
  | .diverge => .notYet

theorem outcomeOf_bind {α β : Type} {m : C α} {v : α} {t : Trace} (hm : m = .ok v t) (f : α → C β) : outcomeOf (m >>= f) = outcomeOf (f v) := by
  subst hm
  show outcomeOf (C.bind _ _) = _
  simp only [C.bind]
  cases f v <;> rfl

/-- C30. When the operating system delivers 64 bytes (in whatever pieces), `crypto_kem_keypair` does what `crypto_kem_keypair_derand` does on these bytes as coins; no more are
consumed. -/
theorem C30_keypair (p : ParamSet) (fuel : Nat) (os : OS) (pk sk : Mem UInt8) (pre post : List SysRet) (hc : os.calls = pre ++ post) (hp : SysRet.fail ∉ pre)
    (hn : 64 ≤ delivered pre) : ∃ os' : OS, os'.src = os.src ∧ os'.pos = os.pos + 64 ∧
    outcomeOf (crypto_kem_keypair p fuel os pk sk) = outcomeOf (do
      let r ← crypto_kem_keypair_derand p fuel pk sk (Mem.ofList (osBytes os 64))
      pure (some (r.1, r.2.1, 0, os'))) := by
  have h := C29_returns os (Mem.uninit UInt8 (2 * KYBER_SYMBYTES)) 0 64 (by rw [Mem.size_uninit]; decide) pre post hc hp hn
  obtain ⟨r, t, e, hr⟩ := h.exists_ok
  cases r with
  | none => simp at hr
  | some r =>
    obtain ⟨coins, os'⟩ := r
    obtain ⟨hw, h1, h2⟩ := C29_returns_full os _ 0 64 (by rw [Mem.size_uninit]; decide) _ _ t e
    refine ⟨os', h1, h2, ?_⟩
    have hcoins : coins = Mem.ofList (osBytes os 64) := by
      refine hw.holds.ext (by rw [hw.size, Mem.size_uninit]; simp [osBytes, KYBER_SYMBYTES])
    unfold crypto_kem_keypair
    dsimp only
    rw [show 2 * KYBER_SYMBYTES = 64 from rfl] at *
    rw [outcomeOf_bind e, hcoins]

/-- C30. The same for `crypto_kem_enc` and 32 bytes. -/
theorem C30_enc (p : ParamSet) (fuel : Nat) (os : OS) (ct ss pk : Mem UInt8) (pre post : List SysRet) (hc : os.calls = pre ++ post) (hp : SysRet.fail ∉ pre)
    (hn : 32 ≤ delivered pre) : ∃ os' : OS, os'.src = os.src ∧ os'.pos = os.pos + 32 ∧
    outcomeOf (crypto_kem_enc p fuel os ct ss pk) = outcomeOf (do
      let r ← crypto_kem_enc_derand p fuel ct ss pk (Mem.ofList (osBytes os 32))
      pure (some (r.1, r.2.1, 0, os'))) := by
  have h := C29_returns os (Mem.uninit UInt8 KYBER_SYMBYTES) 0 32 (by rw [Mem.size_uninit]; decide) pre post hc hp hn
  obtain ⟨r, t, e, hr⟩ := h.exists_ok
  cases r with
  | none => simp at hr
  | some r =>
    obtain ⟨coins, os'⟩ := r
    obtain ⟨hw, h1, h2⟩ := C29_returns_full os _ 0 32 (by rw [Mem.size_uninit]; decide) _ _ t e
    refine ⟨os', h1, h2, ?_⟩
    have hcoins : coins = Mem.ofList (osBytes os 32) := by
      refine hw.holds.ext (by rw [hw.size, Mem.size_uninit]; simp [osBytes, KYBER_SYMBYTES])
    unfold crypto_kem_enc
    dsimp only
    rw [show KYBER_SYMBYTES = 32 from rfl] at *
    rw [outcomeOf_bind e, hcoins]

/-- C30. When the operating system fails before that, both abort: no key or ciphertext is produced from partial randomness. -/
theorem C30_abort (p : ParamSet) (fuel : Nat) (os : OS) (pk sk ct ss ek : Mem UInt8) (pre post : List SysRet) (hc : os.calls = pre ++ .fail :: post) (hp : SysRet.fail ∉ pre) :
    (delivered pre < 64 → Runs (crypto_kem_keypair p fuel os pk sk) (fun r => r = none)) ∧
    (delivered pre < 32 → Runs (crypto_kem_enc p fuel os ct ss ek) (fun r => r = none)) := by
  constructor
  · intro hn
    unfold crypto_kem_keypair
    dsimp only
    rw [runs_bind]
    refine (C29_aborts os _ 0 _ (by rw [Mem.size_uninit]; decide) pre post hc hp hn).mono fun r hr => ?_
    subst hr
    exact rfl
  · intro hn
    unfold crypto_kem_enc
    dsimp only
    rw [runs_bind]
    refine (C29_aborts os _ 0 _ (by rw [Mem.size_uninit]; decide) pre post hc hp hn).mono fun r hr => ?_
    subst hr
    exact rfl

example : delivered [.got 10, .eintr, .got 30, .got 24] = 64 := rfl

end Verif.Props
