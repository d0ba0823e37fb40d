import Verif.Proof.TestKyber
import Verif.Props.Randombytes
import Verif.Props.AvxKem

/-! # Properties of the test programs (C63, C64)

The specifications `testVectors` and `testKyber` are in Spec/Text.lean. -/

set_option autoImplicit false

namespace Verif.Props
open Verif.Model Verif.Spec Verif.Proof

attribute [local irreducible] KeyGen_internal Encaps_internal Decaps_internal tvMain testVectors tkMain testKyber

/-- What a run that a specification describes comes to: its result, or no end within the bound on rejection sampling. -/
def expected {α : Type} : Option α → Outcome α
  | some r => .returned r
  | none => .notYet

theorem outcome_of_runsO {α : Type} {m : C α} {o : Option α} (h : RunsO m o (fun a b => b = a)) : outcomeOf m = expected o := by
  cases o with
  | none => rw [show m = .diverge from h]; rfl
  | some r =>
    obtain ⟨v, t, e, hv⟩ := Runs.exists_ok h
    rw [e, hv]
    rfl

/-- C63. test_vectors.c, linked to the reference build, with any number of tests: what it writes to stdout and stderr and its return value are those of the specification (in FIPS 203
and SHAKE128). -/
theorem C63_ref (p : ParamSet) (fuel n : Nat) :
    outcomeOf (tvMain p (fun _ => refApi p fuel) tv_randombytes rngstate n) = expected (testVectors (fips p) (112 + 56 * fuel) shakeStream n 0) :=
  outcome_of_runsO (tvMain_runsO (fun _ => refApi_spec p fuel) tv_rng tv_start n)

/-- C63. The same for the AVX2 build, whatever its uninitialised buffers contain (another content in each iteration). -/
theorem C63_avx2 (p : ParamSet) (junk : Nat → Nat → Fin 4 → Nat → UInt8) (fuel n : Nat) :
    outcomeOf (tvMain p (fun i => Avx.avxApi p (junk i) fuel) tv_randombytes rngstate n) = expected (testVectors (fips p) (112 + 56 * fuel) shakeStream n 0) :=
  outcome_of_runsO (tvMain_runsO (fun i => avxApi_spec p (junk i) fuel) tv_rng tv_start n)

/-- C63. The two programs (10000 tests) write the same and return the same. -/
theorem C63_same (p : ParamSet) (junk : Nat → Nat → Fin 4 → Nat → UInt8) (fuel : Nat) :
    SameResult (test_vectors p fun i => Avx.avxApi p (junk i) fuel) (test_vectors p fun _ => refApi p fuel) :=
  same_of_runsO (tvMain_runsO (fun i => avxApi_spec p (junk i) fuel) tv_rng tv_start _) (tvMain_runsO (fun _ => refApi_spec p fuel) tv_rng tv_start _) fun _ _ _ h h' => h.trans h'.symm

/-- The shared secrets of the test that uses the random bytes from position `pos` agree. -/
def Agree (P : Params) (N : Nat) (src : Nat → UInt8) (pos : Nat) : Prop :=
  ∃ ek dk K c, KeyGen_internal P N (streamAt src pos 32) (streamAt src (pos + 32) 32) = some (ek, dk) ∧ Encaps_internal P N ek (streamAt src (pos + 64) 32) = some (K, c) ∧
    Decaps_internal P N dk c = some K

theorem testVectors_verdict (P : Params) (N : Nat) (src : Nat → UInt8) : ∀ (n pos : Nat) (out err : List Char) (ret : Int), testVectors P N src n pos = some (out, err, ret) →
    (ret = 0 ∧ err = [] ∧ ∀ i < n, Agree P N src (pos + i * (96 + 32 * (P.du * P.k + P.dv)))) ∨
      (ret = -1 ∧ err = "ERROR\n".toList ∧ ∃ i < n, (∀ j < i, Agree P N src (pos + j * (96 + 32 * (P.du * P.k + P.dv)))) ∧ ¬ Agree P N src (pos + i * (96 + 32 * (P.du * P.k + P.dv))))
  | 0, pos, out, err, ret, h => by
    rw [testVectors] at h
    injection h with h
    injection h with h1 h
    injection h with h2 h3
    exact Or.inl ⟨h3.symm, h2.symm, fun i hi => absurd hi (Nat.not_lt_zero i)⟩
  | n + 1, pos, out, err, ret, h => by
    rw [testVectors] at h
    simp only [Option.bind_eq_bind, Option.bind_eq_some_iff] at h
    obtain ⟨⟨ek, dk⟩, hk, ⟨K, c⟩, he, K', hd, h⟩ := h
    dsimp only at he hd h
    by_cases hkk : K' = K
    · rw [if_pos hkk] at h
      subst hkk
      have h0 : Agree P N src (pos + 0 * (96 + 32 * (P.du * P.k + P.dv))) := by
        rw [Nat.zero_mul, Nat.add_zero]
        exact ⟨ek, dk, K', c, hk, he, hd⟩
      simp only [Option.bind_eq_some_iff] at h
      obtain ⟨K'', -, ⟨out', err', ret'⟩, hr, h⟩ := h
      injection h with h
      injection h with h1 h
      injection h with h2 h3
      have shift : ∀ j, pos + (j + 1) * (96 + 32 * (P.du * P.k + P.dv)) = pos + 96 + 32 * (P.du * P.k + P.dv) + j * (96 + 32 * (P.du * P.k + P.dv)) := fun j => by
        rw [Nat.add_mul]; omega
      rcases testVectors_verdict P N src n _ out' err' ret' hr with ⟨a, b, d⟩ | ⟨a, b, i, hi, d, e⟩
      · refine Or.inl ⟨h3 ▸ a, h2 ▸ b, fun i hi => ?_⟩
        cases i with
        | zero => exact h0
        | succ i => rw [shift]; exact d i (by omega)
      · refine Or.inr ⟨h3 ▸ a, h2 ▸ b, i + 1, by omega, fun j hj => ?_, by rw [shift]; exact e⟩
        cases j with
        | zero => exact h0
        | succ j => rw [shift]; exact d j (by omega)
    · rw [if_neg hkk] at h
      injection h with h
      injection h with h1 h
      injection h with h2 h3
      refine Or.inr ⟨h3.symm, h2.symm, 0, by omega, fun j hj => absurd hj (Nat.not_lt_zero j), ?_⟩
      rw [Nat.zero_mul, Nat.add_zero]
      rintro ⟨ek', dk', K2, c', hk', he', hd'⟩
      rw [hk] at hk'
      injection hk' with hk'
      injection hk' with e1 e2
      subst e1; subst e2
      rw [he] at he'
      injection he' with he'
      injection he' with e3 e4
      subst e3; subst e4
      rw [hd] at hd'
      injection hd' with hd'
      exact hkk hd'

/-- C63. When the program returns, it returns 0 and writes nothing to stderr if the shared secrets of all tests agree, and otherwise it stops at the first test where they do not, with
the error message and -1. -/
theorem C63_verdict (p : ParamSet) (fuel : Nat) (out err : List Char) (ret : Int) (h : outcomeOf (test_vectors p fun _ => refApi p fuel) = .returned (out, err, ret)) :
    (ret = 0 ∧ err = [] ∧ ∀ i < 10000, Agree (fips p) (112 + 56 * fuel) shakeStream (i * (96 + 32 * ((fips p).du * (fips p).k + (fips p).dv)))) ∨
      (ret = -1 ∧ err = "ERROR\n".toList ∧ ∃ i < 10000, (∀ j < i, Agree (fips p) (112 + 56 * fuel) shakeStream (j * (96 + 32 * ((fips p).du * (fips p).k + (fips p).dv)))) ∧
        ¬ Agree (fips p) (112 + 56 * fuel) shakeStream (i * (96 + 32 * ((fips p).du * (fips p).k + (fips p).dv)))) := by
  unfold test_vectors at h
  rw [C63_ref] at h
  cases ht : testVectors (fips p) (112 + 56 * fuel) shakeStream 10000 0 with
  | none => rw [ht] at h; cases h
  | some r =>
    rw [ht] at h
    injection h with h
    have := testVectors_verdict _ _ _ _ _ _ _ _ (h ▸ ht)
    simpa only [Nat.zero_add] using this

/-- Cases: the bytes of the generator, the form of a line, no tests, and an error. -/
example : streamAt shakeStream 0 4 = [0x7f, 0x9c, 0x2b, 0xa4] := by
  have a := tv_rng rngstate 0 (Mem.uninit UInt8 4) 0 4 tv_start (by simp) (by decide)
  have b : Runs (tv_randombytes rngstate (Mem.uninit UInt8 4) 0 4) (fun r => r.1 = Mem.ofList [0x7f, 0x9c, 0x2b, 0xa4]) := by decide +kernel
  obtain ⟨v, t, e, h, -⟩ := a.exists_ok
  rw [e] at b
  have b : v.1 = Mem.ofList [0x7f, 0x9c, 0x2b, 0xa4] := b
  have h := h.holds
  rw [b] at h
  have := Mem.Holds.ext h (by simp [Mem.ofList, streamAt_length])
  exact (List.map_injective_iff.2 (Option.some_injective _) (by simpa [Mem.ofList] using this)).symm
example : hexLine "Shared Secret A: " [0x0f, 0xa9, 0x00] = "Shared Secret A: 0fa900\n".toList := by decide +kernel
example (p : ParamSet) (fuel : Nat) : outcomeOf (tvMain p (fun _ => refApi p fuel) tv_randombytes rngstate 0) = .returned ([], [], 0) := by rw [C63_ref, testVectors]; rfl

/-! ## C64: test_kyber.c -/

/-- A `randombytes` that delivers the bytes of the stream `src` one after the other. `S n st`: in state `st`, `n` bytes were delivered. C29 shows that randombytes.c does so (when it returns), and
C63 uses another one. -/
def Delivers {σ : Type} (rb : Rng σ) (src : Nat → UInt8) (S : Nat → σ → Prop) : Prop :=
  ∀ st n out oo k, S n st → oo + k ≤ out.size → k < 4294967296 → Runs (rb st out oo k) (fun r => out.Wrote r.1 oo (streamAt src n k) ∧ S (n + k) r.2)

/-- C64. test_kyber.c, linked to the reference build, with any number of rounds: what it writes and returns is what the specification says. `tries` bounds the loop that looks for a nonzero byte. -/
theorem C64_ref {σ : Type} (p : ParamSet) (fuel tries n : Nat) (rb : Rng σ) (src : Nat → UInt8) (S : Nat → σ → Prop) (hr : Delivers rb src S) (st : σ) (pos : Nat) (hst : S pos st) :
    outcomeOf (tkMain p (fun _ _ => refApi p fuel) rb tries st n) = expected (testKyber (fips p) (112 + 56 * fuel) src tries n pos) :=
  outcome_of_runsO (tkMain_runsO (fun _ _ => refApi_spec p fuel) hr hst tries n)

/-- C64. The same for the AVX2 build, whatever its uninitialised buffers contain in each test of each round. -/
theorem C64_avx2 {σ : Type} (p : ParamSet) (junk : Nat → Nat → Nat → Fin 4 → Nat → UInt8) (fuel tries n : Nat) (rb : Rng σ) (src : Nat → UInt8) (S : Nat → σ → Prop) (hr : Delivers rb src S)
    (st : σ) (pos : Nat) (hst : S pos st) :
    outcomeOf (tkMain p (fun i j => Avx.avxApi p (junk i j) fuel) rb tries st n) = expected (testKyber (fips p) (112 + 56 * fuel) src tries n pos) :=
  outcome_of_runsO (tkMain_runsO (fun i j => avxApi_spec p (junk i j) fuel) hr hst tries n)

theorem testKyber_verdict (P : Params) (N : Nat) (src : Nat → UInt8) (tries : Nat) : ∀ (n pos : Nat) (out : List Char) (ret : Int), testKyber P N src tries n pos = some (out, ret) →
    (ret = 0 ∨ ret = 1) ∧ (ret = 0 ↔ ∃ at_ : Nat → Nat, at_ 0 = pos ∧ ∀ i < n, testRound P N src tries (at_ i) = some ([], true, at_ (i + 1)))
  | 0, pos, out, ret, h => by
    rw [testKyber] at h
    injection h with h
    injection h with h1 h2
    exact ⟨Or.inl h2.symm, fun _ => ⟨fun _ => pos, rfl, fun i hi => absurd hi (Nat.not_lt_zero i)⟩, fun _ => h2.symm⟩
  | n + 1, pos, out, ret, h => by
    rw [testKyber_succ] at h
    rw [Option.bind_eq_some_iff] at h
    obtain ⟨⟨text, go, next⟩, hr, h⟩ := h
    dsimp only at h
    have htext : go = true → text = [] := by
      rw [testRound_eq] at hr
      unfold sRound at hr
      simp only [Option.bind_eq_some_iff] at hr
      obtain ⟨a, -, b, -, c, -, hr⟩ := hr
      injection hr with hr
      injection hr with e1 hr
      injection hr with e2 e3
      intro hg
      rw [hg] at e2
      rw [← e1]
      revert e2
      cases a.1 <;> cases b.1 <;> cases c.1 <;> simp
    by_cases hg : go = true
    · rw [if_pos hg, Option.map_eq_some_iff] at h
      obtain ⟨⟨out', ret'⟩, hm, h⟩ := h
      injection h with h1 h2
      dsimp only at h2
      subst h2
      obtain ⟨v1, v2⟩ := testKyber_verdict P N src tries n next out' ret' hm
      refine ⟨v1, v2.trans ⟨?_, ?_⟩⟩
      · rintro ⟨f, f0, hf⟩
        refine ⟨fun i => match i with | 0 => pos | i + 1 => f i, rfl, fun i hi => ?_⟩
        cases i with
        | zero => dsimp only; rw [hr, f0, htext hg, hg]
        | succ i => exact hf i (by omega)
      · rintro ⟨f, f0, hf⟩
        refine ⟨fun i => f (i + 1), ?_, fun i hi => hf (i + 1) (by omega)⟩
        have := hf 0 (by omega)
        rw [f0, hr] at this
        injection this with this
        injection this with _ this
        injection this with _ this
        exact this.symm
    · rw [if_neg hg] at h
      injection h with h
      injection h with h1 h2
      subst h2
      refine ⟨Or.inr rfl, fun h => absurd h (by decide), ?_⟩
      rintro ⟨f, f0, hf⟩
      have := hf 0 (by omega)
      rw [f0, hr] at this
      injection this with this
      injection this with _ this
      injection this with this _
      exact absurd this hg

/-- C64. When the program returns, it returns 0 or 1, and 0 exactly if all three tests pass silently in every one of the `n` rounds. -/
theorem C64_verdict {σ : Type} (p : ParamSet) (fuel tries n : Nat) (rb : Rng σ) (src : Nat → UInt8) (S : Nat → σ → Prop) (hr : Delivers rb src S) (st : σ) (pos : Nat) (hst : S pos st)
    (out : List Char) (ret : Int) (h : outcomeOf (tkMain p (fun _ _ => refApi p fuel) rb tries st n) = .returned (out, ret)) :
    (ret = 0 ∨ ret = 1) ∧ (ret = 0 ↔ ∃ at_ : Nat → Nat, at_ 0 = pos ∧ ∀ i < n, testRound (fips p) (112 + 56 * fuel) src tries (at_ i) = some ([], true, at_ (i + 1))) := by
  rw [C64_ref p fuel tries n rb src S hr st pos hst] at h
  cases ht : testKyber (fips p) (112 + 56 * fuel) src tries n pos with
  | none => rw [ht] at h; cases h
  | some r =>
    rw [ht] at h
    injection h with h
    exact testKyber_verdict _ _ _ _ _ _ _ _ (h ▸ ht)

/-- Cases: there is such a generator; without rounds only the sizes are printed; the search for a nonzero byte. -/
example : Delivers tv_randombytes shakeStream (SqS 168 (padded 168 0x1F [])) := tv_rng
example (fuel tries : Nat) : outcomeOf (tkMain .k3 (fun _ _ => refApi .k3 fuel) tv_randombytes tries rngstate 0) =
    .returned ("CRYPTO_SECRETKEYBYTES:  2400\nCRYPTO_PUBLICKEYBYTES:  1184\nCRYPTO_CIPHERTEXTBYTES: 1088\n".toList, 0) := by
  rw [C64_ref _ _ _ _ _ _ _ tv_rng _ _ tv_start, testKyber]
  exact congrArg (fun l => Outcome.returned (l, (0 : Int))) (by decide +kernel)
example : firstNonzero (fun i => if i < 7 then 0 else 5) 4 4 = some 7 ∧ firstNonzero (fun i => if i < 7 then 0 else 5) 3 4 = none := by decide

end Verif.Props
