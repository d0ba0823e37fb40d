import Verif.Avx.NoiseProof
import Verif.Avx.GatherOob
import Verif.Avx.PolyvecPack
import Verif.Props.Sample

/-! # Properties of the AVX2 sampling: rejsample.c (C45), `gen_matrix` of indcpa.c (C46), `poly_getnoise_*` of poly.c (C47) -/

set_option autoImplicit false

namespace Verif.Props
open Verif.Model Verif.Spec Verif.Proof

attribute [local irreducible] Avx.rej_uniform_avx Avx.gen_matrix Avx.poly_getnoise_eta1_4x

/-! ## C45: rejection sampling -/

/-- C45. `rej_uniform_avx` on any 504 bytes: the array begins with the 12-bit numbers of the buffer below q in order, at most 256 of them, and their number is returned.
(The cells after them may have changed; no cell outside the array is touched.) -/
theorem C45_rej_uniform_avx (r : Mem Int16) (hr : r.size = 256) (X : List UInt8) (hX : X.length = 504) :
    Runs (Avx.rej_uniform_avx r (Mem.ofList X)) (fun s => ∃ y : List Int16,
      y.map Int16.toInt = (((twelveBit X).filter (· < 3329)).take 256).map Int.ofNat ∧ s.1.size = 256 ∧ s.1.Holds 0 y ∧ s.2 = y.length) := by
  refine (Avx.rej_uniform_avx_runs hr (Mem.holds_ofList X) hX).mono fun s hs => ⟨_, ?_, hs.1, hs.2.1, ?_⟩
  · rw [List.map_map, ← accepted_twelveBit]
    refine List.map_congr_left fun d hd => ?_
    exact i16_nat (accepted_lt (List.mem_of_mem_take hd))
  · rw [hs.2.2, List.length_map]

/-- C45. It finds the same numbers as `rej_uniform` of the reference code. -/
theorem C45_agrees_with_ref (r r' : Mem Int16) (hr : r.size = 256) (hr' : r'.size = 256) (X : List UInt8) (hX : X.length = 504) : ∃ y : List Int16,
    Runs (Avx.rej_uniform_avx r (Mem.ofList X)) (fun s => s.1.Holds 0 y ∧ s.2 = y.length) ∧
    Runs (rej_uniform r' 0 256 (Mem.ofList X) X.length) (fun s => s.1.Holds 0 y ∧ s.2 = y.length) := by
  refine ⟨((accepted X).take 256).map fun d : Nat => i16 (d : Int), (Avx.rej_uniform_avx_runs hr (Mem.holds_ofList X) hX).mono fun s hs => ⟨hs.2.1, ?_⟩,
    (rej_uniform_runs (Mem.holds_ofList X) rfl (by omega)).mono fun s hs => ⟨hs.1.holds, ?_⟩⟩
  · rw [hs.2.2, List.length_map]; rfl
  · rw [hs.2, List.length_map]

/-- C45. The scalar `rej_uniform` of the AVX2 code does the same as that of the reference code if the buffer has at least three bytes. -/
theorem C45_scalar (r : Mem Int16) (ro len : Nat) (buf : Mem UInt8) (buflen : Nat) (h3 : 3 ≤ buflen) (h32 : buflen < 2 ^ 32) :
    Avx.rej_uniform r ro len buf buflen = rej_uniform r ro len buf buflen := Avx.rej_uniform_eq h3 h32

/-- C45. A defect of the source, not reachable from the callers, which pass whole blocks: for fewer than three bytes `buflen - 3` wraps around and the loop reads outside of
the buffer, where the reference code does nothing. -/
theorem C45_scalar_underflow (X : List UInt8) (hX : X.length < 3) (r : Mem Int16) (ro len : Nat) (hlen : 0 < len) :
    Avx.rej_uniform r ro len (Mem.ofList X) X.length = .ub .oob ∧ Runs (rej_uniform r ro len (Mem.ofList X) X.length) (fun s => s = (r, 0)) := by
  have oob : ∀ i, X.length ≤ i → rd (Mem.ofList X) i = .ub .oob := fun i hi => by
    unfold rd; rw [Array.getElem?_eq_none (by rw [Mem.size_ofList]; exact hi)]
  constructor
  · unfold Avx.rej_uniform
    refine Avx.ub_bind ?_
    unfold cwhile
    rw [if_pos (by simp only [Bool.and_eq_true, decide_eq_true_eq]; omega)]
    refine Avx.bind_ub_of (P := fun _ => True) trivial fun _ _ => Avx.ub_bind ?_
    match X, hX with
    | [], _ => exact Avx.ub_bind (oob _ (by simp))
    | [a], _ => exact Avx.bind_ub_of (P := fun _ => True) trivial fun _ _ => Avx.ub_bind (oob _ (by simp))
    | [a, b], _ =>
      refine Avx.bind_ub_of (P := fun _ => True) trivial fun _ _ => Avx.bind_ub_of (P := fun _ => True) trivial fun _ _ => ?_
      exact Avx.bind_ub_of (P := fun _ => True) trivial fun _ _ => Avx.ub_bind (oob _ (by simp))
  · unfold rej_uniform
    rw [runs_bind]
    unfold cwhile
    rw [if_neg (by simp only [Bool.and_eq_true, decide_eq_true_eq]; omega), runs_bind, runs_leak, runs_pure, runs_pure]

/-- Two cases: 504 bytes all of whose candidates are rejected, and two bytes for the scalar function. -/
example : Runs (Avx.rej_uniform_avx (Mem.uninit Int16 256) (Mem.ofList (List.replicate 504 0xFF))) (fun s => s.2 = 0) := by
  refine (C45_rej_uniform_avx _ (Mem.size_uninit _) _ List.length_replicate).mono fun s hs => ?_
  obtain ⟨y, h1, _, _, h2⟩ := hs
  have : ((twelveBit (List.replicate 504 0xFF)).filter (· < 3329)) = [] := by
    rw [← accepted_twelveBit]; decide +kernel
  rw [this] at h1
  have h3 : y = [] := by simpa using h1
  rw [h2, h3]; rfl
example : Avx.rej_uniform (Mem.uninit Int16 256) 0 256 (Mem.ofList [1, 2]) 2 = .ub .oob := (C45_scalar_underflow [1, 2] (by decide) _ _ _ (by decide)).1

/-! ## C46: the matrix -/

/-- Entry `(i, j)` of the array holds exactly the canonical representatives 0 ≤ x < q of the coefficients of `f`, in the order of the AVX2 code. -/
def avxEntryIs (a : Array Polyvec) (i j : Nat) (f : Rq) : Prop := ∃ v q, a[i]? = some v ∧ v[j]? = some q ∧ q.size = 256 ∧
  ∀ m : Fin 256, ∃ x : Int16, q[m.val]? = some (some x) ∧ x.toInt = (f (avxPos m)).val

/-- Such an entry is in the range of the arithmetic functions. -/
theorem avxEntryIs.range {a : Array Polyvec} {i j : Nat} {f : Rq} (h : avxEntryIs a i j f) : ∃ v q, a[i]? = some v ∧ v[j]? = some q ∧ q.size = 256 ∧
    ∀ m : Fin 256, ∃ x : Int16, q[m.val]? = some (some x) ∧ ((x.toInt : Int) : Zq) = f (avxPos m) ∧ 0 ≤ x.toInt ∧ x.toInt < 3329 := by
  obtain ⟨v, q, h1, h2, h3, h4⟩ := h
  refine ⟨v, q, h1, h2, h3, fun m => ?_⟩
  obtain ⟨x, h5, h6⟩ := h4 m
  have hv := ZMod.val_lt (f (avxPos m))
  refine ⟨x, h5, ?_, by omega, by omega⟩
  rw [h6]
  simp

/-- C46. If SampleNTT finishes within `112 + 56 fuel` iterations for every entry, then `gen_matrix` of the AVX2 code returns the k×k matrix with entry
`(i, j)` = SampleNTT(ρ ‖ j ‖ i), or SampleNTT(ρ ‖ i ‖ j) for the transposed one, whatever the uninitialised bytes are that the gather instructions read. -/
theorem C46_gen_matrix (p : ParamSet) (junk : Fin 4 → Nat → UInt8) (fuel : Nat) (ρ : List UInt8) (hl : ρ.length = 32) (tr : Bool) (A : Nat → Nat → Rq)
    (hA : ∀ i < (fips p).k, ∀ j < (fips p).k, SampleNTT (112 + 56 * fuel) (ρ ++ [UInt8.ofNat j, UInt8.ofNat i]) = some (A i j)) :
    Runs (Avx.gen_matrix p junk fuel (Matrix.uninit p) (Mem.ofList ρ) 0 tr)
      (fun a => a.size = (fips p).k ∧ ∀ i < (fips p).k, ∀ j < (fips p).k, avxEntryIs a i j (if tr then A j i else A i j)) := by
  have hk : (fips p).k = KYBER_K p := by cases p <;> rfl
  rw [hk] at hA ⊢
  have h := Avx.gen_matrix_runsG (junk := junk) (fuel := fuel) (ρ := ρ) tr (matSz_uninit p) (Mem.holds_ofList ρ) hl
  have hs : ∀ i, i < KYBER_K p → ∀ j, j < KYBER_K p → SampleNTT (iters fuel) (entrySeed ρ tr i j) = some (if tr then A j i else A i j) := by
    intro i hi j hj
    unfold entrySeed
    cases tr
    · exact hA i hi j hj
    · exact hA j hj i hi
  refine (h.1 fun i hi j hj => by rw [hs i hi j hj]; rfl).mono fun a ha => ⟨ha.mat.size, fun i hi j hj => ?_⟩
  obtain ⟨v, q, hv, hq, hsz, hc⟩ := ha.ent i j hi hj trivial
  rw [hs i hi j hj, Option.getD_some] at hc
  refine ⟨v, q, hv, hq, hsz, fun m => ?_⟩
  obtain ⟨x, h1, h2⟩ := hc m.val m.isLt
  refine ⟨x, h1, ?_⟩
  rw [h2, ext_lt _ (Avx.nttIdx_lt m.isLt)]
  rfl

/-- A case: the seed of the key pair for d = 0 and k = 2, with one extra block per entry. -/
example (junk : Fin 4 → Nat → UInt8) (tr : Bool) : ∃ A : Nat → Nat → Rq, Runs (Avx.gen_matrix .k2 junk 1 (Matrix.uninit .k2) (Mem.ofList katRho) 0 tr)
    (fun a => a.size = 2 ∧ ∀ i < 2, ∀ j < 2, avxEntryIs a i j (if tr then A j i else A i j)) := by
  obtain ⟨A, hA⟩ := kat_expandA
  obtain ⟨hs, rfl⟩ := expandA_some.1 hA
  refine ⟨fun i j => (SampleNTT 168 (katRho ++ [UInt8.ofNat j, UInt8.ofNat i])).getD 0, C46_gen_matrix .k2 junk 1 katRho rfl tr _ fun i hi j hj => ?_⟩
  obtain ⟨f, hf⟩ := Option.isSome_iff_exists.1 (hs i hi j hj)
  show SampleNTT 168 _ = some ((SampleNTT 168 _).getD 0)
  rw [hf]
  rfl

/-- C46. If some entry needs more iterations, the loop is still running. -/
theorem C46_diverges (p : ParamSet) (junk : Fin 4 → Nat → UInt8) (fuel : Nat) (ρ : List UInt8) (hl : ρ.length = 32) (tr : Bool) (i j : Nat) (hi : i < (fips p).k)
    (hj : j < (fips p).k) (hA : SampleNTT (112 + 56 * fuel) (ρ ++ [UInt8.ofNat j, UInt8.ofNat i]) = none) :
    Avx.gen_matrix p junk fuel (Matrix.uninit p) (Mem.ofList ρ) 0 tr = .diverge := by
  have hk : (fips p).k = KYBER_K p := by cases p <;> rfl
  rw [hk] at hi hj
  refine (Avx.gen_matrix_runsG (junk := junk) (fuel := fuel) (ρ := ρ) tr (matSz_uninit p) (Mem.holds_ofList ρ) hl).2 fun h => ?_
  cases tr
  · have := h i hi j hj
    unfold entrySeed iters at this
    rw [if_neg (by simp), hA] at this
    simp at this
  · have := h j hj i hi
    unfold entrySeed iters at this
    rw [if_pos rfl, hA] at this
    simp at this

/-! ## C47: noise -/

/-- The array holds exactly the polynomial, with coefficients in [-3, 3]. -/
def noiseIs (q : Mem Int16) (f : Rq) : Prop := ∃ y, q = polyMem y ∧ residues y = f ∧ ∀ i, -3 ≤ (y i).toInt ∧ (y i).toInt ≤ 3

theorem noiseIs_of {q : Mem Int16} {f : Rq} (h : PolyR q f 3) : noiseIs q f := h.exists

theorem uninit_of {α : Type} {m : C α} (h : (match m with | .ub .uninit => true | _ => false) = true) : m = .ub .uninit := by
  cases m with
  | ok v t => cases h
  | ub u => cases u <;> first | rfl | cases h
  | diverge => cases h

/-- C47. `poly_getnoise_eta1_4x`: the four polynomials are SamplePolyCBD_η₁(PRF_η₁(σ, nonce)) for the four nonces. -/
theorem C47_getnoise_eta1_4x (p : ParamSet) (junk : Fin 4 → Nat → UInt8) (r : Fin 4 → Mem Int16) (hr : ∀ j, (r j).size = 256) (seed : Mem UInt8) (so : Nat)
    (σ : List UInt8) (hs : seed.Holds so σ) (hl : σ.length = 32) (nonce : Fin 4 → UInt8) :
    Runs (Avx.poly_getnoise_eta1_4x p junk r seed so nonce)
      (fun q => ∀ j, noiseIs (q j) (SamplePolyCBD (fips p).η₁ (PRF (fips p).η₁ σ (nonce j)))) := by
  refine (Avx.getnoise_eta1_4x_runs (n := fun j => (nonce j).toNat) hr hs hl (fun j => by simp)).mono fun q hq j => ?_
  have := noiseIs_of (hq j)
  unfold noise at this
  simpa using this

/-- C47. `poly_getnoise_eta1122_4x`: two polynomials with η₁ and two with η₂. -/
theorem C47_getnoise_eta1122_4x (p : ParamSet) (junk : Fin 4 → Nat → UInt8) (r : Fin 4 → Mem Int16) (hr : ∀ j, (r j).size = 256) (seed : Mem UInt8) (so : Nat)
    (σ : List UInt8) (hs : seed.Holds so σ) (hl : σ.length = 32) (nonce : Fin 4 → UInt8) :
    Runs (Avx.poly_getnoise_eta1122_4x p junk r seed so nonce) (fun q =>
      noiseIs (q 0) (SamplePolyCBD (fips p).η₁ (PRF (fips p).η₁ σ (nonce 0))) ∧ noiseIs (q 1) (SamplePolyCBD (fips p).η₁ (PRF (fips p).η₁ σ (nonce 1))) ∧
      noiseIs (q 2) (SamplePolyCBD (fips p).η₂ (PRF (fips p).η₂ σ (nonce 2))) ∧ noiseIs (q 3) (SamplePolyCBD (fips p).η₂ (PRF (fips p).η₂ σ (nonce 3)))) := by
  refine (Avx.getnoise_eta1122_4x_runs (n := fun j => (nonce j).toNat) hr hs hl (fun j => by simp)).mono fun q hq => ?_
  have e : (fips p).η₂ = 2 := by cases p <;> rfl
  obtain ⟨h0, h1, h2, h3⟩ := hq
  unfold noise at h0 h1 h2 h3
  simp only [UInt8.ofNat_toNat] at h0 h1 h2 h3
  rw [e]
  exact ⟨noiseIs_of h0, noiseIs_of h1, noiseIs_of h2, noiseIs_of h3⟩

/-- C47. `poly_getnoise_eta2`. -/
theorem C47_getnoise_eta2 (p : ParamSet) (r : Mem Int16) (hr : r.size = 256) (seed : Mem UInt8) (so : Nat) (σ : List UInt8) (hs : seed.Holds so σ) (hl : σ.length = 32)
    (nonce : UInt8) : Runs (Avx.poly_getnoise_eta2 r seed so nonce) (fun q => noiseIs q (SamplePolyCBD (fips p).η₂ (PRF (fips p).η₂ σ nonce))) := by
  have e : (fips p).η₂ = 2 := by cases p <;> rfl
  have h := Avx.getnoise_eta2_avx_runs hr hs hl nonce.toNat
  unfold noise at h
  simp only [UInt8.ofNat_toNat] at h
  rw [e]
  exact h.mono fun q hq => noiseIs_of hq

/-- A case: four different nonces. -/
example (junk : Fin 4 → Nat → UInt8) : Runs (Avx.poly_getnoise_eta1_4x .k2 junk (fun _ => Mem.uninit Int16 256) (Mem.ofList katRho) 0 fun j => UInt8.ofNat j.val)
    (fun q => ∀ j : Fin 4, noiseIs (q j) (SamplePolyCBD 3 (PRF 3 katRho (UInt8.ofNat j.val)))) :=
  C47_getnoise_eta1_4x .k2 junk _ (fun _ => Mem.size_uninit _) _ 0 katRho (Mem.holds_ofList _) rfl _

/-- C47. A defect of the source, in a function that only test_speed.c calls: for K = 2, `poly_getnoise_eta1` (one polynomial) leaves the last 32 bytes of its buffer uninitialised, and
`poly_cbd_eta1` reads eight of them. -/
theorem C47_getnoise_eta1_uninit :
    Avx.poly_getnoise_eta1 .k2 (Mem.uninit Int16 256) (Mem.ofList (List.replicate 32 0)) 0 0 = .ub .uninit := by
  refine uninit_of ?_
  decide +kernel

end Verif.Props
