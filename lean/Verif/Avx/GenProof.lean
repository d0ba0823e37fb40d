import Verif.Avx.RejProof2
import Verif.Avx.Fips202x4Proof
import Verif.Avx.PolyvecPack
import Verif.Avx.GenW
import Verif.Proof.GenMatrix

/-! # Expansion of the public matrix in the AVX2 code -/

namespace Verif.Avx
open Verif.Spec Verif.Proof
open Verif.Model (ParamSet KYBER_K KYBER_N KYBER_K Poly Polyvec SHAKE128_RATE KeccakState)

theorem each4_runs {α : Type} {f : Fin 4 → C α} {Q : Fin 4 → α → Prop} (h : ∀ j, Runs (f j) (Q j)) : Runs (each4 f) (fun v => ∀ j, Q j (v j)) := by
  unfold each4
  rw [runs_bind]
  refine (h 0).mono fun a ha => ?_
  rw [runs_bind]
  refine (h 1).mono fun b hb => ?_
  rw [runs_bind]
  refine (h 2).mono fun c hc => ?_
  rw [runs_bind]
  refine (h 3).mono fun d hd => ?_
  rw [runs_pure]
  intro j
  match j with
  | 0 => exact ha
  | 1 => exact hb
  | 2 => exact hc
  | 3 => exact hd

/-- For the buffer lengths that occur the loop test is that of the reference code. -/
theorem rej_uniform_eq {r : Poly} {ro len : Nat} {buf : Mem UInt8} {buflen : Nat} (h3 : 3 ≤ buflen) (h32 : buflen < 2 ^ 32) :
    rej_uniform r ro len buf buflen = Verif.Model.rej_uniform r ro len buf buflen := by
  unfold rej_uniform Verif.Model.rej_uniform
  have e : (buflen + 2 ^ 32 - 3) % 2 ^ 32 = buflen - 3 := by omega
  rw [e]
  have : (fun (s : Poly × Nat × Nat) => decide (s.2.1 < len) && decide (s.2.2 ≤ buflen - 3)) = fun s => decide (s.2.1 < len) && decide (s.2.2 + 3 ≤ buflen) :=
    funext fun s => by
      rw [show decide (s.2.2 ≤ buflen - 3) = decide (s.2.2 + 3 ≤ buflen) from decide_eq_decide.mpr (by omega)]
  rw [this]

theorem ListR.rej {X : List UInt8} {r : Mem Int16} {c : Nat} (h : ListR (sampled X) r c) : RejR r 0 256 X r c := ⟨⟨rfl, h.2.1, fun _ _ => rfl⟩, h.2.2⟩

theorem ListR.both {X : List UInt8} {s : Poly × Nat} (h : ListR (sampled X) s.1 s.2) : s.1.size = 256 ∧ RejR s.1 0 256 X s.1 s.2 := ⟨h.1, h.rej⟩

/-! ## Matrix entries -/

/-- Entry `(i, j)` satisfies `P`. -/
def EntryP (a : Array Polyvec) (i j : Nat) (P : Mem Int16 → Prop) : Prop := ∃ v q, a[i]? = some v ∧ v[j]? = some q ∧ P q

/-- A polynomial object holding exactly the canonical representatives of the coefficients of `f`, in the order of the vector code. -/
def PolyCanV (r : Mem Int16) (f : Rq) : Prop := r.size = 256 ∧ ∀ m, m < 256 → ∃ x : Int16, r[m]? = some (some x) ∧ x.toInt = (ext f (nttIdx m)).val

theorem PolyCanV.toV {r : Mem Int16} {f : Rq} (h : PolyCanV r f) : PolyV r f 3328 := by
  refine ⟨h.1, fun i hi => ?_⟩
  obtain ⟨x, h1, h2⟩ := h.2 i hi
  have hv := ZMod.val_lt (ext f (nttIdx i))
  refine ⟨x, h1, ?_, by omega, by omega⟩
  unfold zq
  rw [h2]
  simp

theorem poly_nttunpack_can {r : Mem Int16} {f : Rq} (h : PolyCan r f) : Runs (poly_nttunpack r) (fun r' => PolyCanV r' f) := by
  have hx : ∃ x : Nat → Int16, r.Has 0 256 x ∧ ∀ i, i < 256 → (x i).toInt = (ext f i).val := by
    refine ⟨fun i => (r[i]?.getD none).getD 0, fun i hi => ?_, fun i hi => ?_⟩
    · obtain ⟨x, h1, _⟩ := h.2 ⟨i, hi⟩
      dsimp only at h1
      rw [Nat.zero_add]
      dsimp only
      rw [h1]
      rfl
    · obtain ⟨x, h1, h2⟩ := h.2 ⟨i, hi⟩
      dsimp only at h1 ⊢
      rw [h1, ext_lt _ hi]
      exact h2
  obtain ⟨x, hx, hf⟩ := hx
  refine (poly_nttunpack_exact h.1 hx).mono fun r' hr' => ⟨hr'.1, fun m hm => ⟨_, ?_, hf _ (nttIdx_lt hm)⟩⟩
  have := hr'.2 m hm
  rwa [Nat.zero_add] at this

/-- The entries in `D` are those of `F`, in the order of the vector code. -/
structure Done (k : Nat) (F : Nat → Nat → Rq) (D : Nat → Nat → Prop) (a : Array Polyvec) : Prop where
  mat : MatSz k a
  ent : ∀ i j, i < k → j < k → D i j → EntryP a i j (fun q => PolyCanV q (F i j))

theorem getM_runs {k : Nat} {a : Array Polyvec} (h : MatSz k a) {ij : Nat × Nat} (hi : ij.1 < k) (hj : ij.2 < k) : Runs (getM a ij) (fun q => q.size = 256) := by
  obtain ⟨v, hv, hs⟩ := h.row _ hi
  obtain ⟨q, hq, hqs⟩ := hs.get _ hj
  unfold getM
  rw [runs_bind, runs_at]
  refine ⟨v, hv, ?_⟩
  rw [runs_at]
  exact ⟨q, hq, hqs⟩

theorem putM_runs {k : Nat} {F : Nat → Nat → Rq} {D : Nat → Nat → Prop} {a : Array Polyvec} (h : Done k F D a) {ij : Nat × Nat} (hi : ij.1 < k) (hj : ij.2 < k)
    {q : Poly} (hq : PolyCanV q (F ij.1 ij.2)) : Runs (putM a ij q) (Done k F fun i j => D i j ∨ (i = ij.1 ∧ j = ij.2)) := by
  obtain ⟨v, hv, hs⟩ := h.mat.row _ hi
  unfold putM
  rw [runs_bind, runs_at]
  refine ⟨v, hv, ?_⟩
  rw [runs_bind, runs_put]
  refine ⟨by rw [hs.size]; exact hj, ?_⟩
  rw [runs_put]
  refine ⟨by rw [h.mat.size]; exact hi, h.mat.set hi hj hv hq.1, fun i j hi' hj' hD => ?_⟩
  by_cases e : i = ij.1
  · subst e
    by_cases e' : j = ij.2
    · subst e'
      exact ⟨_, q, arr_set_self (by rw [h.mat.size]; exact hi), arr_set_self (by rw [hs.size]; exact hj), hq⟩
    · obtain ⟨v', q', h1, h2, h3⟩ := h.ent _ j hi' hj' (by rcases hD with hD | hD; exact hD; exact absurd hD.2 e')
      rw [hv] at h1
      cases h1
      refine ⟨_, q', arr_set_self (by rw [h.mat.size]; exact hi), ?_, h3⟩
      rw [Array.getElem?_setIfInBounds_ne (by omega)]
      exact h2
  · obtain ⟨v', q', h1, h2, h3⟩ := h.ent i j hi' hj' (by rcases hD with hD | hD; exact hD; exact absurd hD.1 e)
    refine ⟨v', q', ?_, h2, h3⟩
    rw [Array.getElem?_setIfInBounds_ne (Ne.symm e)]
    exact h1

/-! ## The refill loop for four entries -/

/-- What is known between the iterations, `m` blocks having been squeezed. -/
structure Gen4 (r : Fin 4 → Mem Int16) (B0 : Fin 4 → List UInt8) (m : Nat) (s : (Fin 4 → Poly × Nat) × M4 × Mem V4) : Prop where
  rej : ∀ j, RejR (r j) 0 256 (kout 168 (B0 j) 0 (m * 168)) (s.1 j).1 (s.1 j).2
  buf : ∀ j, (s.2.1 j).size = 504
  st : Sq4 B0 m s.2.2

theorem fin4_all {P : Fin 4 → Prop} : (∀ j, P j) ↔ P 0 ∧ P 1 ∧ P 2 ∧ P 3 :=
  ⟨fun h => ⟨h 0, h 1, h 2, h 3⟩, fun ⟨a, b, c, d⟩ j => by match j with | 0 => exact a | 1 => exact b | 2 => exact c | 3 => exact d⟩

theorem refill4_runsG {r : Fin 4 → Mem Int16} {B0 : Fin 4 → List UInt8} (hr : ∀ j, (r j).size = 256)
    {body : (Fin 4 → Poly × Nat) × M4 × Mem V4 → C ((Fin 4 → Poly × Nat) × M4 × Mem V4)}
    (hb : ∀ m s, Gen4 r B0 m s → Runs (body s) (Gen4 r B0 (m + 1))) :
    ∀ (F m : Nat) (s : (Fin 4 → Poly × Nat) × M4 × Mem V4), Gen4 r B0 m s →
      RunsG (∀ j, (sampled (kout 168 (B0 j) 0 ((m + F) * 168))).length = 256)
        (cwhile (F + 1) (fun s => decide ((s.1 0).2 < KYBER_N) || decide ((s.1 1).2 < KYBER_N) || decide ((s.1 2).2 < KYBER_N) || decide ((s.1 3).2 < KYBER_N)) body s)
        (fun s => (∀ j, PolyCan (s.1 j).1 (rqOf (sampled (kout 168 (B0 j) 0 ((m + F) * 168))))) ∧ (∀ j, (s.2.1 j).size = 504) ∧ s.2.2.size = 25) := by
  have hN : KYBER_N = 256 := rfl
  have le : ∀ X, (sampled X).length ≤ 256 := fun X => by unfold sampled; rw [List.length_take]; omega
  have cond : ∀ {m s}, Gen4 r B0 m s → ((decide ((s.1 0).2 < KYBER_N) || decide ((s.1 1).2 < KYBER_N) || decide ((s.1 2).2 < KYBER_N) ||
      decide ((s.1 3).2 < KYBER_N)) = true ↔ ¬ ∀ j, (sampled (kout 168 (B0 j) 0 (m * 168))).length = 256) := by
    intro m s h
    have e := fun j => sampled_len (h.rej j)
    have l := fun j => le (kout 168 (B0 j) 0 (m * 168))
    rw [fin4_all] at *
    simp only [Bool.or_eq_true, decide_eq_true_eq]
    omega
  have stop : ∀ (d m : Nat), (∀ j, (sampled (kout 168 (B0 j) 0 (m * 168))).length = 256) →
      ∀ j, sampled (kout 168 (B0 j) 0 ((m + d) * 168)) = sampled (kout 168 (B0 j) 0 (m * 168)) := by
    intro d m h j
    have h := h j
    unfold sampled at *
    rw [Nat.add_mul, kout_add, accepted_append (m * 56) _ _ (by rw [kout_length]; omega), List.take_append_of_le_length]
    rw [List.length_take] at h; omega
  have fin : ∀ {m s}, Gen4 r B0 m s → (∀ j, (sampled (kout 168 (B0 j) 0 (m * 168))).length = 256) →
      (∀ j, PolyCan (s.1 j).1 (rqOf (sampled (kout 168 (B0 j) 0 (m * 168))))) ∧ (∀ j, (s.2.1 j).size = 504) ∧ s.2.2.size = 25 :=
    fun h hl => ⟨fun j => PolyCan.of_rej (hr j) (h.rej j) (by rw [sampled_len (h.rej j)]; exact hl j), h.buf, RB4.size h.st⟩
  intro F
  induction F with
  | zero =>
    intro m s h
    unfold cwhile
    by_cases hc : ∀ j, (sampled (kout 168 (B0 j) 0 (m * 168))).length = 256
    · rw [if_neg (by rw [cond h]; exact not_not.mpr hc)]
      refine ⟨fun _ => ?_, fun g => absurd hc g⟩
      rw [runs_bind, runs_leak]
      exact fin h hc
    · rw [if_pos ((cond h).mpr hc)]
      refine ⟨fun g => absurd g hc, fun _ => ?_⟩
      refine Runs.bind_diverge (P := fun _ => True) trivial fun _ _ => ?_
      exact (hb m s h).bind_diverge fun _ _ => rfl
  | succ F ih =>
    intro m s h
    rw [cwhile]
    by_cases hc : ∀ j, (sampled (kout 168 (B0 j) 0 (m * 168))).length = 256
    · rw [if_neg (by rw [cond h]; exact not_not.mpr hc)]
      have e := stop (F + 1) m hc
      simp only [e]
      refine ⟨fun _ => ?_, fun g => absurd hc g⟩
      rw [runs_bind, runs_leak]
      exact fin h hc
    · rw [if_pos ((cond h).mpr hc)]
      refine Runs.bindG (P := fun _ => True) trivial fun _ _ => ?_
      refine Runs.bindG (hb m s h) fun s' hs' => ?_
      have := ih (m + 1) s' hs'
      rwa [show m + 1 + F = m + (F + 1) from by omega] at this

theorem nblocks_avx : REJ_UNIFORM_AVX_NBLOCKS = 3 := by decide
theorem rate128 : SHAKE128_RATE = 168 := rfl

/-- The four buffers before absorbing. -/
theorem seed_runs {buf : Mem UInt8} {ρ : List UInt8} (hb : 34 ≤ buf.size) (hl : ρ.length = 32) {f : Nat → UInt8} (hf : ∀ i (h : i < ρ.length), f i = ρ[i]) (x y : UInt8)
    {b1 : Mem UInt8} (h1 : buf.Upd b1 0 32 f) :
    Runs (do let b ← wr b1 32 x; wr b 33 y) (fun b => b.size = buf.size ∧ b.Holds 0 (ρ ++ [x, y])) := by
  have w1 : buf.Wrote b1 0 ρ := h1.wrote_of hl hf
  rw [runs_bind]
  refine (runs_wr_str (i := 32) x (by rw [h1.size]; omega)).mono fun b2 w2 => ?_
  refine (runs_wr_str (i := 33) y (by rw [w2.size, h1.size]; omega)).mono fun b3 w3 => ?_
  have w12 : buf.Wrote b2 0 (ρ ++ [x]) := w1.append (by rwa [hl, Nat.zero_add])
  have w123 : buf.Wrote b3 0 (ρ ++ [x] ++ [y]) := w12.append (by rwa [List.length_append, hl, Nat.zero_add])
  rw [List.append_assoc] at w123
  exact ⟨w123.size, w123.holds⟩

/-- The refill step of one entry. -/
theorem rej_step {r q : Poly} {B : List UInt8} {m c : Nat} {buf : Mem UInt8} (hr : r.size = 256) (h : RejR r 0 256 (kout 168 B 0 (m * 168)) q c)
    (hb : buf.Holds 0 (kout 168 B (m * 168) 168)) :
    Runs (do let (q, n) ← rej_uniform q c (KYBER_N - c) buf SHAKE128_RATE; pure (q, c + n))
      (fun s => RejR r 0 256 (kout 168 B 0 ((m + 1) * 168)) s.1 s.2) := by
  have hN : KYBER_N = 256 := rfl
  rw [rej_uniform_eq (by decide) (by decide), rate128, runs_bind]
  have hc : c ≤ 256 := by rw [h.2, List.length_take]; omega
  refine (rej_uniform_runs (r := q) (ro := c) (len := 256 - c) hb (kout_length ..) (by rw [h.1.size]; omega)).mono fun w hw => ?_
  obtain ⟨q2, c2⟩ := w
  rw [runs_pure, Nat.add_mul, kout_add]
  refine RejR.append (n := m * 56) (by rw [kout_length]; omega) h ?_
  rw [Nat.zero_add, Nat.zero_add, Nat.one_mul]
  exact hw

/-- What is needed of the rejection sampling. -/
def RejSpec (rej : Rej) : Prop := ∀ {r : Poly} {buf : Mem UInt8} {X : List UInt8}, r.size = 256 → buf.Holds 0 X → X.length = 504 → Runs (rej r buf) (fun s => ListR (sampled X) s.1 s.2)

theorem rejSpec_avx : RejSpec rej_uniform_avx := fun hr hX hl => rej_uniform_avx_runs hr hX hl

section
variable {rej : Rej} (hrej : RejSpec rej)
include hrej

theorem gen_batchW_runsG {junk : Fin 4 → Nat → UInt8} {fuel k : Nat} {tr : Bool} {a : Array Polyvec} {buf : M4} {st : Mem V4} {seed : Mem UInt8} {so : Nat} {ρ : List UInt8}
    {pos : Fin 4 → Nat × Nat} {tt nt : Fin 4 → UInt8 × UInt8} {D : Nat → Nat → Prop} {F : Nat → Nat → Rq}
    (hF : ∀ i j, F i j = (SampleNTT (iters fuel) (entrySeed ρ tr i j)).getD 0) (ha : Done k F D a) (hbuf : ∀ j, (buf j).size = 504) (hst : st.size = 25)
    (hρ : seed.Holds so ρ) (hl : ρ.length = 32) (hp : ∀ j, (pos j).1 < k ∧ (pos j).2 < k)
    (hxy : ∀ j, entrySeed ρ tr (pos j).1 (pos j).2 = ρ ++ [(if tr then tt j else nt j).1, (if tr then tt j else nt j).2]) :
    RunsG (∀ j, (SampleNTT (iters fuel) (entrySeed ρ tr (pos j).1 (pos j).2)).isSome)
      (gen_batchW rej junk fuel tr (a, buf, st) seed so pos tt nt)
      (fun s => Done k F (fun i j => D i j ∨ ∃ n, i = (pos n).1 ∧ j = (pos n).2) s.1 ∧ (∀ j, (s.2.1 j).size = 504) ∧ s.2.2.size = 25) := by
  unfold gen_batchW
  dsimp only
  refine Runs.bindG (loadu_runs (f := fun i => ρ.getD i 0) fun i hi => hρ.getElem? 0 (by omega)) fun f hf => ?_
  subst hf
  refine Runs.bindG (each4_runs fun j => storeu_runs (f := fun i => ρ.getD i 0) (by rw [hbuf]; omega)) fun b1 hb1 => ?_
  have hseed : Runs (cif tr
      (each4 fun j => do
        let b ← wr (b1 j) 32 (tt j).1
        wr b 33 (tt j).2)
      (each4 fun j => do
        let b ← wr (b1 j) 32 (nt j).1
        wr b 33 (nt j).2)) (fun b => ∀ j, (b j).size = 504 ∧ (b j).Holds 0 (entrySeed ρ tr (pos j).1 (pos j).2)) := by
    rw [runs_cif]
    have key : ∀ xy : Fin 4 → UInt8 × UInt8, Runs (each4 fun j => do
        let b ← wr (b1 j) 32 (xy j).1
        wr b 33 (xy j).2) (fun b => ∀ j, (b j).size = 504 ∧ (b j).Holds 0 (ρ ++ [(xy j).1, (xy j).2])) := fun xy =>
      (each4_runs fun j => seed_runs (buf := buf j) (by rw [hbuf]; omega) hl (fun i h => by
        rw [List.getD_eq_getElem?_getD, List.getElem?_eq_getElem h, Option.getD_some]) _ _ (hb1 j)).mono fun b hb j => by rw [← hbuf j]; exact hb j
    cases tr
    · refine ⟨fun h => absurd h (by simp), fun _ => (key nt).mono fun b hb j => ?_⟩
      rw [hxy]
      exact hb j
    · refine ⟨fun _ => (key tt).mono fun b hb j => ?_, fun h => absurd h (by simp)⟩
      rw [hxy]
      exact hb j
  refine Runs.bindG hseed fun b2 hb2 => ?_
  have hlen : ∀ j, (entrySeed ρ tr (pos j).1 (pos j).2).length = 34 := fun j => by rw [hxy, List.length_append, hl]; rfl
  refine Runs.bindG (shake128x4_absorb_once_runs hst (fun j => (hb2 j).2) hlen (fun j => by rw [(hb2 j).1]; decide)) fun st1 hst1 => ?_
  rw [nblocks_avx]
  refine Runs.bindG (shake128x4_squeezeblocks_runs (oo := 0) (nblocks := 3) hst1 (fun j => by rw [(hb2 j).1])) fun v hv => ?_
  obtain ⟨b3, st2⟩ := v
  obtain ⟨hb3, hst2⟩ := hv
  dsimp only at hb3 hst2 ⊢
  simp only [SampleNTT_eq, SHAKE128_eq] at hF ⊢
  generalize hB0 : (fun j => padded 168 0x1F (entrySeed ρ tr (pos j).1 (pos j).2)) = B0 at hst2
  have hBj : ∀ j, padded 168 0x1F (entrySeed ρ tr (pos j).1 (pos j).2) = B0 j := fun j => by rw [← hB0]
  simp only [hBj] at hb3 ⊢
  have hb3s : ∀ j, (b3 j).size = 504 := fun j => by rw [(hb3 j).size, (hb2 j).1]
  refine Runs.bindG (each4_runs (Q := fun j (s : Poly × Nat) => s.1.size = 256 ∧ RejR s.1 0 256 (kout 168 (B0 j) 0 (3 * 168)) s.1 s.2) fun j => ?_) fun r hr => ?_
  · rw [runs_bind]
    refine (getM_runs ha.mat (hp j).1 (hp j).2).mono fun q hq => ?_
    have := (hb3 j).holds
    rw [Nat.zero_mul] at this
    exact (hrej hq this (by rw [kout_length])).mono fun s => ListR.both
  rw [Nat.zero_add] at hst2
  have hg : Gen4 (fun j => (r j).1) B0 3 (r, b3, st2) := Gen4.mk (fun j => (hr j).2) hb3s hst2
  have body : ∀ m s, Gen4 (fun j => (r j).1) B0 m s → Runs
      ((fun (r, buf, state) => do
        let (buf, state) ← shake128x4_squeezeblocks buf 0 1 state
        let r ← each4 fun j => do
          let (q, n) ← rej_uniform (r j).1 (r j).2 (KYBER_N - (r j).2) (buf j) SHAKE128_RATE
          pure (q, (r j).2 + n)
        pure (r, buf, state) : (Fin 4 → Poly × Nat) × M4 × Mem V4 → C ((Fin 4 → Poly × Nat) × M4 × Mem V4)) s) (Gen4 (fun j => (r j).1) B0 (m + 1)) := by
    rintro m ⟨s, b, t⟩ ⟨h1, h2, h3⟩
    dsimp only at h1 h2 h3 ⊢
    rw [runs_bind]
    refine (shake128x4_squeezeblocks_runs (oo := 0) (nblocks := 1) h3 (fun j => by rw [h2]; omega)).mono fun v hv => ?_
    obtain ⟨b', t'⟩ := v
    obtain ⟨v1, v2⟩ := hv
    dsimp only at v1 v2 ⊢
    rw [runs_bind]
    refine (each4_runs fun j => rej_step (hr j).1 (h1 j) (by have := (v1 j).holds; rwa [Nat.one_mul] at this)).mono fun w hw => ?_
    rw [runs_pure]
    exact ⟨hw, fun j => by rw [(v1 j).size, h2], v2⟩
  have rest : ∀ (s : (Fin 4 → Poly × Nat) × M4 × Mem V4), ((∀ j, PolyCan (s.1 j).1 (F (pos j).1 (pos j).2)) ∧ (∀ j, (s.2.1 j).size = 504) ∧ s.2.2.size = 25) →
      Runs (do
        let q ← each4 fun j => poly_nttunpack (s.1 j).1
        let a ← putM a (pos 0) (q 0)
        let a ← putM a (pos 1) (q 1)
        let a ← putM a (pos 2) (q 2)
        let a ← putM a (pos 3) (q 3)
        pure (a, s.2.1, s.2.2)) (fun s => Done k F (fun i j => D i j ∨ ∃ n, i = (pos n).1 ∧ j = (pos n).2) s.1 ∧ (∀ j, (s.2.1 j).size = 504) ∧ s.2.2.size = 25) := by
    rintro s ⟨h1, h2, h3⟩
    rw [runs_bind]
    refine (each4_runs fun j => poly_nttunpack_can (h1 j)).mono fun q hq => ?_
    rw [runs_bind]
    refine (putM_runs ha (hp 0).1 (hp 0).2 (hq 0)).mono fun a1 ha1 => ?_
    rw [runs_bind]
    refine (putM_runs ha1 (hp 1).1 (hp 1).2 (hq 1)).mono fun a2 ha2 => ?_
    rw [runs_bind]
    refine (putM_runs ha2 (hp 2).1 (hp 2).2 (hq 2)).mono fun a3 ha3 => ?_
    rw [runs_bind]
    refine (putM_runs ha3 (hp 3).1 (hp 3).2 (hq 3)).mono fun a4 ha4 => ?_
    rw [runs_pure]
    refine ⟨⟨ha4.mat, fun i j hi hj hD => ha4.ent i j hi hj ?_⟩, h2, h3⟩
    rcases hD with hD | ⟨n, hn⟩
    · exact Or.inl (Or.inl (Or.inl (Or.inl hD)))
    · match n with
      | 0 => exact Or.inl (Or.inl (Or.inl (Or.inr hn)))
      | 1 => exact Or.inl (Or.inl (Or.inr hn))
      | 2 => exact Or.inl (Or.inr hn)
      | 3 => exact Or.inr hn
  cases fuel with
  | zero =>
    have hshort : ∀ B, ¬ (sampled (kout 168 B 0 (3 * iters 0))).length = 256 := fun B => by
      have h1 := accepted_length (kout 168 B 0 (3 * iters 0))
      rw [kout_length] at h1
      unfold sampled
      rw [List.length_take]
      have : iters 0 = 112 := rfl
      omega
    refine ⟨fun h => ?_, fun _ => rfl⟩
    have := h 0
    rw [if_neg (hshort _)] at this
    simp at this
  | succ n =>
    have e : 3 * iters (n + 1) = (3 + n) * 168 := by unfold iters; omega
    rw [e] at hF ⊢
    have h := refill4_runsG (fun j => (hr j).1) body n 3 (r, b3, st2) hg
    by_cases c : ∀ j, (sampled (kout 168 (B0 j) 0 ((3 + n) * 168))).length = 256
    · refine ⟨fun _ => ?_, fun g => absurd (fun j => by rw [if_pos (c j)]; rfl) g⟩
      rw [runs_bind]
      refine (h.1 c).mono fun s hs => rest s ⟨fun j => ?_, hs.2⟩
      rw [hF, hBj, if_pos (c j)]
      exact hs.1 j
    · refine ⟨fun g => absurd (fun j => ?_) c, fun _ => ?_⟩
      · have := g j
        by_contra hn
        rw [if_neg hn] at this
        simp at this
      · rw [h.2 c]
        rfl

/-! ## The entry that is sampled alone (K = 3) -/

theorem gen_lastW_runsG {fuel : Nat} {tr : Bool} {a : Array Polyvec} {buf0 seed : Mem UInt8} {so : Nat} {ρ : List UInt8} {D : Nat → Nat → Prop} {F : Nat → Nat → Rq}
    (hF : ∀ i j, F i j = (SampleNTT (iters fuel) (entrySeed ρ tr i j)).getD 0) (ha : Done 3 F D a) (hbuf : buf0.size = 504)
    (hρ : seed.Holds so ρ) (hl : ρ.length = 32) :
    RunsG ((SampleNTT (iters fuel) (entrySeed ρ tr 2 2)).isSome) (gen_lastW rej fuel a buf0 seed so) (Done 3 F fun i j => D i j ∨ (i = 2 ∧ j = 2)) := by
  have hxy : entrySeed ρ tr 2 2 = ρ ++ [2, 2] := by unfold entrySeed; cases tr <;> rfl
  have hF2 := hF 2 2
  rw [hxy] at hF2 ⊢
  unfold gen_lastW
  refine Runs.bindG (loadu_runs (f := fun i => ρ.getD i 0) fun i hi => hρ.getElem? 0 (by omega)) fun f hf => ?_
  subst hf
  refine Runs.bindG (storeu_runs (m := buf0) (o := 0) (f := fun i => ρ.getD i 0) (by omega)) fun b1 hb1 => ?_
  have hs := seed_runs (buf := buf0) (ρ := ρ) (by omega) hl (fun i h => by rw [List.getD_eq_getElem?_getD, List.getElem?_eq_getElem h, Option.getD_some]) 2 2 hb1
  rw [runs_bind] at hs
  refine Runs.bindG hs fun b2 hb2 => ?_
  refine Runs.bindG hb2 fun b3 hb3 => ?_
  obtain ⟨hb3s, hb3⟩ := hb3
  refine Runs.bindG (shake128_absorb_once_runs (by unfold KeccakState.uninit; exact Mem.size_uninit _) hb3 (by rw [List.length_append, hl]; rfl)) fun st1 hst1 => ?_
  have hst1' : SqS 168 (padded 168 0x1F (ρ ++ [2, 2])) 0 st1 := SqS.start hst1 (by omega)
  rw [nblocks_avx]
  rw [SampleNTT_eq, SHAKE128_eq] at hF2 ⊢
  generalize padded 168 0x1F (ρ ++ [2, 2]) = B0 at hF2 hst1' ⊢
  refine Runs.bindG (shake128_squeezeblocks_runs (oo := 0) (nb := 3) (out := b3) hst1' rfl (by omega)) fun v hv => ?_
  obtain ⟨b4, st2⟩ := v
  obtain ⟨hb4, hst2⟩ := hv
  dsimp only at hb4 hst2 ⊢
  refine Runs.bindG (getM_runs ha.mat (ij := (2, 2)) (by decide) (by decide)) fun q hq => ?_
  refine Runs.bindG (hrej hq hb4.holds (by rw [kout_length])) fun w hw => ?_
  obtain ⟨q1, c1⟩ := w
  dsimp only at hw ⊢
  have hq1 := hw.1
  have hrej' := hw.rej
  have hg : GenR q1 B0 504 (q1, c1, b4, st2) := ⟨hrej', by dsimp only; rw [hb4.size]; omega, by simpa using hst2⟩
  have body : ∀ n (s : Poly × Nat × Mem UInt8 × KeccakState), n % 168 = 0 → GenR q1 B0 n s → s.2.1 < 256 → Runs
      ((fun (q, ctr0, buf0, state1x) => do
        let (buf0, state1x) ← Verif.Model.shake128_squeezeblocks buf0 0 1 state1x
        let (q, n) ← rej_uniform q ctr0 (KYBER_N - ctr0) buf0 SHAKE128_RATE
        pure (q, ctr0 + n, buf0, state1x) : Poly × Nat × Mem UInt8 × KeccakState → C (Poly × Nat × Mem UInt8 × KeccakState)) s) (GenR q1 B0 (n + 168)) := by
    rintro n ⟨a', ctr, buf', st'⟩ hn ⟨h1, h2, h3⟩ hlt
    dsimp only at h1 h2 h3 hlt ⊢
    rw [runs_bind]
    refine (shake128_squeezeblocks_runs (oo := 0) (nb := 1) (out := buf') h3 hn (by omega)).mono fun v hv => ?_
    obtain ⟨buf2, st2⟩ := v
    obtain ⟨v1, v3⟩ := hv
    dsimp only at v1 v3 ⊢
    rw [rej_uniform_eq (by decide) (by decide), rate128, runs_bind]
    have v2 := v1.holds
    refine (rej_uniform_runs (r := a') (ro := ctr) (len := 256 - ctr) v2 (by rw [kout_length]) (by rw [h1.1.size]; omega)).mono fun w hw => ?_
    obtain ⟨a2, c2⟩ := w
    refine ⟨?_, by dsimp only; rw [v1.size]; exact h2, ?_⟩
    · dsimp only at hw ⊢
      rw [kout_add]
      refine RejR.append (n := n / 3) (by rw [kout_length]; omega) h1 ?_
      rwa [Nat.zero_add, Nat.zero_add]
    · simpa using v3
  cases fuel with
  | zero =>
    have hshort : ¬ (sampled (kout 168 B0 0 (3 * iters 0))).length = 256 := by
      have h1 := accepted_length (kout 168 B0 0 (3 * iters 0))
      rw [kout_length] at h1
      unfold sampled
      rw [List.length_take]
      have : iters 0 = 112 := rfl
      omega
    rw [if_neg hshort]
    exact ⟨fun h => by simp at h, fun _ => rfl⟩
  | succ n =>
    have e : 3 * iters (n + 1) = 504 + 168 * n := by unfold iters; omega
    rw [e] at hF2 ⊢
    have h := refill_runsG hq1 body n 504 (q1, c1, b4, st2) rfl hg
    by_cases c : (sampled (kout 168 B0 0 (504 + 168 * n))).length = 256
    · rw [if_pos c] at hF2 ⊢
      refine ⟨fun _ => ?_, fun g => absurd rfl g⟩
      rw [runs_bind]
      refine (h.1 c).mono fun s hs => ?_
      rw [runs_bind]
      refine (poly_nttunpack_can hs.1).mono fun q2 hq2 => ?_
      refine putM_runs ha (ij := (2, 2)) (by decide) (by decide) ?_
      rw [hF2]
      exact hq2
    · rw [if_neg c]
      refine ⟨fun g => by simp at g, fun _ => ?_⟩
      rw [h.2 c]
      rfl

end

/-! ## The whole matrix -/

/-- A matrix whose entries are in the order of the vector code. -/
def MatV (k : Nat) (a : Array Polyvec) (A : Nat → Nat → Rq) : Prop := Done k A (fun _ _ => True) a

theorem MatV.vec {k : Nat} {a : Array Polyvec} {A : Nat → Nat → Rq} (h : MatV k a A) {i : Nat} (hi : i < k) :
    ∃ v, a[i]? = some v ∧ VecV k v (A i) 3328 := by
  obtain ⟨v, hv, hs⟩ := h.mat.row i hi
  refine ⟨v, hv, hs.size, fun j hj => ?_⟩
  obtain ⟨v', q, h1, h2, h3⟩ := h.ent i j hi hj trivial
  rw [hv] at h1
  cases h1
  exact ⟨q, h2, h3.toV⟩

theorem Done.mono {k : Nat} {F : Nat → Nat → Rq} {D D' : Nat → Nat → Prop} {a : Array Polyvec} (h : Done k F D a) (hD : ∀ i j, i < k → j < k → D' i j → D i j) :
    Done k F D' a := ⟨h.mat, fun i j hi hj hd => h.ent i j hi hj (hD i j hi hj hd)⟩

theorem grid2 {i j : Nat} (hi : i < 2) (hj : j < 2) :
    ∃ n : Fin 4, i = (q4 (0, 0) (0, 1) (1, 0) (1, 1) n).1 ∧ j = (q4 (0, 0) (0, 1) (1, 0) (1, 1) n : Nat × Nat).2 := by
  have h : ∀ i j : Fin 2, ∃ n : Fin 4, i.val = (q4 (0, 0) (0, 1) (1, 0) (1, 1) n).1 ∧ j.val = (q4 (0, 0) (0, 1) (1, 0) (1, 1) n : Nat × Nat).2 := by decide
  exact h ⟨i, hi⟩ ⟨j, hj⟩
theorem grid3 {i j : Nat} (hi : i < 3) (hj : j < 3) :
    ((∃ n : Fin 4, i = (q4 (0, 0) (0, 1) (0, 2) (1, 0) n).1 ∧ j = (q4 (0, 0) (0, 1) (0, 2) (1, 0) n : Nat × Nat).2) ∨
    (∃ n : Fin 4, i = (q4 (1, 1) (1, 2) (2, 0) (2, 1) n).1 ∧ j = (q4 (1, 1) (1, 2) (2, 0) (2, 1) n : Nat × Nat).2)) ∨ (i = 2 ∧ j = 2) := by
  have h : ∀ i j : Fin 3, ((∃ n : Fin 4, i.val = (q4 (0, 0) (0, 1) (0, 2) (1, 0) n).1 ∧ j.val = (q4 (0, 0) (0, 1) (0, 2) (1, 0) n : Nat × Nat).2) ∨
    (∃ n : Fin 4, i.val = (q4 (1, 1) (1, 2) (2, 0) (2, 1) n).1 ∧ j.val = (q4 (1, 1) (1, 2) (2, 0) (2, 1) n : Nat × Nat).2)) ∨ (i.val = 2 ∧ j.val = 2) := by decide
  exact h ⟨i, hi⟩ ⟨j, hj⟩
theorem grid4 {i j : Nat} (hj : j < 4) :
    ∃ n : Fin 4, i = (q4 (i, 0) (i, 1) (i, 2) (i, 3) n).1 ∧ j = (q4 (i, 0) (i, 1) (i, 2) (i, 3) n : Nat × Nat).2 := by
  match j, hj with
  | 0, _ => exact ⟨0, rfl, rfl⟩
  | 1, _ => exact ⟨1, rfl, rfl⟩
  | 2, _ => exact ⟨2, rfl, rfl⟩
  | 3, _ => exact ⟨3, rfl, rfl⟩

section
variable {rej : Rej} (hrej : RejSpec rej)
include hrej

theorem gen_matrixW_runsG {p : ParamSet} {junk : Fin 4 → Nat → UInt8} {fuel : Nat} {a : Array Polyvec} {seed : Mem UInt8} {so : Nat} {ρ : List UInt8} (tr : Bool)
    (ha : MatSz (KYBER_K p) a) (hρ : seed.Holds so ρ) (hl : ρ.length = 32) :
    RunsG (∀ i, i < KYBER_K p → ∀ j, j < KYBER_K p → (SampleNTT (iters fuel) (entrySeed ρ tr i j)).isSome)
      (gen_matrixW rej p junk fuel a seed so tr)
      (fun a => MatV (KYBER_K p) a fun i j => (SampleNTT (iters fuel) (entrySeed ρ tr i j)).getD 0) := by
  have h0 : Done (KYBER_K p) (fun i j => (SampleNTT (iters fuel) (entrySeed ρ tr i j)).getD 0) (fun _ _ => False) a := ⟨ha, fun _ _ _ _ h => h.elim⟩
  have hbuf : ∀ j : Fin 4, ((fun _ => Mem.uninit UInt8 (REJ_UNIFORM_AVX_NBLOCKS * SHAKE128_RATE) : M4) j).size = 504 := fun j => Mem.size_uninit _
  have hst : (Mem.uninit V4 25).size = 25 := Mem.size_uninit _
  unfold gen_matrixW
  generalize (fun _ => Mem.uninit UInt8 (REJ_UNIFORM_AVX_NBLOCKS * SHAKE128_RATE) : M4) = buf at hbuf ⊢
  generalize Mem.uninit V4 25 = st at hst ⊢
  cases p with
  | k2 =>
    dsimp only
    refine ((gen_batchW_runsG hrej (k := 2) (fun _ _ => rfl) h0 hbuf hst hρ hl (fun j => by match j with | 0 | 1 | 2 | 3 => decide)
      (fun j => by cases tr <;> match j with | 0 | 1 | 2 | 3 => rfl)).bindR fun s hs => ?_).congr ?_
    · rw [runs_pure]
      refine hs.1.mono fun i j hi hj _ => Or.inr ?_
      exact grid2 hi hj
    · exact ⟨fun h i hi j hj => by obtain ⟨n, rfl, rfl⟩ := grid2 hi hj; exact h n, fun h n => by match n with | 0 | 1 | 2 | 3 => exact h _ (by decide) _ (by decide)⟩
  | k3 =>
    dsimp only
    refine ((gen_batchW_runsG hrej (k := 3) (fun _ _ => rfl) h0 hbuf hst hρ hl (fun j => by match j with | 0 | 1 | 2 | 3 => decide)
      (fun j => by cases tr <;> match j with | 0 | 1 | 2 | 3 => rfl)).bind (g2 := (∀ n, (SampleNTT (iters fuel) (entrySeed ρ tr
        (q4 (1, 1) (1, 2) (2, 0) (2, 1) n : Nat × Nat).1 (q4 (1, 1) (1, 2) (2, 0) (2, 1) n : Nat × Nat).2)).isSome) ∧
        (SampleNTT (iters fuel) (entrySeed ρ tr 2 2)).isSome) fun s _ hs => ?_).congr ?_
    · obtain ⟨a1, b1, s1⟩ := s
      exact (gen_batchW_runsG hrej (k := 3) (fun _ _ => rfl) hs.1 hs.2.1 hs.2.2 hρ hl (fun j => by match j with | 0 | 1 | 2 | 3 => decide)
        (fun j => by cases tr <;> match j with | 0 | 1 | 2 | 3 => rfl)).bind fun s' _ hs' =>
          (gen_lastW_runsG hrej (fun _ _ => rfl) hs'.1 (hs'.2.1 0) hρ hl).mono fun a' ha' => ha'.mono fun i j hi hj _ => by
            rcases grid3 hi hj with (h | h) | h
            · exact Or.inl (Or.inl (Or.inr h))
            · exact Or.inl (Or.inr h)
            · exact Or.inr h
    · constructor
      · rintro ⟨h1, h2, h3⟩ i hi j hj
        rcases grid3 hi hj with (⟨n, rfl, rfl⟩ | ⟨n, rfl, rfl⟩) | ⟨rfl, rfl⟩
        · exact h1 n
        · exact h2 n
        · exact h3
      · intro h
        exact ⟨fun n => by match n with | 0 | 1 | 2 | 3 => exact h _ (by decide) _ (by decide), fun n => by match n with | 0 | 1 | 2 | 3 => exact h _ (by decide) _ (by decide),
          h _ (by decide) _ (by decide)⟩
  | k4 =>
    dsimp only
    have hK : KYBER_K .k4 = 4 := rfl
    refine (RunsG.bindR (P := fun s => Done 4 (fun i j => (SampleNTT (iters fuel) (entrySeed ρ tr i j)).getD 0) (fun i _ => i < 4) s.1 ∧
      (∀ j, (s.2.1 j).size = 504) ∧ s.2.2.size = 25)
      (runsG_cfor (s := (a, buf, st)) (good := fun i => ∀ j, j < 4 → (SampleNTT (iters fuel) (entrySeed ρ tr i j)).isSome) (fun n (s : Array Polyvec × M4 × Mem V4) =>
        Done 4 (fun i j => (SampleNTT (iters fuel) (entrySeed ρ tr i j)).getD 0) (fun i _ => i < n) s.1 ∧ (∀ j, (s.2.1 j).size = 504) ∧ s.2.2.size = 25)
        ⟨⟨ha, fun _ _ _ _ h => by omega⟩, hbuf, hst⟩ fun i s hi hs => ?_) fun s hs => ?_)
    · obtain ⟨a1, b1, s1⟩ := s
      have hp : ∀ n : Fin 4, (q4 (i, 0) (i, 1) (i, 2) (i, 3) n : Nat × Nat).1 < 4 ∧ (q4 (i, 0) (i, 1) (i, 2) (i, 3) n : Nat × Nat).2 < 4 :=
        fun n => by match n with | 0 | 1 | 2 | 3 => exact ⟨hi, by simp [q4]⟩
      refine ((gen_batchW_runsG hrej (k := 4) (fun _ _ => rfl) hs.1 hs.2.1 hs.2.2 hρ hl hp (fun j => by cases tr <;> match j with | 0 | 1 | 2 | 3 => rfl)).mono fun s' hs' => ?_).congr ?_
      · refine ⟨hs'.1.mono fun i' j' hi' hj' hlt => ?_, hs'.2⟩
        by_cases e : i' = i
        · subst e; exact Or.inr (grid4 hj')
        · exact Or.inl (by omega)
      · exact ⟨fun h j hj => by obtain ⟨n, h1, h2⟩ := grid4 (i := i) hj; rw [h1, h2]; exact h n, fun h n => by match n with | 0 | 1 | 2 | 3 => exact h _ (by simp [q4])⟩
    · rw [runs_pure]
      exact hs.1.mono fun i j hi _ _ => hi

/-- `gen_matrix` against ExpandA: the matrix or its transpose. -/
theorem gen_matrixW_runsO {p : ParamSet} {junk : Fin 4 → Nat → UInt8} {fuel : Nat} {a : Array Polyvec} {seed : Mem UInt8} {so : Nat} {ρ : List UInt8} (tr : Bool)
    (ha : MatSz (KYBER_K p) a) (hρ : seed.Holds so ρ) (hl : ρ.length = 32) :
    RunsO (gen_matrixW rej p junk fuel a seed so tr) (ExpandA (KYBER_K p) (iters fuel) ρ)
      (fun A a => MatV (KYBER_K p) a fun i j => if tr then A j i else A i j) := by
  have h := gen_matrixW_runsG hrej (junk := junk) (fuel := fuel) tr ha hρ hl
  unfold ExpandA
  by_cases c : ∀ i < KYBER_K p, ∀ j < KYBER_K p, (SampleNTT (iters fuel) (ρ ++ [UInt8.ofNat j, UInt8.ofNat i])).isSome
  · rw [if_pos c, runsO_some]
    have hg : ∀ i, i < KYBER_K p → ∀ j, j < KYBER_K p → (SampleNTT (iters fuel) (entrySeed ρ tr i j)).isSome := by
      intro i hi j hj
      unfold entrySeed
      cases tr
      · exact c i hi j hj
      · exact c j hj i hi
    refine (h.1 hg).mono fun m hm => ?_
    unfold entrySeed at hm
    cases tr
    · exact hm
    · exact hm
  · rw [if_neg c, runsO_none]
    refine h.2 fun hg => c fun i hi j hj => ?_
    unfold entrySeed at hg
    cases tr
    · exact hg i hi j hj
    · exact hg j hj i hi

end

theorem gen_matrix_runsG {p : ParamSet} {junk : Fin 4 → Nat → UInt8} {fuel : Nat} {a : Array Polyvec} {seed : Mem UInt8} {so : Nat} {ρ : List UInt8} (tr : Bool)
    (ha : MatSz (KYBER_K p) a) (hρ : seed.Holds so ρ) (hl : ρ.length = 32) :
    RunsG (∀ i, i < KYBER_K p → ∀ j, j < KYBER_K p → (SampleNTT (iters fuel) (entrySeed ρ tr i j)).isSome)
      (gen_matrix p junk fuel a seed so tr)
      (fun a => MatV (KYBER_K p) a fun i j => (SampleNTT (iters fuel) (entrySeed ρ tr i j)).getD 0) := by
  rw [← gen_matrixW_avx]
  exact gen_matrixW_runsG rejSpec_avx tr ha hρ hl

theorem gen_matrix_runsO {p : ParamSet} {junk : Fin 4 → Nat → UInt8} {fuel : Nat} {a : Array Polyvec} {seed : Mem UInt8} {so : Nat} {ρ : List UInt8} (tr : Bool)
    (ha : MatSz (KYBER_K p) a) (hρ : seed.Holds so ρ) (hl : ρ.length = 32) :
    RunsO (gen_matrix p junk fuel a seed so tr) (ExpandA (KYBER_K p) (iters fuel) ρ)
      (fun A a => MatV (KYBER_K p) a fun i j => if tr then A j i else A i j) := by
  rw [← gen_matrixW_avx]
  exact gen_matrixW_runsO rejSpec_avx tr ha hρ hl

end Verif.Avx
