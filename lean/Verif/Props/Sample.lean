import Verif.Proof.GenMatrix
import Verif.Proof.Kat

/-! # Properties of rejection sampling (C21) and of the expansion of the public matrix (C22) -/

set_option autoImplicit false

namespace Verif.Props
open Verif.Model Verif.Spec Verif.Proof

/-- The successive 12-bit little-endian numbers in the first `3 (n / 3)` bytes of a string of `n` bytes. -/
def twelveBit (X : List UInt8) : List Nat := (List.range (2 * (X.length / 3))).map fun i => bitsVal 12 fun j => BytesToBits X (12 * i + j)

theorem bit_toNat (x : Nat) : (x % 2 == 1).toNat = x % 2 := by
  rcases Nat.mod_two_eq_zero_or_one x with h | h <;> rw [h] <;> rfl

theorem twelve0 (a b : UInt8) (X : List UInt8) : (bitsVal 12 fun j => BytesToBits (a :: b :: X) (12 * 0 + j)) = a.toNat + 256 * (b.toNat % 16) := by
  have ha := a.toNat_lt
  simp [bitsVal_succ, bitsVal_zero, BytesToBits, bit_toNat]
  omega

theorem twelve1 (a b c : UInt8) (X : List UInt8) : (bitsVal 12 fun j => BytesToBits (a :: b :: c :: X) (12 * 1 + j)) = b.toNat / 16 + 16 * c.toNat := by
  have hb := b.toNat_lt
  have hc := c.toNat_lt
  simp [bitsVal_succ, bitsVal_zero, BytesToBits, bit_toNat]
  omega

theorem cands_twelveBit : ∀ (n : Nat) (X : List UInt8), X.length ≤ n → cands X = twelveBit X
  | _, [], _ => rfl
  | _, [_], _ => by simp [cands, twelveBit]
  | _, [_, _], _ => by simp [cands, twelveBit]
  | 0, a :: b :: c :: X, h => by simp at h
  | n + 1, a :: b :: c :: X, h => by
    have ih := cands_twelveBit n X (by simp at h; omega)
    rw [cands, ih]
    unfold twelveBit
    have e : (a :: b :: c :: X).length / 3 = X.length / 3 + 1 := by simp only [List.length_cons]; omega
    rw [e, show 2 * (X.length / 3 + 1) = 2 * (X.length / 3) + 1 + 1 from by omega, List.range_succ_eq_map, List.range_succ_eq_map]
    simp only [List.map_cons, List.map_map]
    rw [twelve0, twelve1]
    refine congrArg _ (congrArg _ (List.map_congr_left fun i _ => ?_))
    refine bitsVal_congr fun j _ => ?_
    simp only [Function.comp]
    unfold BytesToBits
    rw [show (12 * (i + 1 + 1) + j) / 8 = (12 * i + j) / 8 + 3 from by omega, show (12 * (i + 1 + 1) + j) % 8 = (12 * i + j) % 8 from by omega]
    rfl

theorem accepted_twelveBit (X : List UInt8) : accepted X = (twelveBit X).filter (· < 3329) := by
  unfold accepted
  rw [cands_twelveBit X.length X (Nat.le_refl _)]

/-! ## C21 -/

/-- `rej_uniform` on any buffer: the accepted numbers are the 12-bit numbers of the buffer below q in order, at most `len` of them; exactly these are stored, consecutively
from `r[ro]`, no other cell changes (in particular none past `len`), and their number is returned. -/
theorem C21_rej_uniform (r : Mem Int16) (ro len : Nat) (hr : ro + len ≤ r.size) (X : List UInt8) :
    Runs (rej_uniform r ro len (Mem.ofList X) X.length) (fun s => ∃ y : List Int16,
      y.map Int16.toInt = (((twelveBit X).filter (· < 3329)).take len).map Int.ofNat ∧ r.Wrote s.1 ro y ∧ s.2 = y.length) := by
  refine (rej_uniform_runs (Mem.holds_ofList X) rfl hr).mono fun s hs => ⟨_, ?_, hs.1, ?_⟩
  · rw [List.map_map, ← accepted_twelveBit]
    refine List.map_congr_left fun d hd => ?_
    exact i16_nat (accepted_lt (List.mem_of_mem_take hd))
  · rw [hs.2, List.length_map]

/-- Sampling from `X` and then, for what is missing, from `Y` is the same as sampling from the concatenation, if `X` is a whole number of candidate pairs. -/
theorem C21_resume (r : Mem Int16) (ro len : Nat) (hr : ro + len ≤ r.size) (X Y : List UInt8) (hX : X.length % 3 = 0) : ∃ res,
    Runs (do let s ← rej_uniform r ro len (Mem.ofList X) X.length
             let s' ← rej_uniform s.1 (ro + s.2) (len - s.2) (Mem.ofList Y) Y.length
             pure (s'.1, s.2 + s'.2)) (· = res) ∧
    Runs (rej_uniform r ro len (Mem.ofList (X ++ Y)) (X ++ Y).length) (· = res) := by
  have a : Runs (do let s ← rej_uniform r ro len (Mem.ofList X) X.length
                    let s' ← rej_uniform s.1 (ro + s.2) (len - s.2) (Mem.ofList Y) Y.length
                    pure (s'.1, s.2 + s'.2)) (fun s => RejR r ro len (X ++ Y) s.1 s.2) := by
    rw [runs_bind]
    refine (rej_uniform_runs (Mem.holds_ofList X) rfl hr).mono fun s hs => ?_
    rw [runs_bind]
    have hle : s.2 ≤ len := by rw [hs.2, List.length_take]; omega
    exact (rej_uniform_runs (Mem.holds_ofList Y) rfl (by rw [hs.1.size]; omega)).mono fun s' hs' => RejR.append (n := X.length / 3) (by omega) hs hs'
  obtain ⟨res, _, _, h⟩ := a.exists_ok
  have uniq : ∀ s : Poly × Nat, RejR r ro len (X ++ Y) s.1 s.2 → s = res := by
    rintro ⟨s1, s2⟩ hs
    obtain ⟨r1, r2⟩ := res
    obtain ⟨w, e⟩ := hs
    obtain ⟨w', e'⟩ := h
    dsimp only at w w' e e'
    rw [e, e']
    congr 1
    apply Array.ext_getElem?
    intro i
    by_cases hi : ro ≤ i ∧ i < ro + (((accepted (X ++ Y)).take len).map fun d : Nat => i16 (d : Int)).length
    · obtain ⟨t, rfl⟩ : ∃ t, i = ro + t := ⟨i - ro, by omega⟩
      rw [w.holds t (by omega), w'.holds t (by omega)]
    · rw [w.frame i (by omega), w'.frame i (by omega)]
  exact ⟨res, a.mono uniq, (rej_uniform_runs (Mem.holds_ofList (X ++ Y)) rfl hr).mono uniq⟩

/-- One byte too few for a second pair; `0xFFF` is rejected; the count stops at one. -/
example : Runs (rej_uniform (Mem.uninit Int16 4) 1 2 (Mem.ofList [0xFF, 0x2F, 0x01, 7, 0]) 5) (fun s => s.1[1]? = some (some 18) ∧ s.1[2]? = some none ∧ s.2 = 1) := by
  decide +kernel

/-! ## C22 -/

/-- Every coefficient of entry `(i, j)` of the array is initialised, lies in [0, q) and represents `f`. -/
def entryIs (a : Array Polyvec) (i j : Nat) (f : Rq) : Prop := ∃ v q, a[i]? = some v ∧ v[j]? = some q ∧ q.size = 256 ∧
  ∀ t : Fin 256, ∃ x : Int16, q[t.val]? = some (some x) ∧ x.toInt = (f t).val

/-- The matrix: if SampleNTT finishes within `112 + 56 fuel` iterations for every entry, then `gen_matrix` returns the k×k matrix with entry
`(i, j)` = SampleNTT(ρ ‖ j ‖ i), or SampleNTT(ρ ‖ i ‖ j) for the transposed one. -/
theorem C22_gen_matrix (p : ParamSet) (fuel : Nat) (ρ : List UInt8) (hl : ρ.length = 32) (tr : Bool) (A : Nat → Nat → Rq)
    (hA : ∀ i < (fips p).k, ∀ j < (fips p).k, SampleNTT (112 + 56 * fuel) (ρ ++ [UInt8.ofNat j, UInt8.ofNat i]) = some (A i j)) :
    Runs (gen_matrix p fuel (Matrix.uninit p) (Mem.ofList ρ) 0 tr)
      (fun a => a.size = (fips p).k ∧ ∀ i < (fips p).k, ∀ j < (fips p).k, entryIs a i j (if tr then A j i else A i j)) := by
  have hk : (fips p).k = KYBER_K p := by cases p <;> rfl
  rw [hk] at hA ⊢
  have h := gen_matrix_runsG (fuel := fuel) (ρ := ρ) tr (matSz_uninit p) (Mem.holds_ofList ρ) hl
  have hs : ∀ i, i < KYBER_K p → ∀ j, j < KYBER_K p → SampleNTT (iters fuel) (entrySeed ρ tr i j) = some (if tr then A j i else A i j) := by
    intro i hi j hj
    unfold entrySeed
    cases tr
    · exact hA i hi j hj
    · exact hA j hj i hi
  refine (h.1 fun i hi j hj => by rw [hs i hi j hj]; rfl).mono fun a ha => ⟨ha.1.size, fun i hi j hj => ?_⟩
  obtain ⟨v, q, h1, h2, h3, h4⟩ := ha.2 i j hi hj
  dsimp only at h4
  rw [hs i hi j hj] at h4
  exact ⟨v, q, h1, h2, h3, h4⟩

/-- A case: the seed of the key pair for d = 0 and k = 2, with one extra block per entry. -/
example (tr : Bool) : ∃ A : Nat → Nat → Rq, Runs (gen_matrix .k2 1 (Matrix.uninit .k2) (Mem.ofList katRho) 0 tr)
    (fun a => a.size = 2 ∧ ∀ i < 2, ∀ j < 2, entryIs a i j (if tr then A j i else A i j)) := by
  obtain ⟨A, hA⟩ := kat_expandA
  obtain ⟨hs, rfl⟩ := expandA_some.1 hA
  refine ⟨fun i j => (SampleNTT 168 (katRho ++ [UInt8.ofNat j, UInt8.ofNat i])).getD 0, C22_gen_matrix .k2 1 katRho rfl tr _ fun i hi j hj => ?_⟩
  obtain ⟨f, hf⟩ := Option.isSome_iff_exists.1 (hs i hi j hj)
  show SampleNTT 168 _ = some ((SampleNTT 168 _).getD 0)
  rw [hf]
  rfl

/-- Conversely, if some entry needs more iterations, the loop is still running: the code never returns a matrix that SampleNTT does not define. -/
theorem C22_diverges (p : ParamSet) (fuel : Nat) (ρ : List UInt8) (hl : ρ.length = 32) (tr : Bool) (i j : Nat) (hi : i < (fips p).k) (hj : j < (fips p).k)
    (hA : SampleNTT (112 + 56 * fuel) (ρ ++ [UInt8.ofNat j, UInt8.ofNat i]) = none) :
    gen_matrix p fuel (Matrix.uninit p) (Mem.ofList ρ) 0 tr = .diverge := by
  have hk : (fips p).k = KYBER_K p := by cases p <;> rfl
  rw [hk] at hi hj
  refine (gen_matrix_runsG (fuel := fuel) (ρ := ρ) tr (matSz_uninit p) (Mem.holds_ofList ρ) hl).2 fun h => ?_
  cases tr
  · have := h i hi j hj
    unfold entrySeed iters at this
    rw [if_neg (by simp), hA] at this
    simp at this
  · have := h j hj i hi
    unfold entrySeed iters at this
    rw [if_pos rfl, hA] at this
    simp at this

/-- The value of SampleNTT does not depend on the bound on the number of iterations. -/
theorem C22_block_independent (N N' : Nat) (B : List UInt8) (f f' : Rq) (h : SampleNTT N B = some f) (h' : SampleNTT N' B = some f') : f = f' := by
  rcases Nat.le_total N N' with hN | hN
  · have := sampleNTT_mono N N' hN B f h
    rw [h'] at this
    simpa using this.symm
  · have := sampleNTT_mono N' N hN B f' h'
    rw [h] at this
    simpa using this

/-- The coefficients of SampleNTT are the first 256 of the 12-bit numbers below q in the SHAKE128 stream. -/
theorem C22_sampleNTT_eq (N : Nat) (B : List UInt8) (f : Rq) :
    SampleNTT N B = some f ↔ (((twelveBit (SHAKE128 B (3 * N))).filter (· < 3329)).take 256) = List.ofFn (fun i => (f i).val) := by
  rw [SampleNTT_eq, ← accepted_twelveBit]
  change (if (sampled _).length = 256 then _ else _) = _ ↔ sampled _ = _
  have hlt : ∀ d ∈ sampled (SHAKE128 B (3 * N)), d < 3329 := fun d hd => accepted_lt (List.mem_of_mem_take hd)
  generalize sampled (SHAKE128 B (3 * N)) = L at *
  constructor
  · intro h
    by_cases c : L.length = 256
    · rw [if_pos c] at h
      have h := Option.some.inj h
      apply List.ext_getElem (by rw [c, List.length_ofFn])
      intro i h1 h2
      have hi : i < 256 := by omega
      have := congrFun h ⟨i, hi⟩
      rw [List.getElem_ofFn]
      change L[i] = (f ⟨i, hi⟩).val
      rw [← this, rqOf]
      dsimp only
      rw [List.getD_eq_getElem?_getD, List.getElem?_eq_getElem h1, Option.getD_some, ZMod.val_natCast, Nat.mod_eq_of_lt (hlt _ (List.getElem_mem _))]
    · rw [if_neg c] at h; simp at h
  · intro h
    have c : L.length = 256 := by rw [h, List.length_ofFn]
    rw [if_pos c]
    refine congrArg some (funext fun i => ?_)
    unfold rqOf
    rw [List.getD_eq_getElem?_getD, List.getElem?_eq_getElem (by omega), Option.getD_some]
    have : L[i.val]'(by omega) = (f i).val := by
      simp only [h, List.getElem_ofFn]
    rw [this, ZMod.natCast_val, ZMod.cast_id']
    rfl

end Verif.Props
