import Verif.Avx.Fips202x4Proof

/-! # The last gather of `keccakx4_absorb_once` reads up to the next multiple of 8 -/

namespace Verif.Avx
open Verif.Model Verif.Spec Verif.Proof

theorem bind_ub_of {α β : Type} {m : C α} {f : α → C β} {P : α → Prop} {u : UB} (h : Runs m P) (hf : ∀ v, P v → f v = .ub u) : (m >>= f) = .ub u := by
  obtain ⟨v, t, rfl, hv⟩ := h.exists_ok
  show C.bind _ _ = _
  simp [C.bind, hf v hv]

theorem ub_bind {α β : Type} {m : C α} {f : α → C β} {u : UB} (h : m = .ub u) : (m >>= f) = .ub u := by subst h; rfl

theorem rdJunk_oob {junk : Nat → UInt8} {m : Mem UInt8} {i : Nat} (h : m.size ≤ i) : rdJunk junk m i = .ub .oob := by
  unfold rdJunk
  rw [Array.getElem?_eq_none h]

/-- A loop one iteration of which is undefined. -/
theorem cforFrom_ub {σ : Type} {body : Nat → σ → C σ} {u : UB} (e : Nat) (hr : ∀ i < e, ∀ s, Runs (body i s) fun _ => True) (he : ∀ s, body e s = .ub u) :
    ∀ (n i : Nat) (s : σ), i ≤ e → e < i + n → cforFrom body n i s = .ub u
  | 0, i, s, h1, h2 => absurd h2 (by omega)
  | n + 1, i, s, h1, h2 => by
    unfold cforFrom
    refine bind_ub_of (P := fun _ => True) trivial fun _ _ => ?_
    by_cases h : i = e
    · subst h; exact ub_bind (he s)
    · exact bind_ub_of (hr i (by omega) s) fun s' _ => cforFrom_ub e hr he n (i + 1) s' (by omega) (by omega)

theorem gather64_oob {junk : Nat → UInt8} {x : Mem UInt8} {o : Nat} (h0 : o ≤ x.size) (h : x.size < o + 8) : gather64 junk x o = .ub .oob := by
  unfold gather64 cfor
  refine cforFrom_ub (x.size - o) (fun i hi s => ?_) (fun s => ub_bind (rdJunk_oob (by omega))) 8 0 0 (by omega) (by omega)
  rw [runs_bind]
  refine (runs_rdJunk (by omega)).mono fun b _ => ?_
  rw [runs_pure]; trivial

theorem absorb_once_oob {junk : Fin 4 → Nat → UInt8} {s : Mem V4} {r : Nat} {x : M4} {inlen : Nat} {M : Fin 4 → List UInt8} (p : UInt8)
    (h : s.size = 25) (hr0 : 0 < r) (hr : r ≤ 200) (h8 : r % 8 = 0) (hM : ∀ j, (x j).Holds 0 (M j)) (hn : ∀ j, (M j).length = inlen)
    (hi8 : inlen % 8 ≠ 0) (hx : ∀ j, (x j).size = inlen) : keccakx4_absorb_once junk s r x inlen p = .ub .oob := by
  unfold keccakx4_absorb_once
  have hinit : Runs (cfor 0 25 s fun i s => wr s i (set1_epi64x 0)) (fun s' => RB4 s' fun _ => List.replicate 200 0) := by
    refine (runs_fill1 (o := 0) (n := 25) (f := fun _ => set1_epi64x 0) fun i m' hi hu => ?_).mono fun s' hs' j => ?_
    · rw [Nat.zero_add]; exact runs_wr_upd (by rw [hu.size, h]; exact hi)
    · refine ⟨by rw [projM_size, hs'.size, h], List.length_replicate, fun i hi => ⟨0, projM_of (hs'.has.get0 hi) j, fun z => ?_⟩⟩
      rw [← h2b_getD, h2b_zero, List.getD_eq_getElem?_getD, List.getElem?_replicate]
      have : bit 0 z = false := by simp [bit]
      rw [this]
      split <;> rfl
  refine bind_ub_of hinit fun s0 hs0 => ?_
  have hloop := runs_cwhile_measure (fuel := inlen + 1) (cond := fun (st : Mem V4 × Nat × Nat) => decide (st.2.2 ≥ r))
    (body := fun (s, pos, inlen) => do
      let s ← xorLanes4 junk s x pos (r / 8)
      let s ← PermuteAll_24rounds s
      pure (s, pos + 8 * (r / 8), inlen - r))
    (s := (s0, 0, inlen)) (fun st => st.2.1 ≤ inlen ∧ st.2.1 % 8 = 0 ∧ st.2.2 = inlen - st.2.1 ∧ ∃ B, RB4 st.1 B) (fun st => st.2.2) (by dsimp only; omega)
    ⟨by dsimp only; omega, rfl, rfl, _, hs0⟩ (by
      rintro ⟨s, o, n⟩ ⟨hk, hk8, hnn, B, hs⟩ hc
      dsimp only at *
      subst hnn
      rw [decide_eq_true_eq] at hc
      rw [runs_bind]
      have hw : ∀ j, (slice (M j) o r).length = r := fun j => length_slice (by rw [hn j]; omega)
      refine (xorLanes4_runs (junk := junk) hs (x := x) (pos := o) (n := r / 8) (L := fun j => slice (M j) o r)
        (fun j => by have := (hM j).slice o r (by rw [hn j]; omega); rwa [Nat.zero_add] at this) (fun j => by rw [hw j]; omega) (fun j => by rw [hx j]; omega)
        (by omega)).mono fun s1 hs1 => ?_
      rw [runs_bind]
      refine (permute4_runs hs1).mono fun s2 hs2 => ?_
      rw [runs_pure]
      exact ⟨⟨by dsimp only; omega, by dsimp only; omega, by dsimp only; omega, _, hs2⟩, by dsimp only; omega⟩)
  refine bind_ub_of hloop ?_
  rintro ⟨s, o, n⟩ ⟨⟨hk, hk8, hnn, B, hs⟩, hc⟩
  dsimp only at *
  subst hnn
  rw [decide_eq_false_iff_not] at hc
  have hq8 : 8 * ((inlen - o) / 8) ≤ inlen - o := by omega
  have hw : ∀ j, (slice (M j) o (8 * ((inlen - o) / 8))).length = 8 * ((inlen - o) / 8) := fun j => length_slice (by rw [hn j]; omega)
  refine bind_ub_of (xorLanes4_runs (junk := junk) hs (x := x) (pos := o) (n := (inlen - o) / 8) (L := fun j => slice (M j) o (8 * ((inlen - o) / 8)))
    (fun j => by have := (hM j).slice o (8 * ((inlen - o) / 8)) (by rw [hn j]; omega); rwa [Nat.zero_add] at this) hw (fun j => by rw [hx j]; omega)
    (by omega)) fun s1 _ => ?_
  refine ub_bind ?_
  unfold cif
  rw [if_pos (by rw [decide_eq_true_eq]; omega)]
  refine bind_ub_of (P := fun _ => True) trivial fun _ _ => ?_
  refine ub_bind ?_
  unfold gather
  exact ub_bind (gather64_oob (by rw [hx 0]; omega) (by rw [hx 0]; omega))

theorem shake128x4_oob {junk : Fin 4 → Nat → UInt8} {out x : M4} {oo outlen inlen : Nat} {M : Fin 4 → List UInt8} (hM : ∀ j, (x j).Holds 0 (M j))
    (hn : ∀ j, (M j).length = inlen) (hi8 : inlen % 8 ≠ 0) (hx : ∀ j, (x j).size = inlen) : shake128x4 junk out oo outlen x inlen = .ub .oob := by
  unfold shake128x4 shake128x4_absorb_once
  exact ub_bind (absorb_once_oob 0x1F (by simp) (by decide) (by decide) (by decide) hM hn hi8 hx)

theorem shake256x4_oob {junk : Fin 4 → Nat → UInt8} {out x : M4} {oo outlen inlen : Nat} {M : Fin 4 → List UInt8} (hM : ∀ j, (x j).Holds 0 (M j))
    (hn : ∀ j, (M j).length = inlen) (hi8 : inlen % 8 ≠ 0) (hx : ∀ j, (x j).size = inlen) : shake256x4 junk out oo outlen x inlen = .ub .oob := by
  unfold shake256x4 shake256x4_absorb_once
  exact ub_bind (absorb_once_oob 0x1F (by simp) (by decide) (by decide) (by decide) hM hn hi8 hx)

end Verif.Avx
