import Verif.Avx.Keccak4ApiProof3
import Verif.Avx.GatherOob
import Verif.Proof.GenMatrix

/-! # Calls of the avx2/keccak4x interface that are undefined or do not end -/

set_option autoImplicit false

namespace Verif.Avx.SnP
open Verif.Model Verif.Spec Verif.Proof
open Verif.Model (byteAt byteOf load64 store64 memset)

theorem cwhile_ub {σ : Type} {fuel : Nat} {cond : σ → Bool} {body : σ → C σ} {s : σ} {e : UB} (hf : 0 < fuel) (hc : cond s = true) (hb : body s = .ub e) :
    cwhile fuel cond body s = .ub e := by
  obtain ⟨n, rfl⟩ : ∃ n, fuel = n + 1 := ⟨fuel - 1, by omega⟩
  unfold cwhile
  rw [if_pos hc]
  exact bind_ub_of (P := fun _ => True) trivial fun _ _ => ub_bind hb

/-- A loop whose condition stays true. -/
theorem cwhile_forever {σ : Type} {cond : σ → Bool} {body : σ → C σ} (Inv : σ → Prop) (hc : ∀ s, Inv s → cond s = true ∧ Runs (body s) Inv) :
    ∀ (fuel : Nat) (s : σ), Inv s → cwhile fuel cond body s = .diverge
  | 0, _, _ => rfl
  | n + 1, s, h => by
    unfold cwhile
    rw [if_pos (hc s h).1]
    refine Runs.bind_diverge (P := fun _ => True) trivial fun _ _ => ?_
    exact (hc s h).2.bind_diverge fun s' hs' => cwhile_forever Inv hc n s' hs'

theorem ptr64_ub {a : Nat} (h : a % 8 ≠ 0) : ptr64 a = .ub .align := if_neg h
theorem ptr_ub {m : Mem UInt8} {o : Nat} (h : m.size < o) : ptr m o = .ub .oob := if_neg (by omega)

theorem not_aligned {a off len : Nat} (h : ¬ Aligned a off len) : head off len + 8 ≤ len ∧ (a + head off len) % 8 ≠ 0 ∧ head off len < len := by
  unfold Aligned at h
  rw [Classical.not_imp] at h
  unfold head
  omega

theorem AddBytes_ub {sa da d off len : Nat} {st data : Mem UInt8} {b : St} {i : Fin 4} {f : Nat → UInt8} (hsa : sa % 8 = 0) (h : Holds4 st b)
    (hd : data.Has d len f) (hl : off + len ≤ 200) (ha : ¬ Aligned (da + d) off len) : AddBytes sa st i.val da data d off len = .ub .align := by
  have hsz : 0 < len → d + len ≤ data.size := hd.le_size
  obtain ⟨n1, n2, n3⟩ := not_aligned ha
  unfold AddBytes
  refine bind_ub_of (P := fun _ => True) (by rw [runs_ptr64]; exact ⟨hsa, trivial⟩) fun _ _ => ?_
  refine bind_ub_of (P := fun s => Holds4 s.1 (xorAt b i off (head off len) f) ∧ s.2.1 = len - head off len ∧ (head off len < len → 8 * s.2.2.1 = off + head off len) ∧
    s.2.2.2 = d + head off len) ?_ ?_
  · rw [runs_cif]
    unfold head
    refine ⟨fun hc => ?_, fun hc => ?_⟩
    · simp at hc
      rw [runs_bind]
      refine Runs.mono (P := fun v => v = min (8 - off % 8) len) ?_ ?_
      · rw [runs_cif]
        refine ⟨fun h => ?_, fun h => ?_⟩ <;> simp at h <;> rw [runs_pure] <;> omega
      · rintro v rfl
        have e : min (8 - off % 8) len = min ((8 - off % 8) % 8) len := by omega
        rw [e]
        generalize hm : min ((8 - off % 8) % 8) len = m
        rw [runs_bind]
        refine (partLane_runs (hd.mono (by omega)) (by omega)).mono fun w hw => ?_
        rw [runs_bind]
        refine (xorLane_step (off := off) (m := 0) (o := off % 8) (n := m) (f := f) (by rwa [xorAt_zero]) (by omega) (by omega) (by omega) (by simpa using hw)).mono fun st' h' => ?_
        rw [runs_bind, runs_ptr]
        refine ⟨by have := hsz (by omega); omega, ?_⟩
        rw [runs_pure]
        rw [Nat.zero_add] at h'
        exact ⟨h', rfl, fun _ => by dsimp only; omega, rfl⟩
    · simp at hc
      rw [runs_pure]
      have e : min ((8 - off % 8) % 8) len = 0 := by
        by_cases h0 : 0 < len
        · have := hc h0; omega
        · omega
      rw [e]
      refine ⟨by rwa [xorAt_zero], rfl, fun h0 => ?_, rfl⟩
      have := hc h0
      dsimp only; omega
  · rintro ⟨m1, sl, pos, cur⟩ ⟨h1, h2, h3, h4⟩
    dsimp only at h1 h2 h3 h4 ⊢
    subst h2 h4
    refine ub_bind (cwhile_ub (by omega) (by simp; omega) ?_)
    dsimp only
    exact ub_bind (ptr64_ub (by omega))

theorem OverwriteBytes_ub {sa da d off len : Nat} {st data : Mem UInt8} {b : St} {i : Fin 4} {f : Nat → UInt8} (hsa : sa % 8 = 0) (h : Holds4 st b)
    (hd : data.Has d len f) (hl : off + len ≤ 200) (ha : ¬ Aligned (da + d) off len) : OverwriteBytes sa st i.val da data d off len = .ub .align := by
  have hsz : 0 < len → d + len ≤ data.size := hd.le_size
  obtain ⟨n1, n2, n3⟩ := not_aligned ha
  unfold OverwriteBytes
  refine bind_ub_of (P := fun _ => True) (by rw [runs_ptr64]; exact ⟨hsa, trivial⟩) fun _ _ => ?_
  refine bind_ub_of (P := fun s => Holds4 s.1 (setAt b i off (head off len) f) ∧ s.2.1 = len - head off len ∧ (head off len < len → 8 * s.2.2.1 = off + head off len) ∧
    s.2.2.2 = d + head off len) ?_ ?_
  · rw [runs_cif]
    unfold head
    refine ⟨fun hc => ?_, fun hc => ?_⟩
    · simp at hc
      rw [runs_bind]
      refine Runs.mono (P := fun v => v = min (8 - off % 8) len) ?_ ?_
      · rw [runs_cif]
        refine ⟨fun h => ?_, fun h => ?_⟩ <;> simp at h <;> rw [runs_pure] <;> omega
      · rintro v rfl
        have e : min (8 - off % 8) len = min ((8 - off % 8) % 8) len := by omega
        rw [e]
        generalize hm : min ((8 - off % 8) % 8) len = m
        rw [runs_bind]
        refine (runs_memcpy (hd.mono (by omega)) (by rw [h.1, laneIndex_eq i (by omega)]; omega)).mono fun st' u => ?_
        have h' := setLane_step (off := off) (b := b) (m := 0) (o := off % 8) (n := m) (f := f) (by rwa [setAt_zero]) (by omega) (by omega) (by omega) (by simp) u
        rw [runs_bind, runs_ptr]
        refine ⟨by have := hsz (by omega); omega, ?_⟩
        rw [runs_pure]
        rw [Nat.zero_add] at h'
        exact ⟨h', rfl, fun _ => by dsimp only; omega, rfl⟩
    · simp at hc
      rw [runs_pure]
      have e : min ((8 - off % 8) % 8) len = 0 := by
        by_cases h0 : 0 < len
        · have := hc h0; omega
        · omega
      rw [e]
      refine ⟨by rwa [setAt_zero], rfl, fun h0 => ?_, rfl⟩
      have := hc h0
      dsimp only; omega
  · rintro ⟨m1, sl, pos, cur⟩ ⟨h1, h2, h3, h4⟩
    dsimp only at h1 h2 h3 h4 ⊢
    subst h2 h4
    refine ub_bind (cwhile_ub (by omega) (by simp; omega) ?_)
    dsimp only
    exact ub_bind (ptr64_ub (by omega))

theorem ExtractBytes_ub {sa da d off len : Nat} {st data : Mem UInt8} {b : St} {i : Fin 4} (hsa : sa % 8 = 0) (h : Holds4 st b)
    (hsz : d + len ≤ data.size) (hl : off + len ≤ 200) (ha : ¬ Aligned (da + d) off len) : ExtractBytes sa st i.val da data d off len = .ub .align := by
  obtain ⟨n1, n2, n3⟩ := not_aligned ha
  unfold ExtractBytes
  refine bind_ub_of (P := fun _ => True) (by rw [runs_ptr64]; exact ⟨hsa, trivial⟩) fun _ _ => ?_
  refine bind_ub_of (P := fun s => data.Upd s.1 d (head off len) (fun t => b i (off + t)) ∧ s.2.1 = len - head off len ∧
    (head off len < len → 8 * s.2.2.1 = off + head off len) ∧ s.2.2.2 = d + head off len) ?_ ?_
  · rw [runs_cif]
    unfold head
    refine ⟨fun hc => ?_, fun hc => ?_⟩
    · simp at hc
      rw [runs_bind]
      refine Runs.mono (P := fun v => v = min (8 - off % 8) len) ?_ ?_
      · rw [runs_cif]
        refine ⟨fun h => ?_, fun h => ?_⟩ <;> simp at h <;> rw [runs_pure] <;> omega
      · rintro v rfl
        have e : min (8 - off % 8) len = min ((8 - off % 8) % 8) len := by omega
        rw [e]
        generalize hm : min ((8 - off % 8) % 8) len = m
        rw [runs_bind, laneIndex_eq i (by omega)]
        refine (runs_memcpy ((lane_has h i (p := off / 8) (by omega)).shift (off % 8) m (by omega)) (by omega)).mono fun data' u => ?_
        rw [runs_bind, runs_ptr]
        refine ⟨by rw [u.size]; omega, ?_⟩
        rw [runs_pure]
        refine ⟨u.congr fun t ht => ?_, rfl, fun _ => by dsimp only; omega, rfl⟩
        congr 1
        omega
    · simp at hc
      rw [runs_pure]
      have e : min ((8 - off % 8) % 8) len = 0 := by
        by_cases h0 : 0 < len
        · have := hc h0; omega
        · omega
      rw [e]
      refine ⟨Mem.Upd.refl _ _ _, rfl, fun h0 => ?_, rfl⟩
      have := hc h0
      dsimp only; omega
  · rintro ⟨m1, sl, pos, cur⟩ ⟨h1, h2, h3, h4⟩
    dsimp only at h1 h2 h3 h4 ⊢
    subst h2 h4
    refine ub_bind (cwhile_ub (by omega) (by simp; omega) ?_)
    dsimp only
    exact ub_bind (ptr64_ub (by omega))

theorem ExtractAndAddBytes_ub {sa ia oa io oo off len : Nat} {st inp out : Mem UInt8} {b : St} {i : Fin 4} {f : Nat → UInt8} (hsa : sa % 8 = 0) (h : Holds4 st b)
    (hi : inp.Has io len f) (hsz : oo + len ≤ out.size) (hl : off + len ≤ 200) (ha : ¬ (Aligned (ia + io) off len ∧ Aligned (oa + oo) off len)) :
    ExtractAndAddBytes sa st i.val ia inp io oa out oo off len = .ub .align := by
  have hiz : 0 < len → io + len ≤ inp.size := hi.le_size
  unfold ExtractAndAddBytes
  refine bind_ub_of (P := fun _ => True) (by rw [runs_ptr64]; exact ⟨hsa, trivial⟩) fun _ _ => ?_
  refine bind_ub_of (P := fun s => out.Upd s.1 oo (head off len) (fun t => f t ^^^ b i (off + t)) ∧ s.2.1 = len - head off len ∧
    (head off len < len → 8 * s.2.2.1 = off + head off len) ∧ s.2.2.2.1 = io + head off len ∧ s.2.2.2.2 = oo + head off len) ?_ ?_
  · rw [runs_cif]
    unfold head
    refine ⟨fun hc => ?_, fun hc => ?_⟩
    · simp at hc
      rw [runs_bind, laneIndex_eq i (by omega)]
      refine (load64_byte (lane_has h i (by omega))).mono fun w hw => ?_
      rw [runs_bind]
      refine Runs.mono (P := fun v => v = min (8 - off % 8) len) ?_ ?_
      · rw [runs_cif]
        refine ⟨fun h => ?_, fun h => ?_⟩ <;> simp at h <;> rw [runs_pure] <;> omega
      · rintro v rfl
        have e : min (8 - off % 8) len = min ((8 - off % 8) % 8) len := by omega
        rw [e]
        generalize hm : min ((8 - off % 8) % 8) len = m
        rw [runs_bind]
        refine (xorOut_runs (hi.mono (by omega)) (by omega) (by omega) (by omega)).mono ?_
        rintro ⟨o2, c2, d2⟩ ⟨k1, k2, k3⟩
        dsimp only at k1 k2 k3
        subst k2 k3
        dsimp only
        rw [runs_pure]
        refine ⟨k1.congr fun t ht => ?_, rfl, fun _ => by dsimp only; omega, rfl, rfl⟩
        rw [byteOf_shift _ (by omega), hw _ (by omega)]
        congr 2
        omega
    · simp at hc
      rw [runs_pure]
      have e : min ((8 - off % 8) % 8) len = 0 := by
        by_cases h0 : 0 < len
        · have := hc h0; omega
        · omega
      rw [e]
      refine ⟨Mem.Upd.refl _ _ _, rfl, fun h0 => ?_, rfl, rfl⟩
      have := hc h0
      dsimp only; omega
  · rintro ⟨m1, sl, pos, ci, co⟩ ⟨h1, h2, h3, h4, h5⟩
    dsimp only at h1 h2 h3 h4 h5 ⊢
    subst h2 h4 h5
    by_cases hai : Aligned (ia + io) off len
    · obtain ⟨n1, n2, n3⟩ := not_aligned (fun h => ha ⟨hai, h⟩)
      refine ub_bind (cwhile_ub (by omega) (by simp; omega) ?_)
      dsimp only
      have e : (ia + (io + head off len)) % 8 = 0 := by
        unfold Aligned at hai
        unfold head at n1 n3 ⊢
        have := hai (by omega)
        omega
      refine bind_ub_of (P := fun _ => True) (by rw [runs_ptr64]; exact ⟨e, trivial⟩) fun _ _ => ?_
      exact ub_bind (ptr64_ub (by omega))
    · obtain ⟨n1, n2, n3⟩ := not_aligned hai
      refine ub_bind (cwhile_ub (by omega) (by simp; omega) ?_)
      dsimp only
      exact ub_bind (ptr64_ub (by omega))

/-- Lane offsets that differ by `2^29` give the same pointers. -/
theorem cur4_wrap (da : Nat) (data : Mem UInt8) (d lo : Nat) : cur4 da data d (lo + 536870912) = cur4 da data d lo := by
  unfold cur4
  have e1 : SnP.u ((lo + 536870912) * 8) = SnP.u (lo * 8) := by unfold SnP.u; omega
  have e2 : SnP.u (SnP.u ((lo + 536870912) * 2) * 8) = SnP.u (SnP.u (lo * 2) * 8) := by unfold SnP.u; omega
  have e3 : SnP.u (SnP.u ((lo + 536870912) * 3) * 8) = SnP.u (SnP.u (lo * 3) * 8) := by unfold SnP.u; omega
  rw [e1, e2, e3]

theorem AddLanesAll_wrap (sa : Nat) (st : Mem UInt8) (da : Nat) (data : Mem UInt8) (d lc lo : Nat) :
    AddLanesAll sa st da data d lc (lo + 536870912) = AddLanesAll sa st da data d lc lo := by
  unfold AddLanesAll
  rw [cur4_wrap]

/-- The first block of the 21-lane branch, when a pointer leaves the array. -/
theorem FastLoop_21_oob {perm : Mem V4 → C (Mem V4)} {π : St → St} (hp : PermSpec perm π) {sa p s da d len : Nat} {st data : Mem UInt8} {b : St} {M : Nat → UInt8}
    (hsa : sa % 32 = 0) (h : Holds4 st b) (ha : (da + d) % 8 = 0) (hu : 8 * (p * 3 + 21) < 4294967296)
    (hd : data.Has d len M) (hlen : 8 * (p * 3 + 21) ≤ len) (hs : data.size < d + 24 * p + 8 * s) :
    FastLoop_Absorb perm sa st 21 p s da data d len = .ub .oob := by
  have hsz := hd.le_size (by omega)
  have e1 : SnP.u (SnP.u (SnP.u (p * 3) + 21) * 8) = 8 * (p * 3 + 21) := by unfold SnP.u; omega
  unfold FastLoop_Absorb
  rw [e1]
  refine bind_ub_of (P := fun _ => True) trivial fun _ _ => ?_
  rw [decide_eq_true rfl]
  refine bind_ub_of (cur4_runs ha (by omega) (by omega)) ?_
  rintro p4 rfl
  refine bind_ub_of (loadAll_runs hsa h) fun X hX => ?_
  refine ub_bind (cwhile_ub (by omega) (by simp; omega) ?_)
  dsimp only
  refine bind_ub_of (P := fun X' => VecB X' (xorAll b (8 * 21) (blockData p 0 M 0))) ?_ fun X2 hX2 => ?_
  · refine runs_cfor (fun i X' => VecB X' (xorAll b (8 * i) (blockData p 0 M 0))) (by omega) (by rw [xorAll_zero]; exact hX) ?_
    intro i X' _ hi hX'
    obtain ⟨x, hx, _⟩ := hX'.2 i (by omega)
    rw [runs_bind, runs_rd_of hx, runs_bind]
    refine (loadOne_runs (streams_block (c := 21) (s := 0) (q := 0) hd (by omega)) (by omega)).mono fun v hv => ?_
    rw [runs_wr]
    exact ⟨by rw [hX'.1]; omega, vec_xor_step hX' (by omega) hx hv rfl⟩
  · refine bind_ub_of (hp _ _ hX2) fun X3 hX3 => ?_
    have hstep : ∀ (o : Nat) {f : Nat → C (Mem V4 × P4 × Nat)}, (o ≤ data.size → f o = .ub .oob) → (ptr data o >>= f) = .ub .oob := by
      intro o f hf
      by_cases ho : o ≤ data.size
      · exact bind_ub_of (P := fun v => v = o) (by rw [runs_ptr]; exact ⟨ho, rfl⟩) (by rintro v rfl; exact hf ho)
      · exact ub_bind (ptr_ub (by omega))
    refine hstep _ fun _ => hstep _ fun _ => hstep _ fun _ => ub_bind (ptr_ub (by omega))

/-- With a serial offset of 0 the loop does not end. -/
theorem FastLoop_forever {perm : Mem V4 → C (Mem V4)} {π : St → St} (hp : PermSpec perm π) {sa c p da d len : Nat} {st data : Mem UInt8} {b : St} {M : Nat → UInt8}
    (hsa : sa % 32 = 0) (h : Holds4 st b) (hc : c ≤ 25) (ha : (da + d) % 8 = 0) (hu : 8 * (p * 3 + c) < 4294967296) (h0 : 0 < p * 3 + c)
    (hd : data.Has d len M) (hlen : 8 * (p * 3 + c) ≤ len) (hl : len < 18446744073709551616) :
    FastLoop_Absorb perm sa st c p 0 da data d len = .diverge := by
  have hsz := hd.le_size (by omega)
  have e1 : SnP.u (SnP.u (SnP.u (p * 3) + c) * 8) = 8 * (p * 3 + c) := by unfold SnP.u; omega
  have e2 : SnP.u (0 * 8) = 0 := rfl
  have e3 : lenSub len 0 = len := by unfold lenSub; rw [e2]; omega
  have hst := streams_block (c := c) (p := p) (s := 0) (q := 0) hd (by omega)
  unfold FastLoop_Absorb
  rw [e1, e2]
  refine Runs.bind_diverge (P := fun _ => True) trivial fun _ _ => ?_
  by_cases h21 : c = 21
  · subst h21
    rw [decide_eq_true rfl]
    refine (cur4_runs ha (by omega) (by omega)).bind_diverge ?_
    rintro p4 rfl
    refine (loadAll_runs hsa h).bind_diverge fun X hX => ?_
    have hw := cwhile_forever (cond := fun (s : Mem V4 × P4 × Nat) => decide (s.2.2 ≥ 8 * (p * 3 + 21)))
      (body := fun ((X, p, len) : Mem V4 × P4 × Nat) => do
          let X ← cfor 0 21 X fun i X => do
            let x ← rd X i
            let v ← loadOne data p i
            wr X i (XOR256 x v)
          let X ← perm X
          let p0 ← ptr data (p.p0 + 8 * 0)
          let p1 ← ptr data (p.p1 + 8 * 0)
          let p2 ← ptr data (p.p2 + 8 * 0)
          let p3 ← ptr data (p.p3 + 8 * 0)
          pure (X, ⟨p0, p1, p2, p3⟩, lenSub len 0))
      (fun s => (∃ b', VecB s.1 b') ∧ s.2.1 = ⟨d, d + 8 * p, d + 16 * p, d + 24 * p⟩ ∧ s.2.2 = len) ?_
    · rw [hw (len + 1) (X, ⟨d, d + 8 * p, d + 16 * p, d + 24 * p⟩, len) ⟨⟨b, hX⟩, rfl, rfl⟩]
      rfl
    · rintro ⟨X1, p1, l1⟩ ⟨⟨b1, k1⟩, k2, k3⟩
      dsimp only at k1 k2 k3
      subst k2 k3
      refine ⟨by simpa using hlen, ?_⟩
      dsimp only
      rw [runs_bind]
      refine Runs.mono (P := fun X' => VecB X' (xorAll b1 (8 * 21) (blockData p 0 M 0))) ?_ fun X2 hX2 => ?_
      · refine runs_cfor (fun i X' => VecB X' (xorAll b1 (8 * i) (blockData p 0 M 0))) (by omega) (by rw [xorAll_zero]; exact k1) ?_
        intro i X' _ hi hX'
        obtain ⟨x, hx, _⟩ := hX'.2 i (by omega)
        rw [runs_bind, runs_rd_of hx, runs_bind]
        refine (loadOne_runs hst (by omega)).mono fun v hv => ?_
        rw [runs_wr]
        exact ⟨by rw [hX'.1]; omega, vec_xor_step hX' (by omega) hx hv rfl⟩
      · rw [runs_bind]
        refine (hp _ _ hX2).mono fun X3 hX3 => ?_
        rw [runs_bind, runs_ptr]
        refine ⟨by omega, ?_⟩
        rw [runs_bind, runs_ptr]
        refine ⟨by omega, ?_⟩
        rw [runs_bind, runs_ptr]
        refine ⟨by omega, ?_⟩
        rw [runs_bind, runs_ptr]
        refine ⟨by omega, ?_⟩
        rw [runs_pure]
        exact ⟨⟨_, hX3⟩, rfl, e3⟩
  · rw [decide_eq_false h21]
    have hw := cwhile_forever (cond := fun (s : Mem UInt8 × Nat × Nat) => decide (s.2.2 ≥ 8 * (p * 3 + c)))
      (body := fun ((st, cur, len) : Mem UInt8 × Nat × Nat) => do
          let st ← AddLanesAll sa st da data cur c p
          let st ← permuteAll perm sa st
          let cur ← ptr data (cur + 0)
          pure (st, cur, lenSub len 0))
      (fun s => (∃ b', Holds4 s.1 b') ∧ s.2.1 = d ∧ s.2.2 = len) ?_
    · show (cwhile _ _ _ _ >>= _) = _
      rw [hw (len + 1) (st, d, len) ⟨⟨b, h⟩, rfl, rfl⟩]
      rfl
    · rintro ⟨st1, d1, l1⟩ ⟨⟨b1, k1⟩, k2, k3⟩
      dsimp only at k1 k2 k3
      subst k2 k3
      refine ⟨by simpa using hlen, ?_⟩
      dsimp only
      rw [runs_bind]
      refine (AddLanesAll_runs hsa k1 hc ha (by omega) (by omega) hst).mono fun st2 h2 => ?_
      rw [runs_bind]
      refine (permuteAll_runs hp hsa h2).mono fun st3 h3 => ?_
      rw [runs_bind, runs_ptr]
      refine ⟨by omega, ?_⟩
      rw [runs_pure]
      exact ⟨⟨_, h3⟩, rfl, e3⟩

/-- With a serial offset beyond the data of the first block, the pointer leaves the array. -/
theorem FastLoop_serial_oob {perm : Mem V4 → C (Mem V4)} {π : St → St} (hp : PermSpec perm π) {sa c p s da d len : Nat} {st data : Mem UInt8} {b : St} {M : Nat → UInt8}
    (hsa : sa % 32 = 0) (h : Holds4 st b) (hc : c ≤ 25) (hc21 : c ≠ 21) (ha : (da + d) % 8 = 0) (hu : 8 * (p * 3 + c) < 4294967296) (h0 : 0 < p * 3 + c)
    (hd : data.Has d len M) (hlen : 8 * (p * 3 + c) ≤ len) (hus : 8 * s < 4294967296) (hs : data.size < d + 8 * s) :
    FastLoop_Absorb perm sa st c p s da data d len = .ub .oob := by
  have hsz := hd.le_size (by omega)
  have e1 : SnP.u (SnP.u (SnP.u (p * 3) + c) * 8) = 8 * (p * 3 + c) := by unfold SnP.u; omega
  have e2 : SnP.u (s * 8) = 8 * s := by unfold SnP.u; omega
  unfold FastLoop_Absorb
  rw [e1, e2]
  refine bind_ub_of (P := fun _ => True) trivial fun _ _ => ?_
  rw [decide_eq_false hc21]
  refine ub_bind (cwhile_ub (by omega) (by simp; omega) ?_)
  dsimp only
  refine bind_ub_of (AddLanesAll_runs hsa h hc ha (by omega) (by omega) (streams_block (s := 0) (q := 0) hd (by omega))) fun st2 h2 => ?_
  refine bind_ub_of (permuteAll_runs hp hsa h2) fun st3 h3 => ?_
  exact ub_bind (ptr_ub (by omega))

end Verif.Avx.SnP
