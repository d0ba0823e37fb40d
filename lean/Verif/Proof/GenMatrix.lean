import Verif.Proof.Sample
import Verif.Proof.Polyvec
import Verif.Model.Indcpa

/-! # Expansion of the public matrix -/

namespace Verif.Proof
open Verif.Model Verif.Spec

/-- Sampling from a second buffer continues sampling from the first: together they sample from the concatenation. -/
theorem RejR.append {r r1 r2 : Mem Int16} {ro len n c1 c2 : Nat} {X Y : List UInt8} (hX : X.length = 3 * n) (h1 : RejR r ro len X r1 c1)
    (h2 : RejR r1 (ro + c1) (len - c1) Y r2 c2) : RejR r ro len (X ++ Y) r2 (c1 + c2) := by
  obtain ⟨w1, e1⟩ := h1
  obtain ⟨w2, e2⟩ := h2
  have key : (accepted (X ++ Y)).take len = (accepted X).take len ++ (accepted Y).take (len - c1) := by
    rw [accepted_append n X Y hX, List.take_append, e1, List.length_take]
    by_cases h : len ≤ (accepted X).length
    · rw [Nat.min_eq_left h, Nat.sub_self, Nat.sub_eq_zero_of_le h]
    · rw [Nat.min_eq_right (by omega)]
  constructor
  · rw [key, List.map_append]
    refine w1.append ?_
    rw [List.length_map, ← e1]
    exact w2
  · rw [key, List.length_append, ← e1, ← e2]

theorem sampled_len {X : List UInt8} {r r' : Mem Int16} {c : Nat} (h : RejR r 0 256 X r' c) : c = (sampled X).length := h.2

/-- A polynomial object holding exactly the canonical representatives of `f`. -/
def PolyCan (r : Mem Int16) (f : Rq) : Prop := r.size = 256 ∧ ∀ i : Fin 256, ∃ x, r[i.val]? = some (some x) ∧ x.toInt = (f i).val

theorem PolyCan.toR {r : Mem Int16} {f : Rq} (h : PolyCan r f) : PolyR r f 3328 := by
  refine PolyR.of_coef h.1 fun i hi => ?_
  obtain ⟨x, h1, h2⟩ := h.2 ⟨i, hi⟩
  have hv := ZMod.val_lt (f ⟨i, hi⟩)
  refine ⟨x, h1, ?_, by omega, by omega⟩
  unfold zq
  rw [h2]
  simp

theorem i16_nat {d : Nat} (h : d < 3329) : (i16 (d : Int)).toInt = d := by
  unfold i16
  rw [Int16.toInt_ofInt_of_le] <;> omega

theorem PolyCan.of_rej {r r' : Mem Int16} {X : List UInt8} {c : Nat} (hr : r.size = 256) (h : RejR r 0 256 X r' c) (hc : c = 256) :
    PolyCan r' (rqOf (sampled X)) := by
  obtain ⟨w, e⟩ := h
  refine ⟨by rw [w.size, hr], fun i => ?_⟩
  have hl : ((accepted X).take 256).length = 256 := by omega
  have := w.holds i.val (by rw [List.length_map, hl]; exact i.isLt)
  rw [Nat.zero_add] at this
  refine ⟨_, this, ?_⟩
  rw [List.getElem_map]
  have hmem : ((accepted X).take 256)[i.val]'(by omega) ∈ accepted X := List.mem_of_mem_take (List.getElem_mem _)
  rw [i16_nat (accepted_lt hmem)]
  unfold rqOf sampled
  rw [List.getD_eq_getElem?_getD, List.getElem?_eq_getElem (by omega), Option.getD_some, ZMod.val_natCast, Nat.mod_eq_of_lt (accepted_lt hmem)]

theorem squeeze_next {B0 : List UInt8} {n k : Nat} {buf : Mem UInt8} {st : KeccakState} (hst : SqS 168 B0 n st) (hn : n % 168 = 0) (hb : k * 168 ≤ buf.size) :
    Runs (xof_squeezeblocks buf 0 k st) (fun v => v.1.size = buf.size ∧ v.1.Holds 0 (kout 168 B0 n (k * 168)) ∧ SqS 168 B0 (n + k * 168) v.2) :=
  (shake128_squeezeblocks_runs hst hn (by omega)).mono fun _ hv => ⟨hv.1.size, hv.1.holds, hv.2⟩

/-- What is known between the iterations of the refill loop, `n` bytes having been squeezed. -/
structure GenR (r : Mem Int16) (B0 : List UInt8) (n : Nat) (s : Poly × Nat × Mem UInt8 × KeccakState) : Prop where
  rej : RejR r 0 256 (kout 168 B0 0 n) s.1 s.2.1
  buf : 504 ≤ s.2.2.1.size
  st : SqS 168 B0 n s.2.2.2

theorem refill_runsG {r : Mem Int16} {B0 : List UInt8} (hr : r.size = 256) {body : Poly × Nat × Mem UInt8 × KeccakState → C (Poly × Nat × Mem UInt8 × KeccakState)}
    (hb : ∀ n s, n % 168 = 0 → GenR r B0 n s → s.2.1 < 256 → Runs (body s) (GenR r B0 (n + 168))) :
    ∀ (F n : Nat) (s : Poly × Nat × Mem UInt8 × KeccakState), n % 168 = 0 → GenR r B0 n s →
      RunsG ((sampled (kout 168 B0 0 (n + 168 * F))).length = 256)
        (cwhile (F + 1) (fun s => decide (s.2.1 < KYBER_N)) body s)
        (fun s => PolyCan s.1 (rqOf (sampled (kout 168 B0 0 (n + 168 * F)))) ∧ 504 ≤ s.2.2.1.size ∧ s.2.2.2.s.size = 25) := by
  have hst : ∀ {n st}, SqS 168 B0 n st → st.s.size = 25 := fun ⟨p, _, h⟩ => by obtain ⟨S, h1, _⟩ := h; exact h1.size
  have stop : ∀ (m n : Nat) (s : Poly × Nat × Mem UInt8 × KeccakState), n % 168 = 0 → GenR r B0 n s → ¬ s.2.1 < 256 →
      sampled (kout 168 B0 0 (n + m)) = sampled (kout 168 B0 0 n) ∧ (sampled (kout 168 B0 0 n)).length = 256 := by
    intro m n s hn h hlt
    have e := sampled_len h.rej
    have hle : (sampled (kout 168 B0 0 n)).length ≤ 256 := by unfold sampled; rw [List.length_take]; omega
    refine ⟨?_, by omega⟩
    unfold sampled at *
    rw [kout_add, accepted_append (n / 3) _ _ (by rw [kout_length]; omega), List.take_append_of_le_length]
    rw [List.length_take] at e; omega
  intro F
  induction F with
  | zero =>
    intro n s hn h
    unfold cwhile
    by_cases hlt : s.2.1 < 256
    · have hlt' : decide (s.2.1 < KYBER_N) = true := decide_eq_true hlt
      rw [if_pos hlt']
      have e := sampled_len h.rej
      refine ⟨fun g => ?_, fun _ => ?_⟩
      · rw [Nat.mul_zero, Nat.add_zero] at g; omega
      · refine Runs.bind_diverge (P := fun _ => True) trivial fun _ _ => ?_
        exact (hb n s hn h hlt).bind_diverge fun _ _ => rfl
    · have hlt' : ¬ decide (s.2.1 < KYBER_N) = true := by rw [decide_eq_true_eq]; exact hlt
      rw [if_neg hlt']
      obtain ⟨e1, e2⟩ := stop 0 n s hn h hlt
      refine ⟨fun _ => ?_, fun g => absurd e2 g⟩
      rw [runs_bind, runs_leak]
      exact ⟨PolyCan.of_rej hr h.rej (by rw [sampled_len h.rej]; exact e2), h.buf, hst h.st⟩
  | succ F ih =>
    intro n s hn h
    rw [cwhile]
    by_cases hlt : s.2.1 < 256
    · have hlt' : decide (s.2.1 < KYBER_N) = true := decide_eq_true hlt
      rw [if_pos hlt']
      refine Runs.bindG (P := fun _ => True) trivial fun _ _ => ?_
      refine Runs.bindG (hb n s hn h hlt) fun s' hs' => ?_
      have := ih (n + 168) s' (by omega) hs'
      rwa [show n + 168 + 168 * F = n + 168 * (F + 1) from by omega] at this
    · have hlt' : ¬ decide (s.2.1 < KYBER_N) = true := by rw [decide_eq_true_eq]; exact hlt
      rw [if_neg hlt']
      obtain ⟨e1, e2⟩ := stop (168 * (F + 1)) n s hn h hlt
      rw [e1]
      refine ⟨fun _ => ?_, fun g => absurd e2 g⟩
      rw [runs_bind, runs_leak]
      exact ⟨PolyCan.of_rej hr h.rej (by rw [sampled_len h.rej]; exact e2), h.buf, hst h.st⟩

/-- The bytes squeezed by `gen_entry` with a given amount of fuel, counted in iterations of SampleNTT. -/
def iters (fuel : Nat) : Nat := 112 + 56 * fuel

theorem nblocks : GEN_MATRIX_NBLOCKS = 3 := by decide
theorem xofblock : XOF_BLOCKBYTES = 168 := rfl

theorem gen_entry_runsG {fuel : Nat} {a : Poly} {buf : Mem UInt8} {st : KeccakState} {B : List UInt8} (ha : a.size = 256) (hb : 504 ≤ buf.size)
    (hst : SqS 168 (padded 168 0x1F B) 0 st) :
    RunsG (SampleNTT (iters fuel) B).isSome (gen_entry fuel a buf st)
      (fun s => PolyCan s.1 ((SampleNTT (iters fuel) B).getD 0) ∧ 504 ≤ s.2.1.size ∧ s.2.2.s.size = 25) := by
  rw [SampleNTT_eq, SHAKE128_eq]
  generalize padded 168 0x1F B = B0 at hst ⊢
  have first : ∀ {Q : Poly × Mem UInt8 × KeccakState → Prop} {g : Prop}, (∀ a' ctr buf' st', GenR a B0 504 (a', ctr, buf', st') → RunsG g
      (cwhile fuel (fun (s : Poly × Nat × Mem UInt8 × KeccakState) => decide (s.2.1 < KYBER_N))
        (fun (a, ctr, buf, state) => do
          let (buf, state) ← xof_squeezeblocks buf 0 1 state
          let buflen := XOF_BLOCKBYTES
          let (a, n) ← rej_uniform a ctr (KYBER_N - ctr) buf buflen
          pure (a, ctr + n, buf, state)) (a', ctr, buf', st') >>= fun s => pure (s.1, s.2.2)) Q) → RunsG g (gen_entry fuel a buf st) Q := by
    intro Q g h
    unfold gen_entry
    refine Runs.bindG (squeeze_next hst rfl (by rw [nblocks]; omega)) fun v hv => ?_
    obtain ⟨buf', st'⟩ := v
    obtain ⟨v1, v2, v3⟩ := hv
    dsimp only at v1 v2 v3 ⊢
    rw [nblocks] at v2 v3
    refine Runs.bindG (rej_uniform_runs (len := 256) v2 (by rw [kout_length]; rfl) (by omega)) fun w hw => ?_
    obtain ⟨a', ctr⟩ := w
    exact h a' ctr buf' st' ⟨hw, by dsimp only; omega, v3⟩
  have body : ∀ n (s : Poly × Nat × Mem UInt8 × KeccakState), n % 168 = 0 → GenR a B0 n s → s.2.1 < 256 → Runs
      ((fun (a, ctr, buf, state) => do
          let (buf, state) ← xof_squeezeblocks buf 0 1 state
          let buflen := XOF_BLOCKBYTES
          let (a, n) ← rej_uniform a ctr (KYBER_N - ctr) buf buflen
          pure (a, ctr + n, buf, state) : Poly × Nat × Mem UInt8 × KeccakState → C (Poly × Nat × Mem UInt8 × KeccakState)) s) (GenR a B0 (n + 168)) := by
    rintro n ⟨a', ctr, buf', st'⟩ hn ⟨h1, h2, h3⟩ hlt
    dsimp only at h1 h2 h3 hlt ⊢
    rw [runs_bind]
    refine (squeeze_next h3 hn (by omega)).mono fun v hv => ?_
    obtain ⟨buf2, st2⟩ := v
    obtain ⟨v1, v2, v3⟩ := hv
    dsimp only at v1 v2 v3 ⊢
    rw [runs_bind]
    refine (rej_uniform_runs (r := a') (ro := ctr) (len := 256 - ctr) v2 (by rw [kout_length]; rfl) (by rw [h1.1.size]; omega)).mono fun w hw => ?_
    obtain ⟨a2, c2⟩ := w
    refine ⟨?_, by dsimp only; omega, ?_⟩
    · dsimp only at hw ⊢
      rw [kout_add]
      refine RejR.append (n := n / 3) (by rw [kout_length]; omega) h1 ?_
      rwa [Nat.zero_add, Nat.zero_add]
    · simpa using v3
  cases fuel with
  | zero =>
    have hshort : ¬ (sampled (kout 168 B0 0 (3 * iters 0))).length = 256 := by
      have h1 := accepted_length (kout 168 B0 0 (3 * iters 0))
      rw [kout_length] at h1
      unfold sampled
      rw [List.length_take]
      have : iters 0 = 112 := rfl
      omega
    rw [if_neg hshort]
    refine (first (g := False) (Q := fun _ => False) fun a' ctr buf' st' _ => ⟨fun h => h.elim, fun _ => rfl⟩).congr (by simp) |>.mono fun _ h => h.elim
  | succ F =>
    have e : 3 * iters (F + 1) = 504 + 168 * F := by unfold iters; omega
    rw [e]
    have h := first (g := (sampled (kout 168 B0 0 (504 + 168 * F))).length = 256) fun a' ctr buf' st' h =>
      (refill_runsG ha body F 504 (a', ctr, buf', st') rfl h).bindR
        (Q := fun (s : Poly × Mem UInt8 × KeccakState) => PolyCan s.1 (rqOf (sampled (kout 168 B0 0 (504 + 168 * F)))) ∧
          504 ≤ s.2.1.size ∧ s.2.2.s.size = 25) fun s hs => (runs_pure.2 hs)
    by_cases c : (sampled (kout 168 B0 0 (504 + 168 * F))).length = 256
    · rw [if_pos c]
      exact h.congr (by simp [c])
    · rw [if_neg c]
      exact ⟨fun g => by simp at g, fun _ => h.2 c⟩

/-- A matrix of `k` by `k` polynomial objects, in any state. -/
structure MatSz (k : Nat) (a : Array Polyvec) : Prop where
  size : a.size = k
  row : ∀ i, i < k → ∃ v, a[i]? = some v ∧ VecSz k v

/-- Entry `(i, j)` of a matrix object holds exactly the canonical representatives of `f`. -/
def EntryR (a : Array Polyvec) (i j : Nat) (f : Rq) : Prop := ∃ v q, a[i]? = some v ∧ v[j]? = some q ∧ PolyCan q f

/-- A matrix object holding canonical representatives of `A`. -/
def MatR (k : Nat) (a : Array Polyvec) (A : Nat → Nat → Rq) : Prop := MatSz k a ∧ ∀ i j, i < k → j < k → EntryR a i j (A i j)

theorem MatR.vec {k : Nat} {a : Array Polyvec} {A : Nat → Nat → Rq} (h : MatR k a A) {i : Nat} (hi : i < k) :
    ∃ v, a[i]? = some v ∧ VecR k v (A i) 3328 := by
  obtain ⟨v, hv, hs⟩ := h.1.row i hi
  refine ⟨v, hv, hs.size, fun j hj => ?_⟩
  obtain ⟨v', q, h1, h2, h3⟩ := h.2 i j hi hj
  rw [hv] at h1
  cases h1
  exact ⟨q, h2, h3.toR⟩

theorem matSz_uninit (p : ParamSet) : MatSz (KYBER_K p) (Matrix.uninit p) :=
  ⟨by unfold Matrix.uninit; exact Array.size_replicate, fun i hi => ⟨Polyvec.uninit p, by
    unfold Matrix.uninit
    rw [Array.getElem?_replicate, if_pos hi], vecSz_uninit p⟩⟩

theorem MatSz.set {k : Nat} {a : Array Polyvec} (h : MatSz k a) {i j : Nat} {v : Polyvec} {q : Poly} (hi : i < k) (_hj : j < k) (hv : a[i]? = some v)
    (hq : q.size = 256) : MatSz k (a.setIfInBounds i (v.setIfInBounds j q)) := by
  refine ⟨by rw [Array.size_setIfInBounds, h.size], fun i' hi' => ?_⟩
  by_cases e : i' = i
  · subst e
    obtain ⟨v', hv', hs⟩ := h.row i' hi'
    rw [hv] at hv'
    cases hv'
    refine ⟨_, arr_set_self (by rw [h.size]; exact hi), by rw [Array.size_setIfInBounds, hs.size], fun j' hj' => ?_⟩
    by_cases e' : j' = j
    · subst e'
      exact ⟨q, arr_set_self (by rw [hs.size]; exact hj'), hq⟩
    · rw [Array.getElem?_setIfInBounds_ne (Ne.symm e')]
      exact hs.get j' hj'
  · rw [Array.getElem?_setIfInBounds_ne (Ne.symm e)]
    exact h.row i' hi'

theorem EntryR.set_ne {k : Nat} {a : Array Polyvec} (h : MatSz k a) {i j i' j' : Nat} {v : Polyvec} {q : Poly} {f : Rq} (hi : i < k) (hv : a[i]? = some v)
    (hne : i' ≠ i ∨ j' ≠ j) (he : EntryR a i' j' f) : EntryR (a.setIfInBounds i (v.setIfInBounds j q)) i' j' f := by
  obtain ⟨v', q', h1, h2, h3⟩ := he
  by_cases e : i' = i
  · subst e
    rw [hv] at h1
    cases h1
    refine ⟨_, q', arr_set_self (by rw [h.size]; exact hi), ?_, h3⟩
    rw [Array.getElem?_setIfInBounds_ne (by omega)]
    exact h2
  · refine ⟨v', q', ?_, h2, h3⟩
    rw [Array.getElem?_setIfInBounds_ne (Ne.symm e)]
    exact h1

theorem EntryR.set_self {k : Nat} {a : Array Polyvec} (h : MatSz k a) {i j : Nat} {v : Polyvec} {q : Poly} {f : Rq} (hi : i < k) (hj : j < k) (hv : a[i]? = some v)
    (hq : PolyCan q f) : EntryR (a.setIfInBounds i (v.setIfInBounds j q)) i j f := by
  obtain ⟨v', hv', hs⟩ := h.row i hi
  rw [hv] at hv'
  cases hv'
  exact ⟨_, q, arr_set_self (by rw [h.size]; exact hi), arr_set_self (by rw [hs.size]; exact hj), hq⟩

/-- The seed of entry `(i, j)` of the (transposed) matrix. -/
def entrySeed (ρ : List UInt8) (transposed : Bool) (i j : Nat) : List UInt8 :=
  if transposed then ρ ++ [UInt8.ofNat i, UInt8.ofNat j] else ρ ++ [UInt8.ofNat j, UInt8.ofNat i]

structure GmR (k fuel : Nat) (ρ : List UInt8) (tr : Bool) (done : Nat → Nat → Prop) (s : Array Polyvec × Mem UInt8 × KeccakState) : Prop where
  mat : MatSz k s.1
  ent : ∀ i j, i < k → j < k → done i j → EntryR s.1 i j ((SampleNTT (iters fuel) (entrySeed ρ tr i j)).getD 0)
  buf : 504 ≤ s.2.1.size
  st : s.2.2.s.size = 25

theorem gen_matrix_runsG {p : ParamSet} {fuel : Nat} {a : Array Polyvec} {seed : Mem UInt8} {so : Nat} {ρ : List UInt8} (tr : Bool) (ha : MatSz (KYBER_K p) a)
    (hρ : seed.Holds so ρ) (hl : ρ.length = 32) :
    RunsG (∀ i, i < KYBER_K p → ∀ j, j < KYBER_K p → (SampleNTT (iters fuel) (entrySeed ρ tr i j)).isSome)
      (gen_matrix p fuel a seed so tr)
      (fun a => MatR (KYBER_K p) a fun i j => (SampleNTT (iters fuel) (entrySeed ρ tr i j)).getD 0) := by
  unfold gen_matrix
  generalize KYBER_K p = k at *
  refine RunsG.bindR (P := fun s => GmR k fuel ρ tr (fun i _ => i < k) s) ?_ fun s hs => ⟨hs.mat, fun i j hi hj => hs.ent i j hi hj hi⟩
  refine runsG_cfor (fun i s => GmR k fuel ρ tr (fun i' _ => i' < i) s) ⟨ha, fun i j _ _ h => by omega, by rw [nblocks, xofblock, Mem.size_uninit],
    by unfold KeccakState.uninit; exact Mem.size_uninit _⟩ fun i s hi hs => ?_
  refine (runsG_cfor (fun j s => GmR k fuel ρ tr (fun i' j' => i' < i ∨ (i' = i ∧ j' < j)) s)
    ⟨hs.mat, fun i' j' h1 h2 h3 => hs.ent i' j' h1 h2 (by omega), hs.buf, hs.st⟩ fun j s hj hs => ?_).mono fun s hs =>
    ⟨hs.mat, fun i' j' h1 h2 h3 => hs.ent i' j' h1 h2 (by omega), hs.buf, hs.st⟩
  obtain ⟨m, buf, st⟩ := s
  obtain ⟨hm, he, hb, hst⟩ := hs
  dsimp only at hm he hb hst ⊢
  have habs : Runs (cif tr (xof_absorb st seed so (UInt8.ofNat i) (UInt8.ofNat j)) (xof_absorb st seed so (UInt8.ofNat j) (UInt8.ofNat i)))
      (fun st => SqS 168 (padded 168 0x1F (entrySeed ρ tr i j)) 0 st) := by
    rw [runs_cif]
    unfold entrySeed
    cases tr
    · exact ⟨fun h => absurd h (by simp), fun _ => xof_absorb_runs hst hρ hl _ _⟩
    · exact ⟨fun _ => xof_absorb_runs hst hρ hl _ _, fun h => absurd h (by simp)⟩
  refine habs.bindG fun st' hst' => ?_
  obtain ⟨v, hv, hvs⟩ := hm.row i hi
  obtain ⟨q, hq, hqs⟩ := hvs.get j hj
  refine Runs.bindG (P := (· = v)) (by rw [runs_at]; exact ⟨v, hv, rfl⟩) fun v' hv' => ?_
  subst hv'
  refine Runs.bindG (P := (· = q)) (by rw [runs_at]; exact ⟨q, hq, rfl⟩) fun q' hq' => ?_
  subst hq'
  refine (gen_entry_runsG hqs hb hst').bindR fun w hw => ?_
  obtain ⟨q2, buf2, st2⟩ := w
  obtain ⟨hq2, hb2, hst2⟩ := hw
  dsimp only at hq2 hb2 hst2 ⊢
  rw [runs_bind, runs_put]
  refine ⟨by rw [hvs.size]; exact hj, ?_⟩
  rw [runs_bind, runs_put]
  refine ⟨by rw [hm.size]; exact hi, ?_⟩
  refine ⟨hm.set hi hj hv hq2.1, fun i' j' h1 h2 h3 => ?_, hb2, hst2⟩
  dsimp only
  by_cases e : i' = i ∧ j' = j
  · obtain ⟨rfl, rfl⟩ := e
    exact EntryR.set_self hm hi hj hv hq2
  · exact EntryR.set_ne hm hi hv (by omega) (he i' j' h1 h2 (by omega))

/-- `gen_matrix` against ExpandA: the matrix or its transpose. -/
theorem gen_matrix_runsO {p : ParamSet} {fuel : Nat} {a : Array Polyvec} {seed : Mem UInt8} {so : Nat} {ρ : List UInt8} (tr : Bool) (ha : MatSz (KYBER_K p) a)
    (hρ : seed.Holds so ρ) (hl : ρ.length = 32) :
    RunsO (gen_matrix p fuel a seed so tr) (ExpandA (KYBER_K p) (iters fuel) ρ)
      (fun A a => MatR (KYBER_K p) a fun i j => if tr then A j i else A i j) := by
  have h := gen_matrix_runsG (fuel := fuel) tr ha hρ hl
  unfold ExpandA
  by_cases c : ∀ i < KYBER_K p, ∀ j < KYBER_K p, (SampleNTT (iters fuel) (ρ ++ [UInt8.ofNat j, UInt8.ofNat i])).isSome
  · rw [if_pos c, runsO_some]
    have hg : ∀ i, i < KYBER_K p → ∀ j, j < KYBER_K p → (SampleNTT (iters fuel) (entrySeed ρ tr i j)).isSome := by
      intro i hi j hj
      unfold entrySeed
      cases tr
      · exact c i hi j hj
      · exact c j hj i hi
    refine (h.1 hg).mono fun m hm => ?_
    unfold entrySeed at hm
    cases tr
    · exact hm
    · exact hm
  · rw [if_neg c, runsO_none]
    refine h.2 fun hg => c fun i hi j hj => ?_
    unfold entrySeed at hg
    cases tr
    · exact hg i hi j hj
    · exact hg j hj i hi

theorem sampleNTT_mono (N N' : Nat) (hN : N ≤ N') (B : List UInt8) (f : Rq) (h : SampleNTT N B = some f) : SampleNTT N' B = some f := by
  rw [SampleNTT_eq] at h ⊢
  obtain ⟨d, rfl⟩ : ∃ d, N' = N + d := ⟨N' - N, by omega⟩
  have e : sampled (SHAKE128 B (3 * N)) = sampled (SHAKE128 B (3 * (N + d))) ∨ ¬ (sampled (SHAKE128 B (3 * N))).length = 256 := by
    by_cases c : (sampled (SHAKE128 B (3 * N))).length = 256
    · left
      unfold sampled at c ⊢
      rw [SHAKE128_eq, SHAKE128_eq, Nat.mul_add, kout_add, accepted_append N _ _ (kout_length ..), List.take_append_of_le_length]
      rw [SHAKE128_eq, List.length_take] at c
      omega
    · exact Or.inr c
  rcases e with e | e
  · rw [← e]; exact h
  · rw [if_neg e] at h; simp at h

end Verif.Proof
