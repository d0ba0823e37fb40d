import Verif.C.Bytes

/-! # What a run that returned tells about its buffers

`Post m Q`: if the run of `m` returns, its value satisfies `Q` (nothing is claimed if it is undefined or does not return). -/

namespace Verif

variable {α β σ : Type}

/-- If the run returns, then with a value satisfying `Q`. -/
def Post (m : C α) (Q : α → Prop) : Prop :=
  match m with
  | .ok v _ => Q v
  | _ => True

/-- The cells `o .. o + n` of `m` exist and are initialised. -/
def Mem.Init (m : Mem α) (o n : Nat) : Prop := ∀ i, i < n → ∃ v, m[o + i]? = some (some v)

theorem Mem.Init.size {m : Mem α} {o n : Nat} (h : m.Init o n) (hn : 0 < n) : o + n ≤ m.size := by
  obtain ⟨v, hv⟩ := h (n - 1) (by omega)
  obtain ⟨hlt, _⟩ := Array.getElem?_eq_some_iff.1 hv
  omega

theorem Mem.Init.append {m : Mem α} {o n n' : Nat} (h : m.Init o n) (h' : m.Init (o + n) n') : m.Init o (n + n') := fun i hi => by
  by_cases hin : i < n
  · exact h i hin
  · obtain ⟨v, hv⟩ := h' (i - n) (by omega)
    exact ⟨v, by rw [← hv]; congr 1; omega⟩

theorem Mem.Holds.init {m : Mem α} {o : Nat} {l : List α} (h : m.Holds o l) : m.Init o l.length := fun i hi => ⟨_, h i hi⟩

theorem Mem.Init.holds {m : Mem α} {o n : Nat} (h : m.Init o n) : ∃ l : List α, l.length = n ∧ m.Holds o l := by
  refine ⟨List.ofFn fun i : Fin n => Classical.choose (h i i.2), List.length_ofFn, fun i hi => ?_⟩
  rw [List.getElem_ofFn]
  exact Classical.choose_spec (h i (by rwa [List.length_ofFn] at hi))

theorem Post.mono {m : C α} {P Q : α → Prop} (h : Post m P) (hPQ : ∀ v, P v → Q v) : Post m Q := by
  cases m with
  | ok v t => exact hPQ v h
  | ub u => trivial
  | diverge => trivial

theorem Post.all {m : C α} {Q : α → Prop} (h : ∀ v, Q v) : Post m Q := by
  cases m with
  | ok v t => exact h v
  | ub u => trivial
  | diverge => trivial

theorem Post.and {m : C α} {P Q : α → Prop} (h : Post m P) (h' : Post m Q) : Post m (fun v => P v ∧ Q v) := by
  cases m with
  | ok v t => exact ⟨h, h'⟩
  | ub u => trivial
  | diverge => trivial

theorem Post.ok {m : C α} {Q : α → Prop} (h : Post m Q) {v : α} {t : Trace} (hm : m = .ok v t) : Q v := by subst hm; exact h

theorem post_pure {v : α} {Q : α → Prop} (h : Q v) : Post (pure v) Q := h

theorem Post.bind {m : C α} {f : α → C β} {P : α → Prop} {Q : β → Prop} (h : Post m P) (hf : ∀ v, P v → Post (f v) Q) : Post (m >>= f) Q := by
  show Post (C.bind m f) Q
  cases m with
  | ok v t =>
    have := hf v h
    simp only [C.bind]
    cases hv : f v with
    | ok w t' => rw [hv] at this; exact this
    | ub u => trivial
    | diverge => trivial
  | ub u => trivial
  | diverge => trivial

/-- A step that the claim does not depend on. -/
theorem Post.skip {m : C α} {f : α → C β} {Q : β → Prop} (hf : ∀ v, Post (f v) Q) : Post (m >>= f) Q :=
  Post.bind (P := fun _ => True) (Post.all fun _ => trivial) fun v _ => hf v

theorem post_rd {m : Mem α} {i : Nat} : Post (rd m i) (fun v => m[i]? = some (some v)) := by
  unfold rd
  cases h : m[i]? with
  | none => trivial
  | some c => cases c with
    | none => trivial
    | some v => rfl

theorem post_wr {m : Mem α} {i : Nat} {x : α} : Post (wr m i x) (fun m' => i < m.size ∧ m' = m.setIfInBounds i (some x)) := by
  unfold wr
  split
  · exact ⟨by assumption, rfl⟩
  · trivial

theorem post_wr_size {m : Mem α} {i : Nat} {x : α} : Post (wr m i x) (fun m' => m'.size = m.size ∧ i < m.size) :=
  post_wr.mono fun m' h => ⟨by rw [h.2, Array.size_setIfInBounds], h.1⟩

theorem post_cif {c : Bool} {a b : C α} {Q : α → Prop} (ha : c = true → Post a Q) (hb : c = false → Post b Q) : Post (cif c a b) Q := by
  unfold cif
  refine Post.skip fun _ => ?_
  cases c
  · exact hb rfl
  · exact ha rfl

theorem post_cforFrom {body : Nat → σ → C σ} (Inv : Nat → σ → Prop) : ∀ (n i : Nat) (s : σ), Inv i s →
    (∀ k s, i ≤ k → k < i + n → Inv k s → Post (body k s) (Inv (k + 1))) → Post (cforFrom body n i s) (Inv (i + n))
  | 0, i, s, h, _ => Post.skip fun _ => post_pure h
  | n + 1, i, s, h, hs => Post.skip fun _ => Post.bind (hs i s (Nat.le_refl _) (by omega) h) fun s' h' => by
      have := post_cforFrom (body := body) Inv n (i + 1) s' h' (fun k s hk hk' => hs k s (by omega) (by omega))
      rwa [show i + (n + 1) = i + 1 + n from by omega]

theorem post_cfor {lo hi : Nat} {s : σ} {body : Nat → σ → C σ} (Inv : Nat → σ → Prop) (hle : lo ≤ hi) (h0 : Inv lo s)
    (hs : ∀ i s, lo ≤ i → i < hi → Inv i s → Post (body i s) (Inv (i + 1))) : Post (cfor lo hi s body) (Inv hi) := by
  have := post_cforFrom (body := body) Inv (hi - lo) lo s h0 (fun k s hk hk' => hs k s hk (by omega))
  rwa [show lo + (hi - lo) = hi from by omega] at this

/-- A `for` loop all of whose rounds keep `J`, and each of which only returns if `R i`. -/
theorem post_for {lo hi : Nat} {s : σ} {body : Nat → σ → C σ} (J : σ → Prop) (R : Nat → Prop) (h0 : J s)
    (hs : ∀ i s, lo ≤ i → i < hi → J s → Post (body i s) (fun s' => J s' ∧ R i)) : Post (cfor lo hi s body) (fun s' => J s' ∧ ∀ i, lo ≤ i → i < hi → R i) := by
  by_cases hle : lo ≤ hi
  · exact (post_cfor (fun k s => J s ∧ ∀ i, lo ≤ i → i < k → R i) hle ⟨h0, fun i h1 h2 => by omega⟩ fun i s h1 h2 hI =>
      (hs i s h1 h2 hI.1).mono fun s' h => ⟨h.1, fun j hj hj' => by
        by_cases e : j = i
        · rw [e]; exact h.2
        · exact hI.2 j hj (by omega)⟩)
  · unfold cfor
    rw [show hi - lo = 0 from by omega]
    exact Post.skip fun _ => post_pure ⟨h0, fun i h1 h2 => by omega⟩

theorem post_cwhile {cond : σ → Bool} {body : σ → C σ} (Inv : σ → Prop) (hs : ∀ s, cond s = true → Inv s → Post (body s) Inv) :
    ∀ (fuel : Nat) (s : σ), Inv s → Post (cwhile fuel cond body s) (fun s' => Inv s' ∧ cond s' = false)
  | 0, _, _ => trivial
  | fuel + 1, s, h => by
    unfold cwhile
    cases hc : cond s
    · simp only [Bool.false_eq_true, if_false]
      exact Post.skip fun _ => post_pure ⟨h, hc⟩
    · simp only [if_true]
      exact Post.skip fun _ => Post.bind (hs s hc h) fun s' h' => post_cwhile Inv hs fuel s' h'

theorem post_memcpy {d s : Mem UInt8} {dof sof n : Nat} : Post (memcpy d dof s sof n) (fun d' => d'.size = d.size ∧ (0 < n → dof + n ≤ d.size) ∧ s.Init sof n) := by
  refine (post_for (fun d' : Mem UInt8 => d'.size = d.size) (fun i => dof + i < d.size ∧ ∃ v, s[sof + i]? = some (some v)) rfl fun i d' _ _ h => ?_).mono
    fun d' h => ⟨h.1, fun hn => ?_, fun i hi => (h.2 i (by omega) hi).2⟩
  · exact Post.bind post_rd fun v hv => post_wr_size.mono fun m' hm => ⟨hm.1.trans h, by rw [← h]; exact hm.2, v, hv⟩
  · have := (h.2 (n - 1) (by omega) (by omega)).1
    omega

end Verif
