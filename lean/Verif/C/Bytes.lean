import Verif.C.Logic

/-! # Strings in memory

The vocabulary in which the property theorems describe buffers. -/

namespace Verif

variable {α : Type}

/-- The list `l` is stored at offset `o` of `m`. -/
def Mem.Holds (m : Mem α) (o : Nat) (l : List α) : Prop :=
  ∀ i (h : i < l.length), m[o + i]? = some (some l[i])

/-- `m'` is `m` with exactly the cells `o .. o + l.length` replaced by `l`. -/
structure Mem.Wrote (m m' : Mem α) (o : Nat) (l : List α) : Prop where
  size : m'.size = m.size
  holds : m'.Holds o l
  frame : ∀ j, (j < o ∨ o + l.length ≤ j) → m'[j]? = m[j]?

theorem Mem.Holds.has {m : Mem α} {o : Nat} {l : List α} (h : m.Holds o l) (d : α) :
    m.Has o l.length (fun i => l.getD i d) := fun i hi => by
  rw [h i hi]; simp [hi]

theorem Mem.Has.holds {m : Mem α} {o n : Nat} {f : Nat → α} (h : m.Has o n f) :
    m.Holds o ((List.range n).map f) := fun i hi => by
  simp at hi
  rw [h i hi]; simp

theorem Mem.Has.holds_of {m : Mem α} {o n : Nat} {f : Nat → α} (h : m.Has o n f) {l : List α} (hn : l.length = n)
    (hl : ∀ i (hi : i < l.length), f i = l[i]) : m.Holds o l := fun i hi => by
  rw [h i (by omega), hl i hi]

theorem Mem.Upd.wrote_of {m m' : Mem α} {o n : Nat} {f : Nat → α} (h : m.Upd m' o n f) {l : List α} (hn : l.length = n)
    (hl : ∀ i (hi : i < l.length), f i = l[i]) : m.Wrote m' o l :=
  ⟨h.size, h.has.holds_of hn hl, fun j hj => h.frame j (by omega)⟩

theorem Mem.Upd.wrote {m m' : Mem α} {o n : Nat} {f : Nat → α} (h : m.Upd m' o n f) :
    m.Wrote m' o ((List.range n).map f) :=
  h.wrote_of (by simp) (by simp)

theorem Mem.Wrote.upd {m m' : Mem α} {o : Nat} {l : List α} (h : m.Wrote m' o l) (d : α) :
    m.Upd m' o l.length (fun i => l.getD i d) := ⟨h.size, h.holds.has d, h.frame⟩

theorem Mem.holds_ofList (l : List α) : (Mem.ofList l).Holds 0 l := fun i hi => by
  simp [Mem.ofList, hi]

theorem Mem.holds_nil (m : Mem α) (o : Nat) : m.Holds o [] := fun i hi => by simp at hi

theorem Mem.Holds.append {m : Mem α} {o : Nat} {l l' : List α} :
    m.Holds o (l ++ l') ↔ m.Holds o l ∧ m.Holds (o + l.length) l' := by
  constructor
  · intro h
    refine ⟨fun i hi => ?_, fun i hi => ?_⟩
    · rw [h i (by simp; omega), List.getElem_append_left hi]
    · have := h (l.length + i) (by simp; omega)
      rw [List.getElem_append_right (by omega)] at this
      simpa [Nat.add_assoc] using this
  · rintro ⟨h, h'⟩ i hi
    simp at hi
    by_cases hl : i < l.length
    · rw [h i hl, List.getElem_append_left hl]
    · have := h' (i - l.length) (by omega)
      rw [show o + l.length + (i - l.length) = o + i from by omega] at this
      rw [this, List.getElem_append_right (by omega)]

theorem Mem.Holds.unique {m : Mem α} {o : Nat} {l l' : List α} (h : m.Holds o l) (h' : m.Holds o l')
    (hl : l.length = l'.length) : l = l' := by
  apply List.ext_getElem hl
  intro i h1 h2
  have := h i h1
  rw [h' i h2] at this
  simpa using this.symm

/-- Two adjacent writes make one. -/
theorem Mem.Wrote.append {m m' m'' : Mem α} {o : Nat} {l l' : List α} (h : m.Wrote m' o l)
    (h' : m'.Wrote m'' (o + l.length) l') : m.Wrote m'' o (l ++ l') := by
  refine ⟨h'.size.trans h.size, ?_, ?_⟩
  · rw [Mem.Holds.append]
    exact ⟨fun i hi => by rw [h'.frame _ (by omega)]; exact h.holds i hi, h'.holds⟩
  · intro j hj
    simp at hj
    rw [h'.frame _ (by omega), h.frame _ (by omega)]

theorem Mem.Wrote.nil (m : Mem α) (o : Nat) : m.Wrote m o [] := ⟨rfl, Mem.holds_nil m o, fun _ _ => rfl⟩

/-- `n` elements of `l` from position `a`. -/
def slice (l : List α) (a n : Nat) : List α := (l.drop a).take n

theorem length_slice {l : List α} {a n : Nat} (h : a + n ≤ l.length) : (slice l a n).length = n := by
  simp [slice]; omega

theorem getElem_slice {l : List α} {a n i : Nat} (h : i < (slice l a n).length) (h' : a + i < l.length) : (slice l a n)[i] = l[a + i] := by
  simp [slice]

theorem Mem.Holds.slice {m : Mem α} {o : Nat} {l : List α} (h : m.Holds o l) (a n : Nat) (ha : a + n ≤ l.length) :
    m.Holds (o + a) (slice l a n) := fun i hi => by
  rw [length_slice ha] at hi
  rw [Nat.add_assoc, h (a + i) (by omega), getElem_slice _ (by omega)]

theorem Mem.Holds.getElem? {m : Mem α} {o : Nat} {l : List α} (h : m.Holds o l) (d : α) {i : Nat} (hi : i < l.length) :
    m[o + i]? = some (some (l.getD i d)) := h.has d i hi

/-- A write elsewhere keeps a string. -/
theorem Mem.Wrote.holds_frame {m m' : Mem α} {o o' : Nat} {l l' : List α} (h : m.Wrote m' o l) (h' : m.Holds o' l')
    (hd : o' + l'.length ≤ o ∨ o + l.length ≤ o') : m'.Holds o' l' := fun i hi => by
  rw [h.frame _ (by omega)]; exact h' i hi

theorem flatMap_length {L : Nat → List α} {w n : Nat} (h : ∀ i, (L i).length = w) : ((List.range n).flatMap L).length = w * n := by
  induction n with
  | zero => simp
  | succ n ih => rw [List.range_succ, List.flatMap_append, List.length_append, ih]; simp [h, Nat.mul_succ]

/-- A loop writing the strings `L 0, L 1, ...` one after another, with a scratch value. -/
theorem runs_cat {τ : Type} {m : Mem α} {t0 : τ} {P : τ → Prop} {o w n : Nat} {L : Nat → List α} {body : Nat → Mem α × τ → C (Mem α × τ)}
    (hL : ∀ i, (L i).length = w) (h0 : P t0)
    (h : ∀ i m' t, i < n → m'.size = m.size → P t → Runs (body i (m', t)) (fun s => m'.Wrote s.1 (o + w * i) (L i) ∧ P s.2)) :
    Runs (cfor 0 n (m, t0) body) (fun s => m.Wrote s.1 o ((List.range n).flatMap L) ∧ P s.2) := by
  refine runs_cfor (fun i (s : Mem α × τ) => m.Wrote s.1 o ((List.range i).flatMap L) ∧ P s.2) (Nat.zero_le _) ⟨Mem.Wrote.nil m o, h0⟩ ?_
  rintro i ⟨m', t⟩ _ hi ⟨hu, hP⟩
  refine (h i m' t hi hu.size hP).mono fun s hs => ⟨?_, hs.2⟩
  have hs1 := hs.1
  rw [← flatMap_length (n := i) hL] at hs1
  have := hu.append hs1
  rwa [List.range_succ, List.flatMap_append, List.flatMap_singleton]

/-- The same without scratch value. -/
theorem runs_cat1 {m : Mem α} {o w n : Nat} {L : Nat → List α} {body : Nat → Mem α → C (Mem α)}
    (hL : ∀ i, (L i).length = w)
    (h : ∀ i m', i < n → m'.size = m.size → Runs (body i m') (fun s => m'.Wrote s (o + w * i) (L i))) :
    Runs (cfor 0 n m body) (fun s => m.Wrote s o ((List.range n).flatMap L)) := by
  refine runs_cfor (fun i (s : Mem α) => m.Wrote s o ((List.range i).flatMap L)) (Nat.zero_le _) (Mem.Wrote.nil m o) ?_
  intro i m' _ hi hu
  refine (h i m' hi hu.size).mono fun s hs1 => ?_
  rw [← flatMap_length (n := i) hL] at hs1
  have := hu.append hs1
  rwa [List.range_succ, List.flatMap_append, List.flatMap_singleton]

end Verif
