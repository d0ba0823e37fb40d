import Verif.C.Conv

/-!
# Reasoning rules for the execution model

`Runs m Q`: the run of `m` returns normally (no undefined behaviour, no exhausted fuel) and its value satisfies `Q`.
`Mem.Has m o n f`: cells `o .. o+n` of `m` are initialised and hold `f 0 .. f (n-1)`.
`Mem.Upd m m' o n f`: `m'` is `m` with exactly the cells `o .. o+n` overwritten by `f 0 .. f (n-1)`.
-/

namespace Verif

variable {α β σ : Type}

/-- The run returns normally with a value satisfying `Q`. -/
def Runs (m : C α) (Q : α → Prop) : Prop :=
  match m with
  | .ok v _ => Q v
  | _ => False

instance (m : C α) (Q : α → Prop) [DecidablePred Q] : Decidable (Runs m Q) :=
  match m with
  | .ok v _ => inferInstanceAs (Decidable (Q v))
  | .ub _ => inferInstanceAs (Decidable False)
  | .diverge => inferInstanceAs (Decidable False)

theorem Runs.mono {m : C α} {P Q : α → Prop} (h : Runs m P) (hPQ : ∀ v, P v → Q v) : Runs m Q := by
  cases m with
  | ok v t => exact hPQ v h
  | ub u => exact h
  | diverge => exact h

theorem Runs.and {m : C α} {P Q : α → Prop} (h : Runs m P) (h' : Runs m Q) : Runs m (fun v => P v ∧ Q v) := by
  cases m with
  | ok v t => exact ⟨h, h'⟩
  | ub u => exact h
  | diverge => exact h

theorem Runs.exists_ok {m : C α} {Q : α → Prop} (h : Runs m Q) : ∃ v t, m = .ok v t ∧ Q v := by
  cases m with
  | ok v t => exact ⟨v, t, rfl, h⟩
  | ub u => exact h.elim
  | diverge => exact h.elim

theorem Runs.of_ok {v : α} {t : Trace} {Q : α → Prop} (h : Q v) : Runs (.ok v t) Q := h

@[simp] theorem runs_ok {v : α} {t : Trace} {Q : α → Prop} : Runs (.ok v t) Q ↔ Q v := Iff.rfl
@[simp] theorem runs_ub {u : UB} {Q : α → Prop} : Runs (.ub u) Q ↔ False := Iff.rfl
@[simp] theorem runs_diverge {Q : α → Prop} : Runs (.diverge) Q ↔ False := Iff.rfl

@[simp] theorem runs_pure {v : α} {Q : α → Prop} : Runs (pure v) Q ↔ Q v := Iff.rfl

@[simp] theorem runs_bind {m : C α} {f : α → C β} {Q : β → Prop} :
    Runs (m >>= f) Q ↔ Runs m (fun v => Runs (f v) Q) := by
  show Runs (C.bind m f) Q ↔ _
  cases m with
  | ok v t =>
    simp only [C.bind, runs_ok]
    cases f v <;> rfl
  | ub u => rfl
  | diverge => rfl

theorem Runs.bind {m : C α} {f : α → C β} {P : α → Prop} {Q : β → Prop} (h : Runs m P)
    (hf : ∀ v, P v → Runs (f v) Q) : Runs (m >>= f) Q := by
  rw [runs_bind]; exact h.mono hf

@[simp] theorem runs_map {m : C α} {f : α → β} {Q : β → Prop} :
    Runs (f <$> m) Q ↔ Runs m (fun v => Q (f v)) := by
  show Runs (C.bind m _) Q ↔ _
  cases m <;> simp [C.bind] <;> rfl

@[simp] theorem runs_leak {l : Leak} {Q : Unit → Prop} : Runs (C.leak l) Q ↔ Q () := Iff.rfl

theorem runs_rd {m : Mem α} {i : Nat} {Q : α → Prop} :
    Runs (rd m i) Q ↔ ∃ v, m[i]? = some (some v) ∧ Q v := by
  unfold rd
  cases h : m[i]? with
  | none => simp
  | some c => cases c <;> simp

theorem runs_rd_of {m : Mem α} {i : Nat} {v : α} (h : m[i]? = some (some v)) {Q : α → Prop} :
    Runs (rd m i) Q ↔ Q v := by
  rw [runs_rd, h]; simp

theorem runs_wr {m : Mem α} {i : Nat} {v : α} {Q : Mem α → Prop} :
    Runs (wr m i v) Q ↔ i < m.size ∧ Q (m.setIfInBounds i (some v)) := by
  unfold wr; split <;> simp [*]

theorem runs_at {m : Array α} {i : Nat} {Q : α → Prop} :
    Runs (at' m i) Q ↔ ∃ v, m[i]? = some v ∧ Q v := by
  unfold at'
  cases h : m[i]? <;> simp

theorem runs_put {m : Array α} {i : Nat} {v : α} {Q : Array α → Prop} :
    Runs (put' m i v) Q ↔ i < m.size ∧ Q (m.setIfInBounds i v) := by
  unfold put'; split <;> simp [*]

@[simp] theorem runs_cif {c : Bool} {a b : C α} {Q : α → Prop} :
    Runs (cif c a b) Q ↔ (c = true → Runs a Q) ∧ (c = false → Runs b Q) := by
  unfold cif; cases c <;> simp

theorem runs_ckInt {x : Int} {Q : Int → Prop} :
    Runs (ckInt x) Q ↔ (-2147483648 ≤ x ∧ x ≤ 2147483647) ∧ Q x := by
  unfold ckInt; split <;> simp [*]

theorem runs_iadd {a b : Int} {Q : Int → Prop} :
    Runs (iadd a b) Q ↔ (-2147483648 ≤ a + b ∧ a + b ≤ 2147483647) ∧ Q (a + b) := runs_ckInt
theorem runs_isub {a b : Int} {Q : Int → Prop} :
    Runs (isub a b) Q ↔ (-2147483648 ≤ a - b ∧ a - b ≤ 2147483647) ∧ Q (a - b) := runs_ckInt
theorem runs_imul {a b : Int} {Q : Int → Prop} :
    Runs (imul a b) Q ↔ (-2147483648 ≤ a * b ∧ a * b ≤ 2147483647) ∧ Q (a * b) := runs_ckInt
theorem runs_ineg {a : Int} {Q : Int → Prop} :
    Runs (ineg a) Q ↔ (-2147483648 ≤ -a ∧ -a ≤ 2147483647) ∧ Q (-a) := runs_ckInt
theorem runs_ishl {a : Int} {k : Nat} {Q : Int → Prop} :
    Runs (ishl a k) Q ↔ 0 ≤ a ∧ (-2147483648 ≤ a * 2 ^ k ∧ a * 2 ^ k ≤ 2147483647) ∧ Q (a * 2 ^ k) := by
  unfold ishl; split
  · simp; omega
  · rw [runs_ckInt]; constructor
    · intro h; exact ⟨by omega, h⟩
    · intro h; exact h.2

theorem runs_i16c {x : Int} {Q : Int16 → Prop} :
    Runs (i16c x) Q ↔ (-32768 ≤ x ∧ x ≤ 32767) ∧ Q (i16 x) := by
  unfold i16c; split <;> simp [*]

/-! ## Loops -/

theorem runs_cforFrom {body : Nat → σ → C σ} (Inv : Nat → σ → Prop) :
    ∀ (n i : Nat) (s : σ), Inv i s →
      (∀ k s, i ≤ k → k < i + n → Inv k s → Runs (body k s) (Inv (k + 1))) →
      Runs (cforFrom body n i s) (Inv (i + n))
  | 0, i, s, h, _ => by simpa [cforFrom] using h
  | n + 1, i, s, h, hs => by
    simp only [cforFrom, runs_bind, runs_leak]
    refine (hs i s (Nat.le_refl _) (by omega) h).mono fun s' h' => ?_
    have := runs_cforFrom (body := body) Inv n (i + 1) s' h' (fun k s hk hk' => hs k s (by omega) (by omega))
    rw [show i + (n + 1) = i + 1 + n from by omega]
    exact this

/-- Invariant rule for `for(i = lo; i < hi; i++)`. -/
theorem runs_cfor {lo hi : Nat} {s : σ} {body : Nat → σ → C σ} (Inv : Nat → σ → Prop) (hle : lo ≤ hi)
    (h0 : Inv lo s) (hs : ∀ i s, lo ≤ i → i < hi → Inv i s → Runs (body i s) (Inv (i + 1))) :
    Runs (cfor lo hi s body) (Inv hi) := by
  have := runs_cforFrom (body := body) Inv (hi - lo) lo s h0 (fun k s hk hk' => hs k s hk (by omega))
  rwa [show lo + (hi - lo) = hi from by omega] at this

/-- A `for` loop that is not entered. -/
theorem runs_cfor_empty {lo hi : Nat} {s : σ} {body : Nat → σ → C σ} {Q : σ → Prop} (hle : hi ≤ lo) (h : Q s) :
    Runs (cfor lo hi s body) Q := by
  unfold cfor; rw [show hi - lo = 0 from by omega]; simpa [cforFrom] using h

/-- Iteration-indexed rule for `while`: exactly `N` iterations are made. -/
theorem runs_cwhile {fuel : Nat} {cond : σ → Bool} {body : σ → C σ} {s : σ} (Inv : Nat → σ → Prop) (N : Nat)
    (hf : N < fuel) (h0 : Inv 0 s)
    (hs : ∀ n s, n < N → Inv n s → cond s = true ∧ Runs (body s) (Inv (n + 1)))
    (he : ∀ s, Inv N s → cond s = false) :
    Runs (cwhile fuel cond body s) (Inv N) := by
  suffices ∀ (k fuel n : Nat) (s : σ), n + k = N → k < fuel → Inv n s → Runs (cwhile fuel cond body s) (Inv N) from
    this N fuel 0 s (by omega) hf h0
  intro k
  induction k with
  | zero =>
    intro fuel n s hn hk h
    obtain ⟨fuel, rfl⟩ : ∃ f, fuel = f + 1 := ⟨fuel - 1, by omega⟩
    have : n = N := by omega
    subst this
    simpa [cwhile, he s h] using h
  | succ k ih =>
    intro fuel n s hn hk h
    obtain ⟨fuel, rfl⟩ : ∃ f, fuel = f + 1 := ⟨fuel - 1, by omega⟩
    obtain ⟨hc, hb⟩ := hs n s (by omega) h
    simp only [cwhile, hc, if_true, runs_bind, runs_leak]
    exact hb.mono fun s' h' => ih fuel (n + 1) s' (by omega) (by omega) h'

/-- Invariant rule for `while` with a decreasing measure. -/
theorem runs_cwhile_measure {fuel : Nat} {cond : σ → Bool} {body : σ → C σ} {s : σ} (Inv : σ → Prop) (μ : σ → Nat)
    (hf : μ s < fuel) (h0 : Inv s)
    (hs : ∀ s, Inv s → cond s = true → Runs (body s) (fun s' => Inv s' ∧ μ s' < μ s)) :
    Runs (cwhile fuel cond body s) (fun s' => Inv s' ∧ cond s' = false) := by
  induction fuel generalizing s with
  | zero => omega
  | succ fuel ih =>
    unfold cwhile
    split
    · rename_i hc
      simp only [runs_bind, runs_leak]
      refine (hs s h0 hc).mono fun s' h' => ih ?_ h'.1
      have := h'.2; omega
    · rename_i hc
      simp only [runs_bind, runs_leak, runs_pure]
      exact ⟨h0, by simpa using hc⟩

/-! ## Memory predicates -/

/-- Cells `o .. o+n` hold `f 0 .. f (n-1)`. -/
def Mem.Has (m : Mem α) (o n : Nat) (f : Nat → α) : Prop :=
  ∀ i, i < n → m[o + i]? = some (some (f i))

/-- `m'` is `m` with exactly cells `o .. o+n` overwritten by `f 0 .. f (n-1)`. -/
structure Mem.Upd (m m' : Mem α) (o n : Nat) (f : Nat → α) : Prop where
  size : m'.size = m.size
  has : m'.Has o n f
  frame : ∀ j, (j < o ∨ o + n ≤ j) → m'[j]? = m[j]?

theorem Mem.Has.get {m : Mem α} {o n : Nat} {f : Nat → α} (h : m.Has o n f) {j : Nat} (h1 : o ≤ j) (h2 : j < o + n) :
    m[j]? = some (some (f (j - o))) := by
  have := h (j - o) (by omega)
  rwa [show o + (j - o) = j from by omega] at this

theorem Mem.Has.congr {m : Mem α} {o n : Nat} {f g : Nat → α} (h : m.Has o n f) (hfg : ∀ i, i < n → f i = g i) :
    m.Has o n g := fun i hi => by rw [h i hi, hfg i hi]

theorem Mem.Has.mono {m : Mem α} {o n n' : Nat} {f : Nat → α} (h : m.Has o n f) (hn : n' ≤ n) : m.Has o n' f :=
  fun i hi => h i (by omega)

theorem Mem.Has.shift {m : Mem α} {o n : Nat} {f : Nat → α} (h : m.Has o n f) (k n' : Nat) (hn : k + n' ≤ n) :
    m.Has (o + k) n' (fun i => f (k + i)) := fun i hi => by
  have := h (k + i) (by omega)
  rwa [← Nat.add_assoc] at this

theorem Mem.Has.le_size {m : Mem α} {o n : Nat} {f : Nat → α} (h : m.Has o n f) (hn : 0 < n) : o + n ≤ m.size := by
  have := h (n - 1) (by omega)
  have := (Array.getElem?_eq_some_iff.mp this).1
  omega

theorem Mem.Upd.refl (m : Mem α) (o : Nat) (f : Nat → α) : m.Upd m o 0 f :=
  ⟨rfl, fun i hi => by omega, fun _ _ => rfl⟩

theorem Mem.Upd.congr {m m' : Mem α} {o n : Nat} {f g : Nat → α} (h : m.Upd m' o n f)
    (hfg : ∀ i, i < n → f i = g i) : m.Upd m' o n g := ⟨h.size, h.has.congr hfg, h.frame⟩

/-- Two adjacent updates make one. -/
theorem Mem.Upd.append {m m' m'' : Mem α} {o n k : Nat} {f : Nat → α} (h : m.Upd m' o n f)
    (h' : m'.Upd m'' (o + n) k (fun i => f (n + i))) : m.Upd m'' o (n + k) f := by
  refine ⟨h'.size.trans h.size, ?_, ?_⟩
  · intro i hi
    by_cases hin : i < n
    · rw [h'.frame _ (by omega)]; exact h.has i hin
    · have := h'.has (i - n) (by omega)
      rw [show o + n + (i - n) = o + i from by omega] at this
      simpa [show n + (i - n) = i from by omega] using this
  · intro j hj
    rw [h'.frame _ (by omega), h.frame _ (by omega)]

theorem Mem.get?_set {m : Mem α} {i j : Nat} {c : Option α} (hi : i < m.size) :
    (m.setIfInBounds i c)[j]? = if i = j then some c else m[j]? := by
  rw [Array.getElem?_setIfInBounds]
  split <;> rename_i h
  · simp
  · rfl

theorem Mem.Upd.set (m : Mem α) (i : Nat) (v : α) (hi : i < m.size) (f : Nat → α) (hf : f 0 = v) :
    m.Upd (m.setIfInBounds i (some v)) i 1 f := by
  refine ⟨by simp, ?_, ?_⟩
  · intro k hk
    have : k = 0 := by omega
    subst this
    rw [Mem.get?_set hi]; simp [hf]
  · intro j hj
    rw [Mem.get?_set hi, if_neg (by omega)]

/-- Cells outside an update keep what they held. -/
theorem Mem.Upd.has_frame {m m' : Mem α} {o n o' n' : Nat} {f g : Nat → α} (h : m.Upd m' o n f) (hg : m.Has o' n' g)
    (hd : o' + n' ≤ o ∨ o + n ≤ o') : m'.Has o' n' g := fun i hi => by
  rw [h.frame _ (by omega)]; exact hg i hi

/-- Two updates of disjoint ranges, kept separately. -/
theorem Mem.Upd.frame_trans {m m' m'' : Mem α} {o n o' n' : Nat} {f g : Nat → α} (_h : m.Upd m' o n f)
    (h' : m'.Upd m'' o' n' g) {j : Nat} (hj : j < o' ∨ o' + n' ≤ j) : m''[j]? = m'[j]? := h'.frame j hj

/-- An update in which the values also satisfy a relation with a weaker function. -/
theorem Mem.Upd.le_size {m m' : Mem α} {o n : Nat} {f : Nat → α} (h : m.Upd m' o n f) (hn : 0 < n) :
    o + n ≤ m.size := by
  have := h.has.le_size hn; rw [h.size] at this; exact this

/-- Rule for a `for` loop that fills consecutive blocks of `w` cells: if iteration `i`, started in a memory where the blocks before
`i` have been written and the rest is as at the start, writes exactly block `i`, then the whole loop writes exactly all blocks. -/
theorem runs_fill {m : Mem α} {o w n : Nat} {f : Nat → α} {body : Nat → Mem α → C (Mem α)}
    (h : ∀ i m', i < n → m.Upd m' o (w * i) f →
      Runs (body i m') (fun m'' => m'.Upd m'' (o + w * i) w (fun j => f (w * i + j)))) :
    Runs (cfor 0 n m body) (fun m' => m.Upd m' o (w * n) f) := by
  refine runs_cfor (fun i m' => m.Upd m' o (w * i) f) (Nat.zero_le _) ?_ ?_
  · exact Mem.Upd.refl m o f
  · intro i m' _ hi hu
    refine (h i m' hi hu).mono fun m'' h'' => ?_
    have := hu.append h''
    rwa [show w * i + w = w * (i + 1) from by rw [Nat.mul_succ]] at this

/-- The same with one cell per iteration. -/
theorem runs_fill1 {m : Mem α} {o n : Nat} {f : Nat → α} {body : Nat → Mem α → C (Mem α)}
    (h : ∀ i m', i < n → m.Upd m' o i f →
      Runs (body i m') (fun m'' => m'.Upd m'' (o + i) 1 (fun _ => f i))) :
    Runs (cfor 0 n m body) (fun m' => m.Upd m' o n f) := by
  have := runs_fill (m := m) (o := o) (w := 1) (n := n) (f := f) (body := body) (fun i m' hi hu => by
    rw [Nat.one_mul] at *
    refine (h i m' hi hu).mono fun m'' h'' => h''.congr ?_
    intro j hj; have : j = 0 := by omega
    subst this; rfl)
  simpa using this

theorem runs_wr_upd {m : Mem α} {i : Nat} {v : α} (hi : i < m.size) :
    Runs (wr m i v) (fun m' => m.Upd m' i 1 (fun _ => v)) := by
  rw [runs_wr]; exact ⟨hi, Mem.Upd.set m i v hi _ rfl⟩

theorem Mem.Has.runs_rd {m : Mem α} {o n : Nat} {f : Nat → α} (h : m.Has o n f) {i : Nat} (hi : i < n) {Q : α → Prop}
    (hQ : Q (f i)) : Runs (rd m (o + i)) Q := by
  rw [Verif.runs_rd]; exact ⟨_, h i hi, hQ⟩

/-- `memcpy` copies. -/
theorem runs_memcpy {dst src : Mem UInt8} {doff soff n : Nat} {f : Nat → UInt8} (hs : src.Has soff n f)
    (hd : doff + n ≤ dst.size) : Runs (memcpy dst doff src soff n) (fun d => dst.Upd d doff n f) := by
  unfold memcpy
  refine runs_fill1 fun i m' hi hu => ?_
  rw [runs_bind]
  refine hs.runs_rd hi ?_
  exact runs_wr_upd (by rw [hu.size]; omega)

theorem Mem.has_ofList (l : List α) (d : α) : (Mem.ofList l).Has 0 l.length (fun i => l.getD i d) := by
  intro i hi
  simp [Mem.ofList, hi]

@[simp] theorem Mem.size_ofList (l : List α) : (Mem.ofList l).size = l.length := by simp [Mem.ofList]
@[simp] theorem Mem.size_uninit (n : Nat) : (Mem.uninit α n).size = n := by simp [Mem.uninit]

/-- Store into the next cell of a range being filled. -/
theorem runs_wr_next {m0 m : Mem α} {o k i : Nat} {f : Nat → α} {v : α} {Q : Mem α → Prop} (hu : m0.Upd m o k f) (hi : i = o + k)
    (hs : o + k < m0.size) (hv : v = f k) (h : ∀ m', m0.Upd m' o (k + 1) f → Q m') : Runs (wr m i v) Q := by
  subst hi
  refine (runs_wr_upd (by rw [hu.size]; exact hs)).mono fun m' h' => h _ (hu.append (h'.congr fun j hj => ?_))
  have : j = 0 := by omega
  subst this; simpa using hv

theorem Mem.Has.get0 {m : Mem α} {n : Nat} {f : Nat → α} (h : m.Has 0 n f) {i : Nat} (hi : i < n) : m[i]? = some (some (f i)) := by
  have := h i hi; rwa [Nat.zero_add] at this

/-- `runs_fill` for a loop that also carries a scratch value. -/
theorem runs_fill2 {τ : Type} {m : Mem α} {t0 : τ} {P : τ → Prop} {o w n : Nat} {f : Nat → α} {body : Nat → Mem α × τ → C (Mem α × τ)}
    (h0 : P t0)
    (h : ∀ i m' t, i < n → m.Upd m' o (w * i) f → P t →
      Runs (body i (m', t)) (fun s => m'.Upd s.1 (o + w * i) w (fun j => f (w * i + j)) ∧ P s.2)) :
    Runs (cfor 0 n (m, t0) body) (fun s => m.Upd s.1 o (w * n) f ∧ P s.2) := by
  refine runs_cfor (fun i (s : Mem α × τ) => m.Upd s.1 o (w * i) f ∧ P s.2) (Nat.zero_le _) ⟨Mem.Upd.refl m o f, h0⟩ ?_
  rintro i ⟨m', t⟩ _ hi ⟨hu, hP⟩
  refine (h i m' t hi hu hP).mono fun s hs => ⟨?_, hs.2⟩
  have := hu.append hs.1
  rwa [show w * i + w = w * (i + 1) from by rw [Nat.mul_succ]] at this

end Verif
