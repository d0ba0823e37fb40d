import Verif.Model.TestSpeed
import Verif.Spec.TestSpeed
import Verif.Proof.Speed
import Verif.C.Partial
import Verif.Avx.GatherOob

/-! # test_speed.c: sequences of measurements -/

namespace Verif.Proof
open Verif.Model Verif.Spec

variable {σ α β : Type}

/-- `m` returns a value with property `Q`, or it runs out of fuel, which it can do only if `g` fails. -/
def RunsP (g : Prop) (m : C α) (Q : α → Prop) : Prop := (¬ g ∧ m = .diverge) ∨ Runs m Q

theorem RunsP.bind {g : Prop} {m : C α} {f : α → C β} {P : α → Prop} {Q : β → Prop} (h : RunsP g m P) (hf : ∀ v, P v → RunsP g (f v) Q) : RunsP g (m >>= f) Q := by
  rcases h with ⟨hg, h⟩ | h
  · subst h
    exact .inl ⟨hg, rfl⟩
  · obtain ⟨v, t, e, hv⟩ := h.exists_ok
    rcases hf v hv with ⟨hg, h'⟩ | h'
    · refine .inl ⟨hg, ?_⟩
      subst e
      show C.bind _ _ = _
      simp [C.bind, h']
    · exact .inr (by rw [runs_bind, e]; exact h')

theorem RunsP.of {g : Prop} {m : C α} {Q : α → Prop} (h : Runs m Q) : RunsP g m Q := .inr h

theorem RunsP.mono {g : Prop} {m : C α} {P Q : α → Prop} (h : RunsP g m P) (hPQ : ∀ v, P v → Q v) : RunsP g m Q := h.imp id fun h => h.mono hPQ

theorem RunsP.weaken {g g' : Prop} {m : C α} {P : α → Prop} (h : RunsP g m P) (hg : g' → g) : RunsP g' m P := h.imp (fun h => ⟨fun h' => h.1 (hg h'), h.2⟩) id

theorem RunsP.ofO {m : C α} {o : Option β} {Q : β → α → Prop} (h : RunsO m o Q) : RunsP (o.isSome = true) m (fun v => ∃ b, o = some b ∧ Q b v) := by
  cases o with
  | none => exact .inl ⟨by simp, h⟩
  | some b => exact .inr (Runs.mono (runsO_some.1 h) fun v hv => ⟨b, rfl, hv⟩)

theorem RunsP.runs {g : Prop} {m : C α} {Q : α → Prop} (h : RunsP g m Q) (hg : g) : Runs m Q := h.resolve_left fun h => h.1 hg

/-- What follows is undefined. -/
theorem RunsP.ub {g : Prop} {m : C α} {f : α → C β} {P : α → Prop} {u : UB} (h : RunsP g m P) (hf : ∀ v, P v → f v = .ub u) : (¬ g ∧ (m >>= f) = .diverge) ∨ (m >>= f) = .ub u := by
  rcases h with ⟨hg, h⟩ | h
  · subst h
    exact .inl ⟨hg, rfl⟩
  · exact .inr (Avx.bind_ub_of h hf)

theorem runsP_cforFrom {g : Prop} {body : Nat → α → C α} (Inv : Nat → α → Prop) : ∀ (n i : Nat) (s : α), Inv i s →
    (∀ k s, i ≤ k → k < i + n → Inv k s → RunsP g (body k s) (Inv (k + 1))) → RunsP g (cforFrom body n i s) (Inv (i + n))
  | 0, i, s, h, _ => .inr (by simpa [cforFrom] using h)
  | n + 1, i, s, h, hs => by
    unfold cforFrom
    refine RunsP.bind (P := fun _ => True) (.inr trivial) fun _ _ => ?_
    refine (hs i s (by omega) (by omega) h).bind fun s' h' => ?_
    have := runsP_cforFrom Inv n (i + 1) s' h' fun k s hk hk' => hs k s (by omega) (by omega)
    rwa [show i + 1 + n = i + (n + 1) from by omega] at this

theorem runsP_cfor {g : Prop} {n : Nat} {s : α} {body : Nat → α → C α} (Inv : Nat → α → Prop) (h0 : Inv 0 s) (hs : ∀ i s, i < n → Inv i s → RunsP g (body i s) (Inv (i + 1))) :
    RunsP g (cfor 0 n s body) (Inv n) := by
  have := runsP_cforFrom (g := g) (body := body) Inv n 0 s h0 fun k s _ hk => hs k s (by omega)
  rw [Nat.zero_add] at this
  exact this

/-- The print state after a measurement. -/
def prAfter (E : SpEnv) (pr : PrintSt) (title : String) : PrintSt :=
  let pr' : PrintSt := { pr with pos := pr.pos + E.nt }
  ⟨overheadAfter E.clk E.N pr', if pr.overhead = 0xffffffffffffffff then pr.pos + E.nt + 2 * E.N else pr.pos + E.nt,
    pr.out ++ report title (cycleDiffs (overheadAfter E.clk E.N pr') ((List.range E.nt).map fun i => E.clk (pr.pos + i))), pr.err⟩

theorem prAfter_foldl (E : SpEnv) (titles : List String) (pr : PrintSt) : (titles.foldl (prAfter E) pr).out = pr.out ++ speedText E.clk E.N E.nt titles pr.overhead pr.pos ∧
    (titles.foldl (prAfter E) pr).err = pr.err := by
  induction titles generalizing pr with
  | nil => exact ⟨(List.append_nil _).symm, rfl⟩
  | cons t ts ih =>
    obtain ⟨h1, h2⟩ := ih (prAfter E pr t)
    refine ⟨?_, h2⟩
    rw [List.foldl_cons, h1]
    rw [speedText]
    by_cases h : pr.overhead = 0xffffffffffffffff
    · rw [if_pos h]
      simp only [prAfter, overheadAfter, if_pos h, List.append_assoc]
    · rw [if_neg h]
      simp only [prAfter, overheadAfter, if_neg h, List.append_assoc]

/-- The environment is usable: `qsort` is as C demands, and there are at least two readings. -/
structure EnvOk (E : SpEnv) : Prop where
  qs : QsortSpec E.qs
  nt : 2 ≤ E.nt
  lt : E.nt < 2 ^ 64

theorem timed_runsP {g : Prop} {E : SpEnv} (hE : EnvOk E) (t : SpTest σ) {s : SpSt σ} {I J : SpBufs σ → Prop} (hI : I s.b) (hJI : ∀ b, J b → I b) (ht : s.t.size = E.nt)
    (hc : ∀ i b, i < E.nt → I b → RunsP g (t.2 i b) J) :
    RunsP g (timed E t.1 t.2 s) (fun s' => J s'.b ∧ s'.t.size = E.nt ∧ s'.pr = prAfter E s.pr t.1) := by
  unfold timed
  refine RunsP.bind (runsP_cfor (fun n s' => I s'.b ∧ (0 < n → J s'.b) ∧ s'.t.size = E.nt ∧ s'.t.Has 0 n (fun i => E.clk (s.pr.pos + i)) ∧ s'.pr = { s.pr with pos := s.pr.pos + n })
    ⟨hI, fun h => absurd h (by omega), ht, fun i hi => absurd hi (by omega), rfl⟩ ?_) ?_
  · rintro i ⟨b, t', pr⟩ hi ⟨h1, h2, h3, h4, h5⟩
    dsimp only at h1 h2 h3 h4 h5 ⊢
    subst h5
    dsimp only
    refine RunsP.bind (.of (runs_wr_upd (by omega))) fun t1 ht1 => ?_
    refine (hc i b hi h1).bind fun b' hb' => .of ?_
    rw [runs_pure]
    refine ⟨hJI _ hb', fun _ => hb', by rw [ht1.size, h3], fun j hj => ?_, rfl⟩
    by_cases e : j = i
    · subst e
      have := ht1.has 0 (by omega)
      rw [Nat.add_zero] at this
      rw [Nat.zero_add]
      exact this
    · rw [ht1.frame _ (by omega)]
      exact h4 j (by omega)
  · rintro ⟨b, t', pr⟩ ⟨_, h2, h3, h4, h5⟩
    dsimp only at h2 h3 h4 h5 ⊢
    subst h5
    have hl : ((List.range E.nt).map fun i => E.clk (s.pr.pos + i)).length = E.nt := by simp
    have hh : t'.Holds 0 ((List.range E.nt).map fun i => E.clk (s.pr.pos + i)) := fun i hi => by
      rw [hl] at hi
      rw [h4 i hi]
      simp
    have hp := print_results_runs E.clk hE.qs E.N { s.pr with pos := s.pr.pos + E.nt } t.1 hh (by rw [hl]; exact hE.nt) (by rw [hl]; exact hE.lt)
    rw [hl] at hp
    refine RunsP.of ?_
    rw [runs_bind]
    refine hp.mono fun r hr => ?_
    obtain ⟨t2, pr2⟩ := r
    obtain ⟨hr1, hr2⟩ := hr
    dsimp only at hr1 hr2 ⊢
    rw [runs_pure]
    exact ⟨h2 (by have := hE.nt; omega), by rw [hr1, h3], hr2⟩

/-- A measurement whose first call is undefined. -/
theorem timed_ub {E : SpEnv} (hE : EnvOk E) (t : SpTest σ) {s : SpSt σ} (ht : s.t.size = E.nt) {u : UB} (hc : t.2 0 s.b = .ub u) : timed E t.1 t.2 s = .ub u := by
  have h2 := hE.nt
  unfold timed
  refine Avx.ub_bind ?_
  unfold cfor
  obtain ⟨n, hn⟩ : ∃ n, E.nt - 0 = n + 1 := ⟨E.nt - 1, by omega⟩
  rw [hn]
  unfold cforFrom
  refine Avx.bind_ub_of (P := fun _ => True) trivial fun _ _ => ?_
  refine Avx.ub_bind ?_
  refine Avx.bind_ub_of (runs_wr_upd (by omega)) fun t1 _ => ?_
  exact Avx.ub_bind hc

/-- The state after measurements with the given titles. -/
structure After (E : SpEnv) (I : SpBufs σ → Prop) (titles : List String) (pr0 : PrintSt) (s : SpSt σ) : Prop where
  b : I s.b
  t : s.t.size = E.nt
  pr : s.pr = titles.foldl (prAfter E) pr0

theorem timedAll_cons {g : Prop} {E : SpEnv} (hE : EnvOk E) (t : SpTest σ) (l : List (SpTest σ)) {s : SpSt σ} {I J K : SpBufs σ → Prop} {ts : List String} {pr0 : PrintSt}
    {titles : List String} (h : After E I titles pr0 s) (hJI : ∀ b, J b → I b) (hc : ∀ i b, i < E.nt → I b → RunsP g (t.2 i b) J)
    (hl : ∀ s', After E J (titles ++ [t.1]) pr0 s' → RunsP g (timedAll E l s') (After E K ts pr0)) :
    RunsP g (timedAll E (t :: l) s) (After E K ts pr0) := by
  unfold timedAll
  refine (timed_runsP hE t h.b hJI h.t hc).bind fun s' hs' => hl s' ⟨hs'.1, hs'.2.1, ?_⟩
  rw [hs'.2.2, h.pr, List.foldl_append]
  rfl

theorem timedAll_append (E : SpEnv) (l l' : List (SpTest σ)) (s : SpSt σ) : timedAll E (l ++ l') s = timedAll E l s >>= timedAll E l' := by
  induction l generalizing s with
  | nil => simp [timedAll]
  | cons t l ih => simp [timedAll, ih]

theorem timedAll_ub {E : SpEnv} (hE : EnvOk E) (t : SpTest σ) (l : List (SpTest σ)) {s : SpSt σ} (ht : s.t.size = E.nt) {u : UB} (hc : t.2 0 s.b = .ub u) : timedAll E (t :: l) s = .ub u := by
  unfold timedAll
  exact Avx.ub_bind (timed_ub hE t ht hc)

end Verif.Proof
