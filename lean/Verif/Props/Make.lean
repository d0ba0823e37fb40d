import Mathlib.Tactic.Common
import Verif.Model.Make

/-! # C98: what `make` leaves out of date

A target is up to date if it was made from the present versions of the files its command reads. The Makefiles promise that for a target whose rule lists all these files; here: which do, and which files
the others miss, so that after a change in one of them `make` keeps a program or library with the old content. runtests.sh removes the targets first (C97), and nothing is out of date then. -/

set_option autoImplicit false

namespace Verif.Props
open Verif.Model.Link (Build)
open Verif.Model.Make

/-- `t` was made from the present version of `f`. -/
def MadeFrom (s : State) (t f : Nat) : Prop := s.seen t f = s.time f

/-- All files that the command of `r` reads were read in their present versions. -/
def UpToDate (b : Build) (s : State) (r : Rule) : Prop := (s.time r.target).isSome ∧ ∀ f ∈ r.reads b, MadeFrom s r.target f

/-- What holds before anything was made: no target exists, nothing has been read, and the clock is not behind a file. -/
def Start (b : Build) (s : State) : Prop := (∀ r ∈ rules b, s.time r.target = none) ∧ (∀ g f, s.seen g f = none) ∧ ∀ f t, s.time f = some t → t ≤ s.clock

/-- Histories: sources are written, any files are removed, targets are made by the rules. -/
def History (b : Build) (l : List Event) : Prop :=
  ∀ e ∈ l, match e with
    | .edit f => ∀ r ∈ rules b, r.target ≠ f
    | .remove _ => True
    | .make r => r ∈ rules b

/-! ## Proofs -/

/-- Kept by every event: what a target has not seen in its present version is newer than the target (sources and other targets; a removed target counts when it is made again). -/
structure Inv (b : Build) (s : State) : Prop where
  clock : ∀ f t, s.time f = some t → t ≤ s.clock
  newer : ∀ r ∈ rules b, ∀ T, s.time r.target = some T → ∀ f t, f ≠ r.target → s.time f = some t → s.seen r.target f = some t ∨ T < t

theorem start_inv {b : Build} {s : State} (h : Start b s) : Inv b s :=
  ⟨h.2.2, fun r hr T hT => by rw [h.1 r hr] at hT; cases hT⟩

theorem edit_inv {b : Build} {s : State} (h : Inv b s) (f : Nat) (hf : ∀ r ∈ rules b, r.target ≠ f) : Inv b (edit f s) where
  clock g t hg := by
    show t ≤ s.clock + 1
    simp only [edit] at hg
    split at hg
    · cases hg; exact Nat.le_refl _
    · have := h.clock g t hg; omega
  newer r hr T hT g t hne hg := by
    simp only [edit] at hT hg ⊢
    rw [if_neg (hf r hr)] at hT
    split at hg
    · cases hg
      have := h.clock _ _ hT
      exact Or.inr (by omega)
    · exact h.newer r hr T hT g t hne hg

theorem remove_inv {b : Build} {s : State} (h : Inv b s) (f : Nat) : Inv b (remove f s) where
  clock g t hg := by
    simp only [remove] at hg
    split at hg
    · cases hg
    · exact h.clock g t hg
  newer r hr T hT g t hne hg := by
    simp only [remove] at hT hg ⊢
    split at hT
    · cases hT
    split at hg
    · cases hg
    · exact h.newer r hr T hT g t hne hg

theorem make_inv {b : Build} {s : State} (h : Inv b s) (q : Rule) : Inv b (makeRule q s) := by
  unfold makeRule
  split
  · refine ⟨fun g t hg => ?_, fun r hr T hT g t hne hg => ?_⟩
    · dsimp only at hg ⊢
      split at hg
      · cases hg; exact Nat.le_refl _
      · have := h.clock g t hg; omega
    · dsimp only at hT hg ⊢
      by_cases hq : r.target = q.target
      · rw [if_pos hq]
        rw [if_neg (by rw [← hq]; exact hne)] at hg
        exact Or.inl hg
      · rw [if_neg hq] at hT ⊢
        split at hg
        · cases hg
          have := h.clock _ _ hT
          exact Or.inr (by omega)
        · exact h.newer r hr T hT g t hne hg
  · exact h

theorem run_inv {b : Build} {s : State} (h : Inv b s) (l : List Event) (hl : History b l) : Inv b (run s l) := by
  induction l generalizing s with
  | nil => exact h
  | cons e l ih =>
    refine ih ?_ fun e' he' => hl e' (List.mem_cons_of_mem _ he')
    have he := hl e List.mem_cons_self
    cases e with
    | edit f => exact edit_inv h f he
    | remove f => exact remove_inv h f
    | make r => exact make_inv h r

theorem run_append (s : State) (l m : List Event) : run s (l ++ m) = run (run s l) m := List.foldl_append

/-- After `make` the prerequisites that exist have been read in their present versions, and so has every file if the target did not exist. -/
theorem made {b : Build} {s : State} (h : Inv b s) {r : Rule} (hr : r ∈ rules b) {f : Nat} (hf : f ∈ r.prereqs ∨ s.time r.target = none) (hne : f ≠ r.target) (he : (s.time f).isSome) :
    MadeFrom (makeRule r s) r.target f ∧ ((makeRule r s).time r.target).isSome ∧ (makeRule r s).time f = s.time f := by
  unfold makeRule MadeFrom
  split
  · dsimp only
    rw [if_pos rfl, if_pos rfl, if_neg hne]
    exact ⟨rfl, rfl, rfl⟩
  · rename_i ho
    unfold outdated at ho
    rw [Bool.not_eq_true, Bool.or_eq_false_iff] at ho
    obtain ⟨h1, h2⟩ := ho
    obtain ⟨T, hT⟩ : ∃ T, s.time r.target = some T := by
      cases hT : s.time r.target with
      | none => rw [hT] at h1; cases h1
      | some T => exact ⟨T, rfl⟩
    refine ⟨?_, by rw [hT]; rfl, rfl⟩
    obtain ⟨t, ht⟩ := Option.isSome_iff_exists.1 he
    rcases hf with hf | hf
    · have h3 := List.any_eq_false.1 h2 f hf
      rw [hT, ht] at h3
      rcases h.newer r hr T hT f t hne ht with h4 | h4
      · rw [h4, ht]
      · exact absurd (decide_eq_true h4) h3
    · rw [hf] at hT; cases hT

/-- C98. After whatever history, `make` of a target leaves it made from the present versions of all its prerequisites. -/
theorem C98_prereqs (b : Build) (s : State) (hs : Start b s) (l : List Event) (hl : History b l) (r : Rule) (hr : r ∈ rules b) (f : Nat) (hf : f ∈ r.prereqs) (hne : f ≠ r.target) (he : ((run s l).time f).isSome) :
    MadeFrom (run s (l ++ [.make r])) r.target f := by
  rw [run_append]
  exact (made (run_inv (start_inv hs) l hl) hr (Or.inl hf) hne he).1

/-- C98. So a target with a rule that lists all files its command reads is up to date, after whatever history. -/
theorem C98_complete (b : Build) (s : State) (hs : Start b s) (l : List Event) (hl : History b l) (r : Rule) (hr : r ∈ rules b) (hc : ∀ f ∈ r.reads b, f ∈ r.prereqs) (hne : r.target ∉ r.reads b)
    (h0 : r.reads b ≠ []) (he : ∀ f ∈ r.reads b, ((run s l).time f).isSome) : UpToDate b (run s (l ++ [.make r])) r := by
  rw [run_append]
  have hi := run_inv (start_inv hs) l hl
  refine ⟨?_, fun f hf => (made hi hr (Or.inl (hc f hf)) (fun e => hne (e ▸ hf)) (he f hf)).1⟩
  obtain ⟨f, hf⟩ := List.exists_mem_of_ne_nil _ h0
  exact (made hi hr (Or.inl (hc f hf)) (fun e => hne (e ▸ hf)) (he f hf)).2.1

/-- C98. A target that does not exist, such as after `make clean`, is made from the present versions of all files. -/
theorem C98_clean (b : Build) (s : State) (hs : Start b s) (l : List Event) (hl : History b l) (r : Rule) (hr : r ∈ rules b) (hne : r.target ∉ r.reads b)
    (h0 : r.reads b ≠ []) (he : ∀ f ∈ r.reads b, ((run s l).time f).isSome) : UpToDate b (run s (l ++ [.remove r.target, .make r])) r := by
  rw [run_append]
  have hi := remove_inv (run_inv (start_inv hs) l hl) r.target
  have hn : (remove r.target (run s l)).time r.target = none := if_pos rfl
  have hk : ∀ f ∈ r.reads b, ((remove r.target (run s l)).time f).isSome := fun f hf => by
    show (if f = r.target then none else _ : Option Nat).isSome
    have hft : f ≠ r.target := fun e => hne (e ▸ hf)
    rw [if_neg hft]
    exact he f hf
  refine ⟨?_, fun f hf => (made hi hr (Or.inr hn) (fun e => hne (e ▸ hf)) (hk f hf)).1⟩
  obtain ⟨f, hf⟩ := List.exists_mem_of_ne_nil _ h0
  exact (made hi hr (Or.inr hn) (fun e => hne (e ▸ hf)) (hk f hf)).2.1

/-- A target that was just made is not older than its prerequisites. -/
theorem not_outdated {b : Build} {s : State} (h : Inv b s) (r : Rule) (hself : r.target ∉ r.prereqs) : outdated r (makeRule r s) = false := by
  by_cases ho : outdated r s = true
  · unfold makeRule
    rw [if_pos ho]
    unfold outdated
    dsimp only
    rw [if_pos rfl, Bool.or_eq_false_iff]
    refine ⟨rfl, List.any_eq_false.2 fun p hp => ?_⟩
    have hpt : p ≠ r.target := fun e => hself (e ▸ hp)
    rw [if_neg hpt]
    cases ht : s.time p with
    | none => exact Bool.false_ne_true
    | some t =>
      have := h.clock p t ht
      show ¬ decide (s.clock + 1 < t) = true
      rw [decide_eq_true_iff]
      omega
  · unfold makeRule
    rw [if_neg ho]
    exact Bool.not_eq_true _ ▸ ho

theorem outdated_edit {s : State} (r : Rule) (f : Nat) (hp : f ∉ r.prereqs) (ht : f ≠ r.target) : outdated r (edit f s) = outdated r s := by
  unfold outdated edit
  dsimp only
  rw [if_neg (Ne.symm ht)]
  congr 1
  rw [Bool.eq_iff_iff, List.any_eq_true, List.any_eq_true]
  refine exists_congr fun p => and_congr_right fun h => ?_
  have hpf : p ≠ f := fun e => hp (e ▸ h)
  rw [if_neg hpf]

/-- What a target has seen is not from the future. -/
structure Past (s : State) : Prop where
  clock : ∀ f t, s.time f = some t → t ≤ s.clock
  seen : ∀ g f t, s.seen g f = some t → t ≤ s.clock

theorem run_past {s : State} (h : Past s) (l : List Event) : Past (run s l) := by
  induction l generalizing s with
  | nil => exact h
  | cons e l ih =>
    refine ih ?_
    cases e with
    | edit f =>
      refine ⟨fun g t hg => ?_, fun g f t hg => Nat.le_succ_of_le (h.seen g f t hg)⟩
      simp only [step, edit] at hg ⊢
      split at hg
      · cases hg; exact Nat.le_refl _
      · exact Nat.le_succ_of_le (h.clock g t hg)
    | remove f =>
      refine ⟨fun g t hg => ?_, h.seen⟩
      simp only [step, remove] at hg ⊢
      split at hg
      · cases hg
      · exact h.clock g t hg
    | make r =>
      simp only [step, makeRule]
      split
      · refine ⟨fun g t hg => ?_, fun g f t hg => ?_⟩
        · dsimp only at hg ⊢
          split at hg
          · cases hg; exact Nat.le_refl _
          · exact Nat.le_succ_of_le (h.clock g t hg)
        · dsimp only at hg ⊢
          split at hg
          · exact Nat.le_succ_of_le (h.clock f t hg)
          · exact Nat.le_succ_of_le (h.seen g f t hg)
      · exact h

/-- C98. A file that the command reads and the rule does not list: after whatever history, when the target has been made and the file is then written, `make` does nothing and the target is not
up to date. -/
theorem C98_stale (b : Build) (s : State) (hs : Start b s) (l : List Event) (hl : History b l) (r : Rule) (f : Nat) (hf : f ∈ r.reads b) (hp : f ∉ r.prereqs) (ht : f ≠ r.target)
    (hself : r.target ∉ r.prereqs) :
    ¬ UpToDate b (run s (l ++ [.make r, .edit f, .make r])) r ∧ run s (l ++ [.make r, .edit f, .make r]) = run s (l ++ [.make r, .edit f]) := by
  have hi := run_inv (start_inv hs) l hl
  have e : run s (l ++ [.make r, .edit f, .make r]) = edit f (makeRule r (run s l)) := by
    rw [run_append]
    show makeRule r (edit f (makeRule r (run s l))) = _
    have ho : ¬ outdated r (edit f (makeRule r (run s l))) = true := by
      rw [outdated_edit r f hp ht, not_outdated hi r hself]
      exact Bool.false_ne_true
    exact if_neg ho
  refine ⟨fun hu => ?_, by rw [e, run_append]; rfl⟩
  have h1 := hu.2 f hf
  rw [e] at h1
  have hpast := run_past (run_past ⟨hs.2.2, fun g f t h => by rw [hs.2.1 g f] at h; cases h⟩ l) [.make r]
  have h2 : (makeRule r (run s l)).seen r.target f = some ((makeRule r (run s l)).clock + 1) := by
    have h3 : (edit f (makeRule r (run s l))).time f = some ((makeRule r (run s l)).clock + 1) := if_pos rfl
    exact (h1 : (makeRule r (run s l)).seen r.target f = _).trans h3
  have h4 : (makeRule r (run s l)).clock + 1 ≤ (makeRule r (run s l)).clock := hpast.seen _ _ _ h2
  omega

/-! ## The rules -/

/-- The files that the command of a rule reads and the rule does not list. -/
def missed (b : Build) (r : Rule) : List Nat := (r.reads b).filter fun f => !r.prereqs.contains f

/-- C98. `Rule.reads` is what the command reads: the named files and with each file all that it includes. -/
theorem C98_reads (b : Build) : ∀ r ∈ rules b, (∀ f ∈ r.named, f ∈ r.reads b) ∧ ∀ f ∈ r.reads b, ∀ g ∈ included b f, g ∈ r.reads b := by
  cases b <;> decide +kernel

/-- The KEM libraries. -/
def kemLibs : Build → List Nat
  | .ref => [n! "lib/libpqcrystals_kyber512_ref.so", n! "lib/libpqcrystals_kyber768_ref.so", n! "lib/libpqcrystals_kyber1024_ref.so"]
  | .avx2 => [n! "libpqcrystals_kyber512_avx2.so", n! "libpqcrystals_kyber768_avx2.so", n! "libpqcrystals_kyber1024_avx2.so"]

/-- The files that each rule misses. -/
def stale : Build → Nat → List Nat
  | .ref, t =>
    if t = n! "lib/libpqcrystals_fips202_ref.so" then []
    else if t ∈ kemLibs .ref then [n! "randombytes.h", n! "reduce.h", n! "fips202.h"]
    else [n! "randombytes.h", n! "reduce.h"]
  | .avx2, t =>
    if t = n! "keccak4x/KeccakP-1600-times4-SIMD256.o" then [n! "fips202x4.h"]
    else if t = n! "libpqcrystals_fips202x4_avx2.so" then [n! "fips202.h"]
    else if t ∈ kemLibs .avx2 then [n! "fips202.h", n! "fips202x4.h"]
    else []

/-- C98. The files that the rules of the Makefiles miss are these, for every target; the Makefiles list neither a target under its own prerequisites nor a file as read that is made from itself. -/
theorem C98_missing (b : Build) : ∀ r ∈ rules b, (∀ f, f ∈ missed b r ↔ f ∈ stale b r.target) ∧ r.target ∉ r.prereqs ∧ r.target ∉ r.reads b ∧ r.reads b ≠ [] := by
  have h : ∀ r ∈ rules b, (∀ f ∈ missed b r, f ∈ stale b r.target) ∧ (∀ f ∈ stale b r.target, f ∈ missed b r) ∧ r.target ∉ r.prereqs ∧ r.target ∉ r.reads b ∧ r.reads b ≠ [] := by
    cases b <;> decide +kernel
  exact fun r hr => ⟨fun f => ⟨(h r hr).1 f, (h r hr).2.1 f⟩, (h r hr).2.2⟩

theorem mem_stale {b : Build} {r : Rule} (hr : r ∈ rules b) {f : Nat} : f ∈ stale b r.target ↔ f ∈ r.reads b ∧ f ∉ r.prereqs := by
  rw [← ((C98_missing b) r hr).1 f, missed, List.mem_filter]
  refine and_congr_right fun _ => ?_
  rw [Bool.not_eq_true', ← Bool.not_eq_true, List.contains_iff_mem]

/-- C98. Both Makefiles, for every target, history and file that the command of the target reads: if the target has been made, the file is then written and `make` is called again, the target is up to
date with that file exactly if the file is not in the table. -/
theorem C98_exact (b : Build) (s : State) (hs : Start b s) (l : List Event) (hl : History b l) (r : Rule) (hr : r ∈ rules b) (f : Nat) (hf : f ∈ r.reads b) (hsrc : ∀ q ∈ rules b, q.target ≠ f) :
    MadeFrom (run s (l ++ [.make r, .edit f, .make r])) r.target f ↔ f ∉ stale b r.target := by
  have ht : f ≠ r.target := (hsrc r hr).symm
  rw [mem_stale hr]
  constructor
  · intro hm hp
    have hi := run_inv (start_inv hs) l hl
    obtain ⟨_, h2⟩ := C98_stale b s hs l hl r f hf hp.2 ht ((C98_missing b) r hr).2.1
    rw [h2, run_append] at hm
    have hpast := run_past (run_past ⟨hs.2.2, fun g f t h => by rw [hs.2.1 g f] at h; cases h⟩ l) [.make r]
    have h3 : (makeRule r (run s l)).seen r.target f = some ((makeRule r (run s l)).clock + 1) :=
      (hm : (makeRule r (run s l)).seen r.target f = _).trans (if_pos rfl)
    have h4 : (makeRule r (run s l)).clock + 1 ≤ (makeRule r (run s l)).clock := hpast.seen _ _ _ h3
    omega
  · intro hp
    have hp' : f ∈ r.prereqs := by
      by_contra h
      exact hp ⟨hf, h⟩
    have h := C98_prereqs b s hs (l ++ [.make r, .edit f]) ?_ r hr f hp' ht ?_
    · rwa [List.append_assoc] at h
    · intro e he
      rcases List.mem_append.1 he with he | he
      · exact hl e he
      · rcases List.mem_cons.1 he with rfl | he
        · exact hr
        · rw [List.mem_singleton.1 he]
          exact hsrc
    · rw [run_append]
      show ((if f = f then some _ else _ : Option Nat)).isSome
      rw [if_pos rfl]
      rfl

/-- C98. avx2: after an edit of fips202x4.h, which has the prototype of the function of the object file, `make` of the object file and of a program that links it makes the program from the new
fips202x4.h and the old object file. -/
theorem C98_object (s : State) (hs : Start .avx2 s) (l : List Event) (hl : History .avx2 l) (r : Rule) (hr : r ∈ rules .avx2) (ho : avx2_object.target ∈ r.named)
    (he : ((run s l).time avx2_object.target).isSome) :
    let t := run s (l ++ [.make avx2_object, .edit (n! "fips202x4.h"), .make avx2_object])
    ¬ UpToDate .avx2 t avx2_object ∧ MadeFrom (makeRule r t) r.target (n! "fips202x4.h") ∧ MadeFrom (makeRule r t) r.target avx2_object.target ∧
      (makeRule r t).seen avx2_object.target (n! "fips202x4.h") ≠ (makeRule r t).seen r.target (n! "fips202x4.h") := by
  have hor : avx2_object ∈ rules .avx2 := by decide +kernel
  have hfr : n! "fips202x4.h" ∈ avx2_object.reads .avx2 := by decide +kernel
  have hfp : n! "fips202x4.h" ∉ avx2_object.prereqs := by decide +kernel
  have hft : ∀ q ∈ rules .avx2, q.target ≠ n! "fips202x4.h" := by decide +kernel
  have hos : avx2_object.target ∉ avx2_object.prereqs := by decide +kernel
  have hk : ∀ q ∈ rules .avx2, avx2_object.target ∈ q.named → n! "fips202x4.h" ∈ q.prereqs ∧ avx2_object.target ∈ q.prereqs ∧ avx2_object.target ≠ q.target := by decide +kernel
  generalize n! "fips202x4.h" = h at *
  generalize avx2_object = o at *
  intro t
  obtain ⟨h1, h2⟩ := C98_stale .avx2 s hs l hl o h hfr hfp (hft o hor).symm hos
  have hn : ¬ MadeFrom t o.target h := fun e => (C98_exact .avx2 s hs l hl o hor h hfr hft).1 e ((mem_stale hor).2 ⟨hfr, hfp⟩)
  have hhist : History .avx2 (l ++ [.make o, .edit h, .make o]) := by
    intro e he
    rcases List.mem_append.1 he with he | he
    · exact hl e he
    · rcases List.mem_cons.1 he with rfl | he
      · exact hor
      rcases List.mem_cons.1 he with rfl | he
      · exact hft
      rw [List.mem_singleton.1 he]
      exact hor
  have hti : Inv .avx2 t := run_inv (start_inv hs) _ hhist
  obtain ⟨k1, k2, k3⟩ := hk r hr ho
  have hth : t.time h = some ((makeRule o (run s l)).clock + 1) := by
    show (run s (l ++ [.make o, .edit h, .make o])).time h = _
    rw [h2, run_append]
    exact if_pos rfl
  have hto : (t.time o.target).isSome := by
    show ((run s (l ++ [.make o, .edit h, .make o])).time o.target).isSome
    rw [h2, run_append]
    show (if o.target = h then _ else (makeRule o (run s l)).time o.target : Option Nat).isSome
    rw [if_neg (hft o hor)]
    unfold makeRule
    split
    · show (if o.target = o.target then _ else _ : Option Nat).isSome
      rw [if_pos rfl]
      rfl
    · exact he
  obtain ⟨m1, _, m3⟩ := made hti hr (Or.inl k1) (hft r hr).symm (by rw [hth]; rfl)
  obtain ⟨m4, _, _⟩ := made hti hr (Or.inl k2) k3 hto
  refine ⟨h1, m1, m4, fun e => hn ?_⟩
  have h5 : (makeRule r t).seen o.target h = t.seen o.target h := by
    unfold makeRule
    split
    · exact congrFun (if_neg k3) h
    · rfl
  rw [MadeFrom, ← h5, e, m1, m3]

/-- C98. The packages of the META files: they have all sources that the Makefiles link, and of all files that their sources include only randombytes.h is missing, which the user of the package supplies. -/
theorem C98_package (b : Build) :
    (∀ f ∈ sourcesKeccak b, sourceOf f ∈ package b) ∧ (∀ f ∈ package b, ∀ g ∈ included b f, g ∈ package b ∨ g = n! "randombytes.h") ∧ n! "randombytes.h" ∉ package b ∧
      n! "randombytes.h" ∈ included b (n! "kem.c") := by
  cases b <;> decide +kernel

/-! ## Non-vacuity -/

/-- A checkout: all files are there at time 0 but the targets. -/
def checkout (b : Build) : State := ⟨0, fun f => if ((rules b).map (·.target)).contains f then none else some 0, fun _ _ => none⟩

theorem checkout_start (b : Build) : Start b (checkout b) := by
  refine ⟨fun r hr => if_pos (List.contains_iff_mem.2 (List.mem_map.2 ⟨r, hr, rfl⟩)), fun _ _ => rfl, fun f t h => ?_⟩
  simp only [checkout] at h
  split at h
  · cases h
  · cases h
    exact Nat.le_refl _

def kyber512_ref : Rule := ref_lib_kyber_ref (n! "lib/libpqcrystals_kyber512_ref.so")
def test512_avx2 : Rule := avx2_test_kyber (n! "test/test_kyber512")

/-- The library after an edit of reduce.h (MONT, QINV and the prototypes of the reductions): `make` leaves the old one. After an edit of reduce.c it makes a new one. -/
example : ¬ UpToDate .ref (run (checkout .ref) [.make kyber512_ref, .edit (n! "reduce.h"), .make kyber512_ref]) kyber512_ref :=
  (C98_stale .ref _ (checkout_start .ref) [] (fun _ h => by cases h) kyber512_ref (n! "reduce.h") (by decide +kernel) (by decide +kernel) (by decide +kernel) (by decide +kernel)).1

example : MadeFrom (run (checkout .ref) [.make kyber512_ref, .edit (n! "reduce.c"), .make kyber512_ref]) kyber512_ref.target (n! "reduce.c") :=
  (C98_exact .ref _ (checkout_start .ref) [] (fun _ h => by cases h) kyber512_ref (by decide +kernel) (n! "reduce.c") (by decide +kernel) (by decide +kernel)).2 (by decide +kernel)

/-- A clean build has all files in their present versions. -/
example : UpToDate .ref (run (checkout .ref) [.make kyber512_ref, .edit (n! "reduce.h"), .remove kyber512_ref.target, .make kyber512_ref]) kyber512_ref := by
  refine C98_clean .ref _ (checkout_start .ref) [.make kyber512_ref, .edit (n! "reduce.h")] ?_ kyber512_ref (by decide +kernel) (by decide +kernel) (by decide +kernel) (by decide +kernel)
  intro e he
  rcases List.mem_cons.1 he with rfl | he
  · show kyber512_ref ∈ rules .ref
    decide +kernel
  · rw [List.mem_singleton.1 he]
    show ∀ r ∈ rules .ref, r.target ≠ n! "reduce.h"
    decide +kernel

/-- The rule of libpqcrystals_fips202_ref.so is complete. -/
example : UpToDate .ref (run (checkout .ref) [.make ref_lib_fips202_ref]) ref_lib_fips202_ref :=
  C98_complete .ref _ (checkout_start .ref) [] (fun _ h => by cases h) ref_lib_fips202_ref (by decide +kernel) (by decide +kernel) (by decide +kernel) (by decide +kernel) (by decide +kernel)

/-- The test program of avx2 with the old object file. -/
example : ∃ s l, Start .avx2 s ∧ History .avx2 l ∧ test512_avx2 ∈ rules .avx2 ∧ avx2_object.target ∈ test512_avx2.named ∧ ((run s l).time avx2_object.target).isSome := by
  refine ⟨checkout .avx2, [.make avx2_object], checkout_start .avx2, ?_, by decide +kernel, by decide +kernel, by decide +kernel⟩
  intro e he
  rw [List.mem_singleton.1 he]
  show avx2_object ∈ rules .avx2
  decide +kernel

end Verif.Props
