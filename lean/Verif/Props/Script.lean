import Mathlib.Tactic.Common
import Verif.Model.Script

/-! # C97: what the test script decides

runtests.sh (called by .travis.yml) makes and runs the test programs of C63 and C64 in both directories and compares the sums of the printed vectors. Here: which commands it performs on every host and in
every environment, when it ends with 0, and what that means for the sums. -/

set_option autoImplicit false

namespace Verif.Props
open Verif.Model.Script

variable {σ : Type}

/-- The architecture the script goes by. -/
def archOf (env : Var → Option Text) : Text := orElse (env .TRAVIS_CPU_ARCH) (orElse (env .ARCH) (t! "amd64"))

/-- The directories it tests. -/
def dirsOf (env : Var → Option Text) : List Text :=
  if archOf env = t! "amd64" ∧ env .TRAVIS_OS_NAME ≠ some (t! "osx") then [t! "ref", t! "avx2"] else [t! "ref"]

/-- The value of `CC` that `make` finds in its environment. -/
def ccOf (env : Var → Option Text) : Option Text :=
  if archOf env = t! "amd64" ∨ archOf env = t! "arm64" then some (t! "/usr/bin/gcc") else env .CC

/-- A step: a command, after what has to be asked for to know it. -/
abbrev Step (σ : Type) := σ → σ × Command

def makeStep (h : Host σ) (cc : Option Text) (d : Text) (rest : List Text) : Step σ := fun w =>
  let r := h.capture w ⟨[t! "nproc"], none, cc⟩
  (r.1, ⟨[t! "make", t! "-j" ++ trim r.2, t! "-C", d] ++ rest, none, cc⟩)

def plain (c : Command) : Step σ := fun w => (w, c)

def testProgram (d a : Text) : Text := t! "./" ++ d ++ t! "/test/test_kyber" ++ a
def vectorProgram (d a : Text) : Text := t! "./" ++ d ++ t! "/test/test_vectors" ++ a

/-- The four commands for a parameter set. -/
def algSteps (cc : Option Text) (d a : Text) : List (Step σ) := [
  plain ⟨[t! "valgrind", t! "--vex-guest-max-insns=25", testProgram d a], none, cc⟩,
  plain ⟨[t! "echo", t! "test_kyber" ++ a], none, cc⟩,
  plain ⟨[testProgram d a], none, cc⟩,
  plain ⟨[vectorProgram d a], some (t! "tvecs" ++ a), cc⟩]

def shasumStep (cc : Option Text) : Step σ := plain ⟨[t! "shasum", t! "-a256", t! "-c", t! "SHA256SUMS"], none, cc⟩

/-- The commands for a directory. -/
def dirSteps (h : Host σ) (cc : Option Text) (d : Text) : List (Step σ) :=
  [makeStep h cc d [t! "clean"], makeStep h cc d []] ++ [t! "512", t! "768", t! "1024"].flatMap (algSteps cc d) ++ [shasumStep cc]

/-- One step after the other; if `e`, up to the first with a status other than 0, which is then the result. -/
def perform (h : Host σ) (e : Bool) : List (Step σ) → σ → σ × Option Nat
  | [], w => (w, none)
  | f :: l, w =>
    let c := f w
    let r := h.exec c.1 c.2
    if e && r.2 != 0 then (r.1, some r.2) else perform h e l r.1

/-- `nproc` delivers one word or nothing. -/
def OneWord (h : Host σ) : Prop := ∀ w c, ∀ x ∈ trim (h.capture w c).2, blank x = false

/-! ## Proofs -/

theorem perform_append (h : Host σ) (e : Bool) (a b : List (Step σ)) (w : σ) :
    perform h e (a ++ b) w = match perform h e a w with | (w', none) => perform h e b w' | (w', some r) => (w', some r) := by
  induction a generalizing w with
  | nil => rfl
  | cons f l ih =>
    simp only [List.cons_append, perform]
    split
    · rfl
    · exact ih _

/-- The program `p` performs the steps `l` and keeps `I`. -/
def Does (h : Host σ) (e : Bool) (I : St σ → Prop) (p : Stmt) (l : List (Step σ)) : Prop :=
  ∀ s, I s → (∀ w, perform h e l s.world = (w, none) → ∃ s', eval h e p s = .next s' ∧ s'.world = w ∧ I s') ∧
    ∀ w r, perform h e l s.world = (w, some r) → eval h e p s = .done w r

theorem does_skip (h : Host σ) (e : Bool) (I : St σ → Prop) : Does h e I .skip [] := fun s hs =>
  ⟨fun w hw => ⟨s, rfl, congrArg Prod.fst hw, hs⟩, fun w r hw => by cases congrArg Prod.snd hw⟩

theorem does_seq {h : Host σ} {e : Bool} {I : St σ → Prop} {a b : Stmt} {l m : List (Step σ)} (ha : Does h e I a l) (hb : Does h e I b m) : Does h e I (.seq a b) (l ++ m) := fun s hs => by
  obtain ⟨h1, h2⟩ := ha s hs
  rw [perform_append]
  rcases hp : perform h e l s.world with ⟨w, _ | r⟩
  · obtain ⟨s', e1, e2, e3⟩ := h1 w hp
    obtain ⟨g1, g2⟩ := hb s' e3
    have hE : eval h e (.seq a b) s = eval h e b s' := by
      show (match eval h e a s with | .next s' => eval h e b s' | .done w n => .done w n) = _
      rw [e1]
    dsimp only
    rw [hE, ← e2]
    exact ⟨g1, g2⟩
  · have hE : eval h e (.seq a b) s = .done w r := by
      show (match eval h e a s with | .next s' => eval h e b s' | .done w n => .done w n) = _
      rw [h2 w r hp]
    dsimp only
    refine ⟨fun w' hw => (by cases congrArg Prod.snd hw), fun w' r' hw => ?_⟩
    rw [hE]
    cases hw
    rfl

theorem does_each {h : Host σ} {e : Bool} {I : St σ → Prop} {x : Var} {body : Stmt} {f : Text → List (Step σ)} {ts : List Text} (hset : ∀ s t, I s → I (s.set x t))
    (hb : ∀ t ∈ ts, Does h e (fun s => I s ∧ s.val x = some t) body (f t)) (s : St σ) (hs : I s) :
    (∀ w, perform h e (ts.flatMap f) s.world = (w, none) → ∃ s', each (eval h e body) x ts s = .next s' ∧ s'.world = w ∧ I s') ∧
      ∀ w r, perform h e (ts.flatMap f) s.world = (w, some r) → each (eval h e body) x ts s = .done w r := by
  induction ts generalizing s with
  | nil => exact ⟨fun w hw => ⟨s, rfl, congrArg Prod.fst hw, hs⟩, fun w r hw => by cases congrArg Prod.snd hw⟩
  | cons t ts ih =>
    rw [List.flatMap_cons, perform_append]
    obtain ⟨h1, h2⟩ := hb t List.mem_cons_self (s.set x t) ⟨hset s t hs, if_pos rfl⟩
    have hw : (s.set x t).world = s.world := rfl
    rw [hw] at h1 h2
    have hE : each (eval h e body) x (t :: ts) s = match eval h e body (s.set x t) with | .next s' => each (eval h e body) x ts s' | .done w n => .done w n := rfl
    rw [hE]
    rcases hp : perform h e (f t) s.world with ⟨w, _ | r⟩
    · obtain ⟨s', e1, e2, e3, -⟩ := h1 w hp
      dsimp only
      rw [e1, ← e2]
      exact ih (fun t ht => hb t (List.mem_cons_of_mem _ ht)) s' e3
    · dsimp only
      rw [h2 w r hp]
      exact ⟨fun w' hw => (by cases congrArg Prod.snd hw), fun w' r' hw => by cases hw; rfl⟩

theorem does_run {h : Host σ} {e : Bool} {I : St σ → Prop} {args : List (List Piece)} {out : Option (List Piece)} {f : Step σ} (hw : ∀ s w, I s → I { s with world := w })
    (hf : ∀ s, I s → (redirect h (words h s args).1 out).1 = { s with world := (f s.world).1 } ∧
      (f s.world).2 = ⟨(words h s args).2, (redirect h (words h s args).1 out).2, s.val .CC⟩) : Does h e I (.run args out) [f] := fun s hs => by
  obtain ⟨h1, h2⟩ := hf s hs
  have hE : eval h e (.run args out) s = if e && (h.exec (f s.world).1 (f s.world).2).2 != 0 then .done (h.exec (f s.world).1 (f s.world).2).1 (h.exec (f s.world).1 (f s.world).2).2
      else .next { s with world := (h.exec (f s.world).1 (f s.world).2).1 } := by
    simp only [eval, h1, h2]
  rw [hE]
  simp only [perform]
  split
  · exact ⟨fun w hw => (by cases congrArg Prod.snd hw), fun w r hw => by cases hw; rfl⟩
  · exact ⟨fun w hw' => ⟨_, rfl, congrArg Prod.fst hw', hw _ _ hs⟩, fun w r hw => by cases congrArg Prod.snd hw⟩

/-- Fields of text without blanks. -/
theorem fields_noblank (t : Text) (ht : ∀ x ∈ t, blank x = false) (c : Text) (b : Bool) : fields (some c) (t.map (·, b)) = [c ++ t] := by
  induction t generalizing c with
  | nil => simp [fields]
  | cons x t ih =>
    rw [List.map_cons, fields, ht x List.mem_cons_self, Bool.and_false, if_neg (by decide), Option.getD_some, ih (fun y hy => ht y (List.mem_cons_of_mem _ hy)), List.append_assoc]
    rfl

/-- What the body of the loops may rely on. -/
def AtDir (cc : Option Text) (d : Text) (s : St σ) : Prop := s.val .CC = cc ∧ s.val .dir = some d

theorem does_make (h : Host σ) (hn : OneWord h) (e : Bool) (cc : Option Text) (d : Text) (hd : d = t! "ref" ∨ d = t! "avx2") (rest : List Text) (hr : rest = [] ∨ rest = [t! "clean"]) :
    Does h e (AtDir cc d) (makeIn rest) [makeStep h cc d rest] := by
  refine does_run (fun _ _ hs => hs) fun s hs => ?_
  obtain ⟨h1, h2⟩ := hs
  have hf := fields_noblank (trim (h.capture s.world ⟨[t! "nproc"], none, cc⟩).2) (hn _ _) (t! "-j") true
  rcases hd with rfl | rfl <;> rcases hr with rfl | rfl <;>
  · simp only [words, List.cons_append, List.nil_append, expandWord, expand, h1, h2, lits, List.map_cons, List.map_nil, redirect, List.append_nil, Option.getD_some, makeStep, true_and]
    congr 1
    simp only [fields, List.cons_append, List.nil_append, Bool.false_and, Option.getD_none, Option.getD_some, Bool.false_eq_true, if_false] at hf ⊢
    rw [hf]
    rfl

theorem does_alg (h : Host σ) (e : Bool) (cc : Option Text) (d : Text) (hd : d = t! "ref" ∨ d = t! "avx2") (a : Text) (ha : a = t! "512" ∨ a = t! "768" ∨ a = t! "1024") :
    Does h e (fun s => AtDir cc d s ∧ s.val .alg = some a) testAlg (algSteps cc d a) := by
  refine does_seq (l := [_]) ?_ (does_seq (l := [_]) ?_ (does_seq (l := [_]) ?_ (does_seq (l := [_]) ?_ (does_skip _ _ _))))
  all_goals
    refine does_run (fun _ _ hs => hs) fun s hs => ?_
    obtain ⟨⟨h1, h2⟩, h3⟩ := hs
    rcases hd with rfl | rfl <;> rcases ha with rfl | rfl | rfl <;>
    · simp only [words, expandWord, expand, h1, h2, h3, redirect, quoted, Option.getD_some, plain, true_and]
      rfl

theorem does_dir (h : Host σ) (hn : OneWord h) (e : Bool) (cc : Option Text) (d : Text) (hd : d = t! "ref" ∨ d = t! "avx2") :
    Does h e (AtDir cc d) (block [makeIn [t! "clean"], makeIn [], .loop .alg (lits [t! "512", t! "768", t! "1024"]) testAlg, .run (lits [t! "shasum", t! "-a256", t! "-c", t! "SHA256SUMS"]) none]) (dirSteps h cc d) := by
  refine does_seq (l := [_]) (does_make h hn e cc d hd _ (Or.inr rfl)) (does_seq (l := [_]) (does_make h hn e cc d hd _ (Or.inl rfl)) (does_seq (l := [t! "512", t! "768", t! "1024"].flatMap (algSteps cc d)) (fun s hs => ?_) (does_seq (l := [shasumStep cc]) (m := []) ?_ (does_skip _ _ _))))
  · exact does_each (x := .alg) (f := algSteps cc d) (ts := [t! "512", t! "768", t! "1024"]) (fun s t hs => ⟨hs.1, hs.2⟩)
      (fun t ht => does_alg h e cc d hd t (by simpa using ht)) s hs
  · refine does_run (fun _ _ hs => hs) fun s hs => ?_
    simp only [hs.1]
    exact ⟨rfl, rfl⟩

/-- The assignments and tests before the loop. -/
theorem runtests_start (h : Host σ) (e : Bool) (w : σ) (env : Var → Option Text) :
    ∃ s : St σ, s.world = w ∧ s.val .CC = ccOf env ∧ runScript h e runtests w env = match each (eval h e (block [makeIn [t! "clean"], makeIn [], .loop .alg (lits [t! "512", t! "768", t! "1024"]) testAlg,
      .run (lits [t! "shasum", t! "-a256", t! "-c", t! "SHA256SUMS"]) none])) .dir (dirsOf env) s with | .next s' => some (s'.world, 0) | .done w n => some (w, n) := by
  have mm : ∀ (t : Text) (b : Bool), (t.map (·, b)).map (·.1) = t := fun t b => by rw [List.map_map]; exact List.map_id t
  have q1 : ∀ (s : St σ) x t, quoted h s [.orLit x t] = (s, orElse (s.val x) t) := fun s x t => by simp only [quoted, expandWord, expand, List.append_nil, mm]
  have q2 : ∀ (s : St σ) x y, quoted h s [.orVar x y] = (s, orElse (s.val x) ((s.val y).getD [])) := fun s x y => by simp only [quoted, expandWord, expand, List.append_nil, mm]
  have q3 : ∀ (s : St σ) x, quoted h s [.var x] = (s, (s.val x).getD []) := fun s x => by simp only [quoted, expandWord, expand, List.append_nil, mm]
  have q4 : ∀ (s : St σ) t, quoted h s [.lit t] = (s, t) := fun s t => by simp only [quoted, expandWord, expand, List.append_nil, mm]
  have hos : ∀ v : Option Text, (v.getD [] != t! "osx") = decide (v ≠ some (t! "osx")) := fun v => by
    cases v with
    | none => rfl
    | some v =>
      rw [Option.getD_some, bne, Bool.eq_iff_iff]
      simp
  have hbe : ∀ a b : Text, (a == b) = decide (a = b) := fun a b => beq_eq_decide a b
  let s3 : St σ := (((start w env).set .nproc (orElse (env .nproc) (t! "2"))).set .ARCH (orElse (env .ARCH) (t! "amd64"))).set .ARCH (archOf env)
  have hA : s3.val .ARCH = some (archOf env) := rfl
  have hO : s3.val .TRAVIS_OS_NAME = env .TRAVIS_OS_NAME := rfl
  have hC : s3.val .CC = env .CC := rfl
  have t1 : test h s3 (.and (.eq [.var .ARCH] [.lit (t! "amd64")]) (.ne [.var .TRAVIS_OS_NAME] [.lit (t! "osx")])) = (s3, decide (archOf env = t! "amd64" ∧ env .TRAVIS_OS_NAME ≠ some (t! "osx"))) := by
    simp only [test, q3, q4, hA, hO, Option.getD_some, hos, Bool.decide_and, hbe]
  have t2 : ∀ s4 : St σ, s4.val .ARCH = some (archOf env) → test h s4 (.or (.eq [.var .ARCH] [.lit (t! "amd64")]) (.eq [.var .ARCH] [.lit (t! "arm64")])) = (s4, decide (archOf env = t! "amd64" ∨ archOf env = t! "arm64")) := fun s4 h4 => by
    simp only [test, q3, q4, h4, Option.getD_some, Bool.decide_or, hbe]
  generalize hB : (block [makeIn [t! "clean"], makeIn [], .loop .alg (lits [t! "512", t! "768", t! "1024"]) testAlg, .run (lits [t! "shasum", t! "-a256", t! "-c", t! "SHA256SUMS"]) none]) = B
  let s4 : St σ := s3.set .DIRS (if archOf env = t! "amd64" ∧ env .TRAVIS_OS_NAME ≠ some (t! "osx") then t! "ref avx2" else t! "ref")
  let s5 : St σ := if archOf env = t! "amd64" ∨ archOf env = t! "arm64" then s4.set .CC (t! "/usr/bin/gcc") else s4
  have e4 : eval h e (.cond (.and (.eq [.var .ARCH] [.lit (t! "amd64")]) (.ne [.var .TRAVIS_OS_NAME] [.lit (t! "osx")])) (.assign .DIRS [.lit (t! "ref avx2")]) (.assign .DIRS [.lit (t! "ref")])) s3 = .next s4 := by
    simp only [eval, t1, q4, decide_eq_true_eq]
    by_cases hc : archOf env = t! "amd64" ∧ env .TRAVIS_OS_NAME ≠ some (t! "osx")
    · simp only [s4, if_pos hc]
    · simp only [s4, if_neg hc]
  have e5 : eval h e (.cond (.or (.eq [.var .ARCH] [.lit (t! "amd64")]) (.eq [.var .ARCH] [.lit (t! "arm64")])) (.export .CC [.lit (t! "/usr/bin/gcc")]) .skip) s4 = .next s5 := by
    simp only [eval, t2 s4 hA, q4, decide_eq_true_eq]
    by_cases hc : archOf env = t! "amd64" ∨ archOf env = t! "arm64"
    · simp only [s5, if_pos hc]
    · simp only [s5, if_neg hc]
  have w5 : s5.world = w := by
    show St.world (if _ then _ else _) = w
    split <;> rfl
  have c5 : s5.val .CC = ccOf env := by
    show St.val (if _ then _ else _) _ = if _ then _ else _
    split <;> rfl
  have d5 : words h s5 [[.var .DIRS]] = (s5, dirsOf env) := by
    have : s5.val .DIRS = some (if archOf env = t! "amd64" ∧ env .TRAVIS_OS_NAME ≠ some (t! "osx") then t! "ref avx2" else t! "ref") := by
      show St.val (if _ then _ else _) _ = _
      split <;> rfl
    simp only [words, expandWord, expand, this, Option.getD_some, List.append_nil, dirsOf]
    by_cases hc : archOf env = t! "amd64" ∧ env .TRAVIS_OS_NAME ≠ some (t! "osx")
    · rw [if_pos hc, if_pos hc]; rfl
    · rw [if_neg hc, if_neg hc]; rfl
  refine ⟨s5, w5, c5, ?_⟩
  have hrt : runtests = .seq (.assign .nproc [.orLit .nproc (t! "2")]) (.seq (.assign .ARCH [.orLit .ARCH (t! "amd64")]) (.seq (.assign .ARCH [.orVar .TRAVIS_CPU_ARCH .ARCH])
      (.seq (.cond (.and (.eq [.var .ARCH] [.lit (t! "amd64")]) (.ne [.var .TRAVIS_OS_NAME] [.lit (t! "osx")])) (.assign .DIRS [.lit (t! "ref avx2")]) (.assign .DIRS [.lit (t! "ref")]))
      (.seq (.cond (.or (.eq [.var .ARCH] [.lit (t! "amd64")]) (.eq [.var .ARCH] [.lit (t! "arm64")])) (.export .CC [.lit (t! "/usr/bin/gcc")]) .skip)
      (.seq (.loop .dir [[.var .DIRS]] B) (.seq (.exit 0) .skip)))))) := by rw [← hB]; rfl
  have sq : ∀ a b (s s' : St σ), eval h e a s = .next s' → eval h e (.seq a b) s = eval h e b s' := fun a b s s' hh => by rw [eval, hh]
  have a1 : eval h e (.assign .nproc [.orLit .nproc (t! "2")]) (start w env) = .next ((start w env).set .nproc (orElse (env .nproc) (t! "2"))) := by rw [eval, q1]; rfl
  have a2 : eval h e (.assign .ARCH [.orLit .ARCH (t! "amd64")]) ((start w env).set .nproc (orElse (env .nproc) (t! "2"))) = .next (((start w env).set .nproc (orElse (env .nproc) (t! "2"))).set .ARCH (orElse (env .ARCH) (t! "amd64"))) := by
    rw [eval, q1]; rfl
  have a3 : eval h e (.assign .ARCH [.orVar .TRAVIS_CPU_ARCH .ARCH]) (((start w env).set .nproc (orElse (env .nproc) (t! "2"))).set .ARCH (orElse (env .ARCH) (t! "amd64"))) = .next s3 := by
    rw [eval, q2]; rfl
  unfold runScript
  rw [hrt, sq _ _ _ _ a1, sq _ _ _ _ a2, sq _ _ _ _ a3, sq _ _ _ _ e4, sq _ _ _ _ e5, eval, eval, d5]
  dsimp only
  cases each (eval h e B) .dir (dirsOf env) s5 with
  | next s' => rfl
  | done w n => rfl

/-- Without blanks in what `nproc` says, the script performs exactly the commands of `dirSteps` for the directories `dirsOf`, and ends with 0 if it gets to the end, else with the status of the command
that stopped it. -/
theorem C97_script (h : Host σ) (hn : OneWord h) (e : Bool) (w : σ) (env : Var → Option Text) :
    runScript h e runtests w env = some ((perform h e ((dirsOf env).flatMap (dirSteps h (ccOf env))) w).1, (perform h e ((dirsOf env).flatMap (dirSteps h (ccOf env))) w).2.getD 0) := by
  obtain ⟨s, h1, h2, h3⟩ := runtests_start h e w env
  rw [h3]
  obtain ⟨g1, g2⟩ := does_each (h := h) (e := e) (I := fun s => s.val .CC = ccOf env) (x := .dir) (f := dirSteps h (ccOf env)) (ts := dirsOf env) (fun s t hs => hs)
    (fun d hd => does_dir h hn e (ccOf env) d (by
      unfold dirsOf at hd
      split at hd
      · simpa using hd
      · exact Or.inl (by simpa using hd))) s h2
  rw [h1] at g1 g2
  rcases hp : perform h e ((dirsOf env).flatMap (dirSteps h (ccOf env))) w with ⟨w', _ | r⟩
  · obtain ⟨s', e1, e2, -⟩ := g1 w' hp
    rw [e1, ← e2]
    rfl
  · rw [g2 w' r hp]
    rfl

theorem perform_stop {h : Host σ} {l : List (Step σ)} {w w' : σ} {e : Bool} {r : Nat} (hp : perform h e l w = (w', some r)) : e = true ∧ r ≠ 0 := by
  induction l generalizing w with
  | nil => cases congrArg Prod.snd hp
  | cons f l ih =>
    simp only [perform] at hp
    split at hp
    · rename_i hc
      rw [Bool.and_eq_true, bne_iff_ne] at hc
      have : (h.exec (f w).1 (f w).2).2 = r := Option.some.inj (congrArg Prod.snd hp)
      exact ⟨hc.1, this ▸ hc.2⟩
    · exact ih hp

/-- C97. Executed as a file (option `-e`), the script ends with 0 exactly if all the commands for all directories were performed and returned 0. -/
theorem C97_zero (h : Host σ) (hn : OneWord h) (w w' : σ) (env : Var → Option Text) :
    runScript h true runtests w env = some (w', 0) ↔ perform h true ((dirsOf env).flatMap (dirSteps h (ccOf env))) w = (w', none) := by
  rw [C97_script h hn]
  rcases hp : perform h true ((dirsOf env).flatMap (dirSteps h (ccOf env))) w with ⟨v, _ | r⟩
  · simp
  · have := (perform_stop hp).2
    simp [this]

/-- C97. Run with `sh runtests.sh`, without the option of its first line, the script ends with 0 whatever the commands return. -/
theorem C97_without (h : Host σ) (hn : OneWord h) (w : σ) (env : Var → Option Text) : ∃ w', runScript h false runtests w env = some (w', 0) := by
  rw [C97_script h hn]
  rcases hp : perform h false ((dirsOf env).flatMap (dirSteps h (ccOf env))) w with ⟨v, _ | r⟩
  · exact ⟨v, rfl⟩
  · cases (perform_stop hp).1

/-- C97. The variable `nproc` of line 2 has no effect: the number of jobs is the output of the command `nproc`. -/
theorem C97_nproc (h : Host σ) (hn : OneWord h) (e : Bool) (w : σ) (env : Var → Option Text) (t : Option Text) :
    runScript h e runtests w (fun x => if x = .nproc then t else env x) = runScript h e runtests w env := by
  rw [C97_script h hn, C97_script h hn]
  rfl

/-! ## The sums -/

/-- What the theorem about the sums assumes of the commands: output goes to the file named, the commands without redirection and `nproc` leave the files listed in SHA256SUMS alone, and `shasum -c`
returns 0 exactly if every file listed is there and has the sum listed. -/
structure SumHost (h : Host σ) (files : σ → Text → Option (List UInt8)) (output : Text → List UInt8) (sha256 : List UInt8 → Nat) : Prop where
  redirect : ∀ w cc p f, files (h.exec w ⟨[p], some f, cc⟩).1 f = some (output p)
  others : ∀ w cc p f g, g ≠ f → files (h.exec w ⟨[p], some f, cc⟩).1 g = files w g
  keep : ∀ w a cc, ∀ s ∈ sums, files (h.exec w ⟨a, none, cc⟩).1 s.2 = files w s.2
  capture : ∀ w c, ∀ s ∈ sums, files (h.capture w c).1 s.2 = files w s.2
  shasum : ∀ w cc, (h.exec w ⟨[t! "shasum", t! "-a256", t! "-c", t! "SHA256SUMS"], none, cc⟩).2 = 0 ↔ ∀ s ∈ sums, ∃ b, files w s.2 = some b ∧ sha256 b = s.1

/-- The sum that SHA256SUMS lists for a parameter set. -/
def sumOf : List (Text × Nat) := [
  (t! "512", 0x4d34994299a8f8dcb36c550951a00f6e16918d6d5b6f280ee2aa12a7bf8375a0),
  (t! "768", 0xb59ac4d2b429b1f8c3b8a5542fb638179da2fd8b1212891d2f976e70e219fed1),
  (t! "1024", 0x3f577090c7cb7a345ce0417a2a2353153a9f1b8d79f8d927cb6a7b4ec17fd2a1)]

theorem sums_eq : sums = sumOf.map fun a => (a.2, t! "tvecs" ++ a.1) := rfl

theorem perform_cons {h : Host σ} {f : Step σ} {l : List (Step σ)} {w w' : σ} (hp : perform h true (f :: l) w = (w', none)) :
    (h.exec (f w).1 (f w).2).2 = 0 ∧ perform h true l (h.exec (f w).1 (f w).2).1 = (w', none) := by
  simp only [perform, Bool.true_and] at hp
  split at hp
  · cases congrArg Prod.snd hp
  · rename_i hc
    exact ⟨by simpa using hc, hp⟩

theorem perform_split {h : Host σ} {l m : List (Step σ)} {w w' : σ} (hp : perform h true (l ++ m) w = (w', none)) : ∃ v, perform h true l w = (v, none) ∧ perform h true m v = (w', none) := by
  rw [perform_append] at hp
  rcases hq : perform h true l w with ⟨v, _ | r⟩
  · rw [hq] at hp
    exact ⟨v, rfl, hp⟩
  · rw [hq] at hp
    cases congrArg Prod.snd hp

theorem alg_files {h : Host σ} {files : σ → Text → Option (List UInt8)} {output : Text → List UInt8} {sha256 : List UInt8 → Nat} (H : SumHost h files output sha256) {cc : Option Text} {d a : Text} {w w' : σ}
    (hp : perform h true (algSteps cc d a) w = (w', none)) :
    files w' (t! "tvecs" ++ a) = some (output (vectorProgram d a)) ∧ ∀ s ∈ sums, s.2 ≠ t! "tvecs" ++ a → files w' s.2 = files w s.2 := by
  have h1 := (perform_cons hp).2
  have h2 := (perform_cons h1).2
  have h3 := (perform_cons h2).2
  have h4 := congrArg Prod.fst (perform_cons h3).2
  simp only [perform, plain] at h4
  rw [← h4]
  refine ⟨H.redirect _ _ _ _, fun s hs hne => ?_⟩
  rw [H.others _ _ _ _ _ hne, H.keep _ _ _ s hs, H.keep _ _ _ s hs, H.keep _ _ _ s hs]

theorem dir_sums {h : Host σ} {files : σ → Text → Option (List UInt8)} {output : Text → List UInt8} {sha256 : List UInt8 → Nat} (H : SumHost h files output sha256) {cc : Option Text} {d : Text} {w w' : σ}
    (hp : perform h true (dirSteps h cc d) w = (w', none)) : ∀ a ∈ sumOf, sha256 (output (vectorProgram d a.1)) = a.2 := by
  obtain ⟨w1, h1, h2⟩ := perform_split hp
  obtain ⟨w2, -, h3⟩ := perform_split h1
  obtain ⟨w3, p1, h4⟩ := perform_split (l := algSteps cc d (t! "512")) h3
  obtain ⟨w4, p2, h5⟩ := perform_split (l := algSteps cc d (t! "768")) h4
  obtain ⟨w5, p3, h6⟩ := perform_split (l := algSteps cc d (t! "1024")) h5
  have e5 : w5 = w1 := congrArg Prod.fst h6
  have f1 := alg_files H p1
  have f2 := alg_files H p2
  have f3 := alg_files H p3
  have hs := (H.shasum _ _).1 (perform_cons h2).1
  rw [← e5] at hs
  have m1 : (0x4d34994299a8f8dcb36c550951a00f6e16918d6d5b6f280ee2aa12a7bf8375a0, t! "tvecs" ++ t! "512") ∈ sums := by simp [sums]
  have m2 : (0xb59ac4d2b429b1f8c3b8a5542fb638179da2fd8b1212891d2f976e70e219fed1, t! "tvecs" ++ t! "768") ∈ sums := by simp [sums]
  have m3 : (0x3f577090c7cb7a345ce0417a2a2353153a9f1b8d79f8d927cb6a7b4ec17fd2a1, t! "tvecs" ++ t! "1024") ∈ sums := by simp [sums]
  have g1 : files w5 (t! "tvecs" ++ t! "512") = some (output (vectorProgram d (t! "512"))) := by rw [f3.2 _ m1 (by decide), f2.2 _ m1 (by decide), f1.1]
  have g2 : files w5 (t! "tvecs" ++ t! "768") = some (output (vectorProgram d (t! "768"))) := by rw [f3.2 _ m2 (by decide), f2.1]
  have g3 := f3.1
  intro a ha
  simp only [sumOf, List.mem_cons, List.not_mem_nil, or_false] at ha
  rcases ha with rfl | rfl | rfl
  · obtain ⟨b, b1, b2⟩ := hs _ m1
    cases Option.some.inj (g1.symm.trans b1)
    exact b2
  · obtain ⟨b, b1, b2⟩ := hs _ m2
    cases Option.some.inj (g2.symm.trans b1)
    exact b2
  · obtain ⟨b, b1, b2⟩ := hs _ m3
    cases Option.some.inj (g3.symm.trans b1)
    exact b2

/-- C97. If the script ends with 0 then the outputs of test_vectors for all directories and parameter sets have the SHA-256 sums listed. -/
theorem C97_sums (h : Host σ) (hn : OneWord h) (files : σ → Text → Option (List UInt8)) (output : Text → List UInt8) (sha256 : List UInt8 → Nat) (H : SumHost h files output sha256) (w w' : σ) (env : Var → Option Text)
    (hz : runScript h true runtests w env = some (w', 0)) : ∀ d ∈ dirsOf env, ∀ a ∈ sumOf, sha256 (output (vectorProgram d a.1)) = a.2 := by
  rw [C97_zero h hn] at hz
  generalize dirsOf env = ds at hz ⊢
  induction ds generalizing w with
  | nil => intro d hd; cases hd
  | cons d ds ih =>
    rw [List.flatMap_cons, perform_append] at hz
    rcases hp : perform h true (dirSteps h (ccOf env) d) w with ⟨v, _ | r⟩
    · rw [hp] at hz
      intro x hx
      rcases List.mem_cons.1 hx with rfl | hx
      · exact dir_sums H hp
      · exact ih v hz x hx
    · rw [hp] at hz
      cases congrArg Prod.snd hz

/-- C97. The META files are out of date: if the script ends with 0 then no output of test_vectors, for any directory and parameter set, has the sum that the META file of its parameter set states. -/
theorem C97_meta (h : Host σ) (hn : OneWord h) (files : σ → Text → Option (List UInt8)) (output : Text → List UInt8) (sha256 : List UInt8 → Nat) (H : SumHost h files output sha256) (w w' : σ) (env : Var → Option Text)
    (hz : runScript h true runtests w env = some (w', 0)) : ∀ d ∈ dirsOf env, ∀ a ∈ metaSums, sha256 (output (vectorProgram d a.1)) ≠ a.2 := by
  intro d hd a ha e
  have hm : ∀ a ∈ metaSums, ∃ b ∈ sumOf, b.1 = a.1 ∧ b.2 ≠ a.2 := by decide +kernel
  obtain ⟨b, hb, h1, h2⟩ := hm a ha
  refine h2 ((C97_sums h hn files output sha256 H w w' env hz d hd b hb).symm.trans ?_)
  rw [h1]
  exact e

/-! ## make -/

/-- C97. In each directory the programs that the script runs are files that `make` without a goal makes, and that `make clean` has removed before, so that they are made from the present sources. -/
theorem C97_fresh (d : Text) (a : Text) (hd : d = t! "ref" ∨ d = t! "avx2") (ha : a ∈ [t! "512", t! "768", t! "1024"]) :
    ∃ t v, testProgram d a = t! "./" ++ d ++ t! "/" ++ t ∧ vectorProgram d a = t! "./" ++ d ++ t! "/" ++ v ∧ t ∈ defaultGoals d ∧ v ∈ defaultGoals d ∧ t ∈ cleaned d ∧ v ∈ cleaned d := by
  refine ⟨t! "test/test_kyber" ++ a, t! "test/test_vectors" ++ a, ?_⟩
  simp only [List.mem_cons, List.not_mem_nil, or_false] at ha
  rcases hd with rfl | rfl <;> rcases ha with rfl | rfl | rfl <;> decide

/-- Everything the default goals make as a program is removed by `make clean`. -/
theorem C97_clean (d : Text) (hd : d = t! "ref" ∨ d = t! "avx2") : ∀ t ∈ defaultGoals d, t ∈ cleaned d := by
  rcases hd with rfl | rfl <;> decide

/-! ## runlcov.sh -/

def lcovAlg (cc : Option Text) (a : Text) : List (Step σ) := [
  plain ⟨[t! "make", t! "-B", t! "test/test_kyber" ++ a, t! "CFLAGS=-O0 -g --coverage"], none, cc⟩,
  plain ⟨[t! "./test/test_kyber" ++ a], none, cc⟩,
  plain ⟨[t! "lcov", t! "-c", t! "-d", t! ".", t! "-o", t! "kyber" ++ a ++ t! ".lcov"], none, cc⟩,
  plain ⟨[t! "lcov", t! "-z", t! "-d", t! "."], none, cc⟩,
  plain ⟨[t! "rm", t! "test/test_kyber" ++ a], none, cc⟩]

def lcovSteps (cc : Option Text) : List (Step σ) :=
  [plain ⟨[t! "cd", t! "ref"], none, cc⟩] ++ [t! "512", t! "768", t! "1024"].flatMap (lcovAlg cc) ++
  [plain ⟨[t! "lcov", t! "-o", t! "kyber.lcov", t! "-a", t! "kyber512.lcov", t! "-a", t! "kyber768.lcov", t! "-a", t! "kyber1024.lcov"], none, cc⟩,
   plain ⟨[t! "lcov", t! "-r", t! "kyber.lcov", t! "-o", t! "kyber.lcov", t! "*/test/test_kyber.c"], none, cc⟩]

theorem does_lcov (h : Host σ) (e : Bool) (cc : Option Text) (a : Text) (ha : a = t! "512" ∨ a = t! "768" ∨ a = t! "1024") :
    Does h e (fun s => s.val .CC = cc ∧ s.val .alg = some a) (block [
      .run [[.lit (t! "make")], [.lit (t! "-B")], [.lit (t! "test/test_kyber"), .var .alg], [.lit (t! "CFLAGS=-O0 -g --coverage")]] none,
      .run [[.lit (t! "./test/test_kyber"), .var .alg]] none,
      .run [[.lit (t! "lcov")], [.lit (t! "-c")], [.lit (t! "-d")], [.lit (t! ".")], [.lit (t! "-o")], [.lit (t! "kyber"), .var .alg, .lit (t! ".lcov")]] none,
      .run (lits [t! "lcov", t! "-z", t! "-d", t! "."]) none,
      .run [[.lit (t! "rm")], [.lit (t! "test/test_kyber"), .var .alg]] none]) (lcovAlg cc a) := by
  refine does_seq (l := [_]) ?_ (does_seq (l := [_]) ?_ (does_seq (l := [_]) ?_ (does_seq (l := [_]) ?_ (does_seq (l := [_]) ?_ (does_skip _ _ _)))))
  all_goals
    refine does_run (fun _ _ hs => hs) fun s hs => ?_
    obtain ⟨h1, h3⟩ := hs
    rcases ha with rfl | rfl | rfl <;>
    · simp only [words, lits, List.map_cons, List.map_nil, expandWord, expand, h1, h3, redirect, Option.getD_some, plain, true_and]
      rfl

/-- `p` performs the steps `l` and ends the script. -/
def Ends (h : Host σ) (e : Bool) (I : St σ → Prop) (p : Stmt) (l : List (Step σ)) : Prop :=
  ∀ s, I s → eval h e p s = .done (perform h e l s.world).1 ((perform h e l s.world).2.getD 0)

theorem ends_exit (h : Host σ) (e : Bool) (I : St σ → Prop) : Ends h e I (.seq (.exit 0) .skip) [] := fun _ _ => rfl

theorem ends_seq {h : Host σ} {e : Bool} {I : St σ → Prop} {a b : Stmt} {l m : List (Step σ)} (ha : Does h e I a l) (hb : Ends h e I b m) : Ends h e I (.seq a b) (l ++ m) := fun s hs => by
  obtain ⟨h1, h2⟩ := ha s hs
  rw [perform_append]
  rcases hp : perform h e l s.world with ⟨w, _ | r⟩
  · obtain ⟨s', e1, e2, e3⟩ := h1 w hp
    rw [eval, e1]
    dsimp only
    rw [← e2]
    exact hb s' e3
  · rw [eval, h2 w r hp]
    rfl

/-- C97. runlcov.sh performs exactly these commands, and ends with 0 exactly if all of them return 0. -/
theorem C97_lcov (h : Host σ) (e : Bool) (w : σ) (env : Var → Option Text) :
    runScript h e runlcov w env = some ((perform h e (lcovSteps (env .CC)) w).1, (perform h e (lcovSteps (env .CC)) w).2.getD 0) := by
  have h0 : Ends h e (fun s => s.val .CC = env .CC) runlcov (lcovSteps (env .CC)) := by
    refine ends_seq (l := [_]) ?_ (ends_seq (l := [t! "512", t! "768", t! "1024"].flatMap (lcovAlg (env .CC))) (fun s hs => ?_) (ends_seq (l := [_]) ?_ (ends_seq (l := [_]) ?_ (ends_exit h e _))))
    · refine does_run (fun _ _ hs => hs) fun s hs => ?_
      simp only [hs]
      exact ⟨rfl, rfl⟩
    · exact does_each (x := .alg) (f := lcovAlg (env .CC)) (ts := [t! "512", t! "768", t! "1024"]) (I := fun s => s.val .CC = env .CC) (fun s t hs => hs)
        (fun t ht => does_lcov h e (env .CC) t (by simpa using ht)) s hs
    · refine does_run (fun _ _ hs => hs) fun s hs => ?_
      simp only [hs]
      exact ⟨rfl, rfl⟩
    · refine does_run (fun _ _ hs => hs) fun s hs => ?_
      simp only [hs]
      exact ⟨rfl, rfl⟩
  have h1 := h0 (start w env) rfl
  unfold runScript
  rw [h1]
  rfl

/-! ## Cases -/

/-- A host that keeps a list of the commands; `nproc` says 4; the program `bad` fails with status 1. -/
def logHost (bad : Text) : Host (List (List Text)) where
  exec w c := (c.argv :: w, if c.argv = [bad] then 1 else 0)
  capture w _ := (w, t! "4\n")

theorem log_word (bad : Text) : OneWord (logHost bad) := fun _ _ => by
  show ∀ x ∈ [52], _
  decide

/-- On a machine with amd64 and no variables set, where all goes well, the script performs 30 commands, for both directories, the first `make -j4 -C ref clean`. -/
example : (runScript (logHost []) true runtests [] (fun _ => none)).map (fun r => (r.1.length, r.1.getLast?, r.2)) = some (30, some [t! "make", t! "-j4", t! "-C", t! "ref", t! "clean"], 0) := by
  decide +kernel

/-- If test_kyber768 of avx2/ fails, the script ends with 1 there, and with 0 when run without `-e`. -/
example : (runScript (logHost (t! "./avx2/test/test_kyber768")) true runtests [] (fun _ => none)).map (·.2) = some 1 ∧
    (runScript (logHost (t! "./avx2/test/test_kyber768")) false runtests [] (fun _ => none)).map (·.2) = some 0 := by
  decide +kernel

/-- The same with the theorems: their assumptions hold of such hosts. -/
example (env : Var → Option Text) : ∃ w', runScript (logHost []) false runtests [] env = some (w', 0) := C97_without _ (log_word _) _ _

/-- On another architecture only ref/ is tested, and so it is on a Mac. -/
example : dirsOf (fun x => if x = .TRAVIS_CPU_ARCH then some (t! "s390x") else none) = [t! "ref"] ∧ dirsOf (fun x => if x = .TRAVIS_OS_NAME then some (t! "osx") else none) = [t! "ref"] ∧
    dirsOf (fun x => if x = .ARCH then some (t! "arm64") else none) = [t! "ref"] ∧ dirsOf (fun _ => none) = [t! "ref", t! "avx2"] := by decide

/-- runlcov.sh: 18 commands. -/
example : (runScript (logHost []) true runlcov [] (fun _ => none)).map (fun r => (r.1.length, r.2)) = some (18, 0) := by decide +kernel

/-- A host with files, as C97_sums assumes one: programs print their names, and the sums are those listed for names that end in the right digits. -/
def fileHost (sha256 : List UInt8 → Nat) : Host (Text → Option (List UInt8)) where
  exec w c := match c.out with
    | some f => (fun g => if g = f then some ((c.argv.headD []).map UInt8.ofNat) else w g, 0)
    | none => (w, if c.argv = [t! "shasum", t! "-a256", t! "-c", t! "SHA256SUMS"] then (if sums.all fun s => (w s.2).any fun b => sha256 b == s.1 then 0 else 1) else 0)
  capture w _ := (w, t! "4\n")

def lastSum (b : List UInt8) : Nat :=
  if b.reverse.take 1 = [50] then 0x4d34994299a8f8dcb36c550951a00f6e16918d6d5b6f280ee2aa12a7bf8375a0
  else if b.reverse.take 1 = [56] then 0xb59ac4d2b429b1f8c3b8a5542fb638179da2fd8b1212891d2f976e70e219fed1
  else 0x3f577090c7cb7a345ce0417a2a2353153a9f1b8d79f8d927cb6a7b4ec17fd2a1

theorem file_sums (sha256 : List UInt8 → Nat) : SumHost (fileHost sha256) (fun w => w) (fun p => p.map UInt8.ofNat) sha256 where
  redirect _ _ _ _ := if_pos rfl
  others _ _ _ _ _ h := if_neg h
  keep _ _ _ _ _ := rfl
  capture _ _ _ _ := rfl
  shasum w cc := by
    show (if [t! "shasum", t! "-a256", t! "-c", t! "SHA256SUMS"] = [t! "shasum", t! "-a256", t! "-c", t! "SHA256SUMS"] then (if sums.all fun s => (w s.2).any fun b => sha256 b == s.1 then 0 else 1) else 0) = 0 ↔ _
    rw [if_pos rfl]
    simp only [ite_eq_left_iff, Nat.one_ne_zero, imp_false, not_not, List.all_eq_true, Option.any_eq_true, beq_iff_eq]

example : ∀ d ∈ [t! "ref", t! "avx2"], ∀ a ∈ sumOf, lastSum ((vectorProgram d a.1).map UInt8.ofNat) = a.2 := by
  have hr : ((runScript (fileHost lastSum) true runtests (fun _ => none) (fun _ => none)).map (·.2)) = some 0 := by decide +kernel
  obtain ⟨⟨w', n⟩, h1, h2⟩ := Option.map_eq_some_iff.1 hr
  cases h2
  exact C97_sums _ (fun _ _ => by show ∀ x ∈ [52], _; decide) _ _ _ (file_sums lastSum) _ _ _ h1

example : ∀ d ∈ [t! "ref", t! "avx2"], ∀ a ∈ metaSums, lastSum ((vectorProgram d a.1).map UInt8.ofNat) ≠ a.2 := by
  have hr : ((runScript (fileHost lastSum) true runtests (fun _ => none) (fun _ => none)).map (·.2)) = some 0 := by decide +kernel
  obtain ⟨⟨w', n⟩, h1, h2⟩ := Option.map_eq_some_iff.1 hr
  cases h2
  exact C97_meta _ (fun _ _ => by show ∀ x ∈ [52], _; decide) _ _ _ (file_sums lastSum) _ _ _ h1

end Verif.Props
