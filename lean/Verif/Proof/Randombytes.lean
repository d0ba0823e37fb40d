import Verif.Model.Randombytes
import Verif.Proof.Kem
import Verif.C.Safe

/-! # randombytes -/

namespace Verif

theorem Mem.Holds.ext {α : Type} {m : Mem α} {l : List α} (h : m.Holds 0 l) (hs : m.size = l.length) : m = Mem.ofList l := by
  refine Array.ext (by simp [Mem.ofList, hs]) fun i h1 h2 => ?_
  have := h i (by omega)
  rw [Nat.zero_add, Array.getElem?_eq_getElem h1] at this
  simp only [Option.some.injEq] at this
  rw [this]
  simp [Mem.ofList]

end Verif

namespace Verif.Proof
open Verif.Model Verif.Spec

/-- Bytes `pos .. pos + n` of a stream. -/
def streamBytes (src : Nat → UInt8) (pos n : Nat) : List UInt8 := (List.range n).map fun i => src (pos + i)

theorem streamBytes_length (src : Nat → UInt8) (pos n : Nat) : (streamBytes src pos n).length = n := by simp [streamBytes]

theorem streamBytes_add (src : Nat → UInt8) (pos a b : Nat) : streamBytes src pos (a + b) = streamBytes src pos a ++ streamBytes src (pos + a) b := by
  unfold streamBytes
  rw [List.range_add, List.map_append, List.map_map]
  congr 1
  refine List.map_congr_left fun i _ => ?_
  simp only [Function.comp]; rw [Nat.add_assoc]

theorem fill_runs {src : Nat → UInt8} {pos n oo : Nat} {out : Mem UInt8} (h : oo + n ≤ out.size) :
    Runs (cfor 0 n out fun i out => wr out (oo + i) (src (pos + i))) (fun out' => out.Wrote out' oo (streamBytes src pos n)) := by
  refine (runs_fill1 (f := fun i => src (pos + i)) fun i m' hi hu => ?_).mono fun m' h' => h'.wrote
  exact (runs_wr_upd (by rw [hu.size]; omega)).mono fun m'' h'' => h''

/-- How the listed results end a request of `n` bytes: never (`none`), by abort (`some none`), or with the remaining results. -/
def outcome : List SysRet → Nat → Option (Option (List SysRet))
  | cs, 0 => some (some cs)
  | [], _ + 1 => none
  | .got k :: cs, n + 1 => outcome cs (n + 1 - min k (n + 1))
  | .eintr :: cs, n + 1 => outcome cs (n + 1)
  | .fail :: _, _ + 1 => some none

theorem outcome_zero (cs : List SysRet) : outcome cs 0 = some (some cs) := by cases cs <;> simp [outcome]

theorem rand_loop (src : Nat → UInt8) : ∀ (cs : List SysRet) (fuel : Nat) (out : Mem UInt8) (oo n pos : Nat), cs.length < fuel → oo + n ≤ out.size →
    RunsO (cwhile fuel (fun s : RandSt => !s.aborted && decide (0 < s.outlen)) randBody ⟨out, oo, n, ⟨src, pos, cs⟩, false⟩) (outcome cs n)
      (fun o s => match o with
        | none => s.aborted = true
        | some rest => s.aborted = false ∧ out.Wrote s.out oo (streamBytes src pos n) ∧ s.os = ⟨src, pos + n, rest⟩)
  | cs, fuel, out, oo, 0, pos, hf, _ => by
    obtain ⟨fuel, rfl⟩ : ∃ f, fuel = f + 1 := ⟨fuel - 1, by omega⟩
    rw [outcome_zero, runsO_some]
    unfold cwhile
    rw [if_neg (by simp), runs_bind, runs_leak]
    exact ⟨rfl, Mem.Wrote.nil out oo, rfl⟩
  | [], fuel, out, oo, n + 1, pos, hf, _ => by
    obtain ⟨fuel, rfl⟩ : ∃ f, fuel = f + 1 := ⟨fuel - 1, by omega⟩
    unfold cwhile
    rw [if_pos (by simp)]
    rfl
  | .got k :: cs, fuel, out, oo, n + 1, pos, hf, hs => by
    obtain ⟨fuel, rfl⟩ : ∃ f, fuel = f + 1 := ⟨fuel - 1, by omega⟩
    unfold cwhile
    rw [if_pos (by simp), outcome]
    refine Runs.bindO (P := fun _ => True) trivial fun _ _ => ?_
    have hb : Runs (randBody ⟨out, oo, n + 1, ⟨src, pos, .got k :: cs⟩, false⟩) (fun s => ∃ out', out.Wrote out' oo (streamBytes src pos (min k (n + 1))) ∧
        s = ⟨out', oo + min k (n + 1), n + 1 - min k (n + 1), ⟨src, pos + min k (n + 1), cs⟩, false⟩) := by
      unfold randBody sysRandom
      dsimp only
      simp only [runs_bind]
      refine (fill_runs (by omega)).mono fun out' h' => ?_
      rw [runs_pure]
      dsimp only
      simp only [runs_bind, runs_leak]
      exact ⟨out', h', rfl⟩
    refine hb.bindO fun s hsx => ?_
    obtain ⟨out', hw, rfl⟩ := hsx
    refine (rand_loop src cs fuel out' (oo + min k (n + 1)) (n + 1 - min k (n + 1)) (pos + min k (n + 1)) (by simp at hf; omega) (by rw [hw.size]; omega)).mono fun o s hs => ?_
    cases o with
    | none => exact hs
    | some rest =>
      obtain ⟨h1, h2, h3⟩ := hs
      have e : n + 1 = min k (n + 1) + (n + 1 - min k (n + 1)) := by omega
      refine ⟨h1, ?_, ?_⟩
      · rw [e, streamBytes_add]
        exact hw.append (by rw [streamBytes_length]; exact h2)
      · rw [h3]; congr 1; omega
  | .eintr :: cs, fuel, out, oo, n + 1, pos, hf, hs => by
    obtain ⟨fuel, rfl⟩ : ∃ f, fuel = f + 1 := ⟨fuel - 1, by omega⟩
    unfold cwhile
    rw [if_pos (by simp), outcome]
    refine Runs.bindO (P := fun _ => True) trivial fun _ _ => ?_
    have hb : Runs (randBody ⟨out, oo, n + 1, ⟨src, pos, .eintr :: cs⟩, false⟩) (fun s => s = ⟨out, oo, n + 1, ⟨src, pos, cs⟩, false⟩) := rfl
    refine hb.bindO fun s hsx => ?_
    subst hsx
    exact rand_loop src cs fuel out oo (n + 1) pos (by simp at hf; omega) hs
  | .fail :: cs, fuel, out, oo, n + 1, pos, hf, hs => by
    obtain ⟨fuel, rfl⟩ : ∃ f, fuel = f + 1 := ⟨fuel - 1, by omega⟩
    obtain ⟨fuel, rfl⟩ : ∃ f, fuel = f + 1 := ⟨fuel - 1, by simp at hf; omega⟩
    unfold cwhile
    rw [if_pos (by simp), outcome]
    refine Runs.bindO (P := fun _ => True) trivial fun _ _ => ?_
    have hb : Runs (randBody ⟨out, oo, n + 1, ⟨src, pos, .fail :: cs⟩, false⟩) (fun s => s = ⟨out, oo, n + 1, ⟨src, pos, cs⟩, true⟩) := rfl
    refine hb.bindO fun s hsx => ?_
    subst hsx
    unfold cwhile
    rw [if_neg (by simp)]
    rfl

theorem randombytes_runsO {os : OS} {out : Mem UInt8} {oo n : Nat} (h : oo + n ≤ out.size) :
    RunsO (randombytes os out oo n) (outcome os.calls n) (fun o s => match o with
      | none => s = none
      | some rest => ∃ out', s = some (out', ⟨os.src, os.pos + n, rest⟩) ∧ out.Wrote out' oo (streamBytes os.src os.pos n)) := by
  unfold randombytes
  obtain ⟨src, pos, cs⟩ := os
  refine (rand_loop src cs _ out oo n pos (Nat.lt_succ_self _) h).bindR fun o s hs => ?_
  cases o with
  | none => have hs : s.aborted = true := hs; rw [hs]; rfl
  | some rest =>
    obtain ⟨h1, h2, h3⟩ := hs
    rw [h1, h3]
    exact ⟨_, rfl, h2⟩

/-! ## Which schedules lead to which end -/

/-- Number of bytes that results without failure deliver at most. -/
def total : List SysRet → Nat
  | [] => 0
  | .got n :: cs => n + total cs
  | .eintr :: cs => total cs
  | .fail :: cs => total cs

theorem outcome_done : ∀ (pre post : List SysRet) (n : Nat), SysRet.fail ∉ pre → n ≤ total pre → ∃ rest, outcome (pre ++ post) n = some (some rest)
  | _, _, 0, _, _ => ⟨_, outcome_zero _⟩
  | [], _, n + 1, _, h => by simp [total] at h
  | .got k :: pre, post, n + 1, hp, h => by
    rw [List.cons_append, outcome]
    exact outcome_done pre post _ (fun h => hp (List.mem_cons_of_mem _ h)) (by rw [total] at h; omega)
  | .eintr :: pre, post, n + 1, hp, h => by
    rw [List.cons_append, outcome]
    exact outcome_done pre post _ (fun h => hp (List.mem_cons_of_mem _ h)) (by rwa [total] at h)
  | .fail :: pre, _, n + 1, hp, _ => absurd (List.mem_cons_self ..) hp

theorem outcome_abort : ∀ (pre post : List SysRet) (n : Nat), SysRet.fail ∉ pre → total pre < n → outcome (pre ++ .fail :: post) n = some none
  | _, _, 0, _, h => by omega
  | [], _, n + 1, _, _ => by rw [List.nil_append, outcome]
  | .got k :: pre, post, n + 1, hp, h => by
    rw [List.cons_append, outcome]
    rw [total] at h
    exact outcome_abort pre post _ (fun h => hp (List.mem_cons_of_mem _ h)) (by omega)
  | .eintr :: pre, post, n + 1, hp, h => by
    rw [List.cons_append, outcome]
    exact outcome_abort pre post _ (fun h => hp (List.mem_cons_of_mem _ h)) (by rwa [total] at h)
  | .fail :: pre, _, n + 1, hp, _ => absurd (List.mem_cons_self ..) hp

theorem outcome_blocked : ∀ (pre : List SysRet) (n : Nat), SysRet.fail ∉ pre → total pre < n → outcome pre n = none
  | _, 0, _, h => by omega
  | [], n + 1, _, _ => by rw [outcome]
  | .got k :: pre, n + 1, hp, h => by
    rw [outcome]
    rw [total] at h
    exact outcome_blocked pre _ (fun h => hp (List.mem_cons_of_mem _ h)) (by omega)
  | .eintr :: pre, n + 1, hp, h => by
    rw [outcome]
    exact outcome_blocked pre _ (fun h => hp (List.mem_cons_of_mem _ h)) (by rwa [total] at h)
  | .fail :: pre, n + 1, hp, _ => absurd (List.mem_cons_self ..) hp

/-! ## The Windows variant -/

theorem win_safe {acq rel : Bool} {oks : List Bool} {src : Nat → UInt8} {out : Mem UInt8} {oo n : Nat} (h : oo + n ≤ out.size) :
    Safe (randombytesWin acq rel oks src out oo n) (fun v => v = none ∨ ∃ out', v = some (out', n) ∧ out.Wrote out' oo (streamBytes src 0 n)) := by
  unfold randombytesWin
  refine (safe_cwhile (fun s : Mem UInt8 × Nat × Nat × Nat × List Bool × Bool => s.2.1 ≤ n ∧ s.2.2.1 = oo + s.2.1 ∧ s.2.2.2.1 = n - s.2.1 ∧
    out.Wrote s.1 oo (streamBytes src 0 s.2.1)) ⟨Nat.zero_le _, rfl, rfl, Mem.Wrote.nil _ _⟩ ?_).bind ?_
  · rintro ⟨out', pos, oo', n', oks, ab⟩ ⟨h1, h2, h3, h4⟩ hc
    dsimp only at h1 h2 h3 h4 hc ⊢
    subst h2
    subst h3
    have hlen : (if n - pos > 1048576 then 1048576 else n - pos) ≤ n - pos := by split <;> omega
    generalize (if n - pos > 1048576 then 1048576 else n - pos) = len at *
    match oks with
    | [] => trivial
    | false :: oks => exact ⟨h1, rfl, rfl, h4⟩
    | true :: oks =>
      refine (fill_runs (by rw [h4.size]; omega)).safe.bind fun out'' h' => ?_
      refine ⟨by dsimp only; omega, by dsimp only; omega, by dsimp only; omega, ?_⟩
      dsimp only
      rw [streamBytes_add]
      exact h4.append (by rw [streamBytes_length, Nat.zero_add]; exact h')
  · rintro ⟨out', pos, oo', n', oks, ab⟩ ⟨⟨h1, h2, h3, h4⟩, hc⟩
    dsimp only at h1 h2 h3 h4 hc ⊢
    by_cases hab : (ab || !rel) = true
    · rw [if_pos hab]; exact Or.inl rfl
    · rw [if_neg hab]
      have : pos = n := by
        simp at hab hc
        have := hc hab.1
        omega
      subst this
      exact Or.inr ⟨out', rfl, h4⟩

end Verif.Proof
