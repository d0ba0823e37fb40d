import Verif.Proof.Speed

/-! # C66: speed_print.c and cpucycles.c

`clk i` is the `i`-th value of the time stamp counter; nothing is assumed of it. `qs` is `qsort`; it is any function with the property of C11 7.22.5.2. -/

set_option autoImplicit false

namespace Verif.Props
open Verif.Model Verif.Spec Verif.Proof

/-- C66: the comparison function given to `qsort` is one that `qsort` accepts, and its order is that of the numbers. -/
theorem C66_cmp : GoodCmp cmp_uint64 ∧ ∀ a b, (cmp_uint64 a b < 0 ↔ a < b) ∧ (cmp_uint64 a b = 0 ↔ a = b) := by
  refine ⟨cmp_uint64_good, fun a b => ?_⟩
  have e : a = b ↔ a.toNat = b.toNat := UInt64.toNat_inj.symm
  unfold cmp_uint64
  simp only [gt_iff_lt, u64_lt, e]
  split
  · simp; omega
  · split
    · simp; omega
    · simp; omega

example : cmp_uint64 3 5 = -1 ∧ cmp_uint64 5 3 = 1 ∧ cmp_uint64 0xffffffffffffffff 0xffffffffffffffff = 0 := by decide

/-- C66: `cpucycles_overhead` returns the smallest difference of its pairs of readings: a bound for all of them that one of them attains, and 2^64 - 1 if all of them are (or there is none). -/
theorem C66_overhead (clk : Nat → UInt64) (pos N : Nat) : ∃ o tr, cpucycles_overhead clk pos N = .ok o tr ∧
    (∀ i < N, o ≤ clk (pos + 2 * i + 1) - clk (pos + 2 * i)) ∧
    ((∃ i < N, o = clk (pos + 2 * i + 1) - clk (pos + 2 * i)) ∨ o = 0xffffffffffffffff) := by
  obtain ⟨o, tr, h, ho⟩ := (overhead_runs clk pos N).exists_ok
  refine ⟨o, tr, h, ?_⟩
  subst ho
  clear h
  unfold overheadOf
  induction N with
  | zero => exact ⟨fun i hi => absurd hi (by omega), .inr rfl⟩
  | succ n ih =>
    obtain ⟨h1, h2⟩ := ih
    rw [foldl_min_succ, u64_min]
    split
    · rename_i hle
      refine ⟨fun i hi => ?_, ?_⟩
      · by_cases e : i = n
        · rw [e]; exact hle
        · exact h1 i (by omega)
      · rcases h2 with ⟨i, hi, h2⟩ | h2
        · exact .inl ⟨i, by omega, h2⟩
        · exact .inr h2
    · rename_i hle
      refine ⟨fun i hi => ?_, .inl ⟨n, by omega, rfl⟩⟩
      by_cases e : i = n
      · rw [e]; exact UInt64.le_refl _
      · have := h1 i (by omega)
        rw [u64_le] at *
        omega

example : ∃ tr, cpucycles_overhead (fun i => [10, 35, 40, 62, 70, 99].getD i 0) 0 3 = .ok 22 tr := ⟨_, rfl⟩

/-- C66: `print_results`, for every counter, every `qsort`, every title and every number of readings of at least two: no undefined behaviour; stdout gets exactly the report on the differences of
successive readings less the overhead; stderr gets nothing; the overhead is measured at the first call only (that is, as long as the static variable is 2^64 - 1). -/
theorem C66_print (clk : Nat → UInt64) (qs : Qsort) (hq : QsortSpec qs) (N : Nat) (st : PrintSt) (title : String) (l : List UInt64) (h2 : 2 ≤ l.length) (hl : l.length < 2 ^ 64) :
    ∃ t st' tr, print_results clk qs N st title (Mem.ofList l) l.length = .ok (t, st') tr ∧
      st'.overhead = (if st.overhead = 0xffffffffffffffff then overheadOf clk st.pos N else st.overhead) ∧
      st'.pos = (if st.overhead = 0xffffffffffffffff then st.pos + 2 * N else st.pos) ∧
      st'.out = st.out ++ report title (cycleDiffs st'.overhead l) ∧ st'.err = st.err := by
  obtain ⟨⟨t, st'⟩, tr, h, hr⟩ := (print_results_runs clk hq N st title (Mem.holds_ofList l) h2 hl).exists_ok
  obtain ⟨_, hr⟩ := hr
  dsimp only at hr
  subst hr
  exact ⟨t, _, tr, h, rfl, rfl, rfl, rfl⟩

/-- A `qsort` to run the examples with. -/
def qsDemo : Qsort := fun cmp l => l.mergeSort fun a b => decide (cmp a b ≤ 0)

theorem qsDemo_spec : QsortSpec qsDemo := by
  intro cmp ⟨h1, h2⟩ l
  refine ⟨List.mergeSort_perm _ _, ?_⟩
  refine (List.pairwise_mergeSort (le := fun a b => decide (cmp a b ≤ 0)) (fun a b c h h' => ?_) (fun a b => ?_) l).imp fun h => by simpa using h
  · simp only [decide_eq_true_iff] at *
    exact h2 a b c h h'
  · simp only [Bool.or_eq_true, decide_eq_true_iff]
    by_cases c : cmp a b ≤ 0
    · exact .inl c
    · exact .inr (by have := (h1 a b).1 (by omega); omega)

example : cycleDiffs 20 [100, 150, 230, 290] = [30, 60, 40] := by decide
example : medianOf [30, 60, 40] = 40 ∧ averageOf [30, 60, 40] = 43 := by decide +kernel
example : ∃ t st tr, print_results (fun i => UInt64.ofNat (25 * i)) qsDemo 3 printSt0 "gen_a: " (Mem.ofList [100, 150, 230, 290]) 4 = .ok (t, st) tr ∧ st.overhead = 25 ∧ st.pos = 6 ∧
    st.out = "gen_a: \nmedian: 35 cycles/ticks\naverage: 38 cycles/ticks\n\n".toList := by
  obtain ⟨t, st, tr, h, h1, h2, h3, _⟩ := C66_print (fun i => UInt64.ofNat (25 * i)) qsDemo qsDemo_spec 3 printSt0 "gen_a: " [100, 150, 230, 290] (by simp) (by simp)
  have e : overheadOf (fun i => UInt64.ofNat (25 * i)) printSt0.pos 3 = 25 := by decide +kernel
  rw [if_pos (by rfl)] at h1 h2
  rw [e] at h1
  rw [h1] at h3
  refine ⟨t, st, tr, h, h1, h2, ?_⟩
  rw [h3]
  decide +kernel

/-- C66: with fewer than two readings the only effect is the message on stderr; the buffer is not looked at. -/
theorem C66_short (clk : Nat → UInt64) (qs : Qsort) (N : Nat) (st : PrintSt) (title : String) (t : Mem UInt64) (n : Nat) (h : n < 2) :
    ∃ tr, print_results clk qs N st title t n = .ok (t, { st with err := st.err ++ "ERROR: Need a least two cycle counts!\n".toList }) tr := by
  unfold print_results
  rw [show decide (n < 2) = true from decide_eq_true h]
  exact ⟨_, rfl⟩

example : ∃ tr, print_results (fun _ => 0) qsDemo 3 printSt0 "x" #[] 1 = .ok (#[], ⟨0xffffffffffffffff, 0, [], "ERROR: Need a least two cycle counts!\n".toList⟩) tr :=
  C66_short _ _ _ _ _ _ _ (by decide)

/-- C66: what the printed median is, for an odd number of differences: one of them, with at most half of the others below it and at most half above. -/
theorem C66_median (d : List UInt64) (ho : d.length % 2 = 1) : medianOf d ∈ d ∧ (d.countP (· < medianOf d)) ≤ d.length / 2 ∧ (d.countP (medianOf d < ·)) ≤ d.length / 2 := by
  have hp := srt_perm d
  have hln : (srt d).length = d.length := srt_length d
  have hsort := srt_sorted d
  have hm : medianOf d = (srt d)[d.length / 2]'(by omega) := by
    unfold medianOf
    dsimp only
    have hi : d.length / 2 < (srt d).length := by omega
    rw [if_pos ho, List.getD_eq_getElem?_getD, List.getElem?_eq_getElem hi, Option.getD_some]
  have hlow : ∀ x ∈ (srt d).drop (d.length / 2), medianOf d ≤ x := by
    intro x hx
    obtain ⟨i, hi, rfl⟩ := List.mem_iff_getElem.1 hx
    rw [List.getElem_drop, hm]
    rw [List.length_drop] at hi
    by_cases e : i = 0
    · subst e; exact UInt64.le_refl _
    · exact List.pairwise_iff_getElem.1 hsort _ _ (by omega) (by omega) (by omega)
  have hup : ∀ x ∈ (srt d).take (d.length / 2 + 1), x ≤ medianOf d := by
    intro x hx
    obtain ⟨i, hi, rfl⟩ := List.mem_iff_getElem.1 hx
    rw [List.getElem_take, hm]
    rw [List.length_take] at hi
    by_cases e : i = d.length / 2
    · subst e; exact UInt64.le_refl _
    · exact List.pairwise_iff_getElem.1 hsort _ _ (by omega) (by omega) (by omega)
  refine ⟨?_, ?_, ?_⟩
  · rw [hm]
    exact hp.subset (List.getElem_mem _)
  · rw [← hp.countP_eq, ← List.take_append_drop (d.length / 2) (srt d), List.countP_append]
    have h0 : ((srt d).drop (d.length / 2)).countP (· < medianOf d) = 0 := by
      rw [List.countP_eq_zero]
      intro x hx
      have := hlow x hx
      simp only [decide_eq_true_iff, u64_le, u64_lt] at *
      omega
    have h1 := List.countP_le_length (p := fun x => decide (x < medianOf d)) (l := (srt d).take (d.length / 2))
    rw [List.length_take] at h1
    omega
  · rw [← hp.countP_eq, ← List.take_append_drop (d.length / 2 + 1) (srt d), List.countP_append]
    have h0 : ((srt d).take (d.length / 2 + 1)).countP (medianOf d < ·) = 0 := by
      rw [List.countP_eq_zero]
      intro x hx
      have := hup x hx
      simp only [decide_eq_true_iff, u64_le, u64_lt] at *
      omega
    have h1 := List.countP_le_length (p := fun x => decide (medianOf d < x)) (l := (srt d).drop (d.length / 2 + 1))
    rw [List.length_drop] at h1
    omega

example : medianOf [7, 1, 9, 9, 2] = 7 := by decide +kernel

/-- C66: the printed average is the mean, rounded down, if the sum is below 2^64. -/
theorem C66_average (d : List UInt64) (h : (d.map UInt64.toNat).sum < 2 ^ 64) : averageOf d = (d.map UInt64.toNat).sum / d.length := by
  unfold averageOf
  rw [Nat.mod_eq_of_lt h]

example : averageOf [7, 1, 9, 9, 2] = 5 := by decide

/-- C66, where it is not the mean or the median: the sums wrap. Of two equal differences 2^63 the median and the average printed are 0. -/
theorem C66_wraps : medianOf [0x8000000000000000, 0x8000000000000000] = 0 ∧ averageOf [0x8000000000000000, 0x8000000000000000] = 0 := by decide +kernel

/-- C66, where the overhead is more than a difference: the difference wraps to nearly 2^64 (here 10 cycles between the readings, an overhead of 20). -/
theorem C66_below_overhead : cycleDiffs 20 [100, 110] = [18446744073709551606] := by decide

/-- C66: the guard for fewer than two readings is needed: `median` of no element reads out of bounds and `average` of none divides by 0. -/
theorem C66_empty (qs : Qsort) (hq : QsortSpec qs) (t : Mem UInt64) (hn : t.size < 2 ^ 64) : median qs t 0 = .ub .oob ∧ ∃ u, average t 0 = .ub u := by
  refine ⟨?_, _, rfl⟩
  have e : qs cmp_uint64 [] = [] := by rw [qsort_eq hq]; rfl
  have h3 : rd t 18446744073709551615 = .ub .oob := by
    unfold rd
    rw [Array.getElem?_eq_none (by omega)]
  have h1 : rdList t 0 0 = pure [] := rfl
  have h2 : wrList t 0 (qs cmp_uint64 []) = pure t := by rw [e]; rfl
  unfold median
  rw [h1, pure_bind, h2, pure_bind]
  rw [show (0 / 2 + (2 ^ 64 - 1)) % 2 ^ 64 = 18446744073709551615 from rfl, h3]
  rfl

end Verif.Props
