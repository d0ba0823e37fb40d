import Verif.Model.Speed
import Verif.Spec.Speed
import Verif.C.Bytes

/-! # speed_print.c -/

namespace Verif.Proof
open Verif.Model Verif.Spec

theorem u64_le (a b : UInt64) : a ≤ b ↔ a.toNat ≤ b.toNat := UInt64.le_iff_toNat_le
theorem u64_lt (a b : UInt64) : a < b ↔ a.toNat < b.toNat := UInt64.lt_iff_toNat_lt
theorem u64_min (a b : UInt64) : min a b = if a ≤ b then a else b := rfl

theorem foldl_min_succ (f : Nat → UInt64) (n : Nat) (a : UInt64) : ((List.range (n + 1)).map f).foldl min a = min (((List.range n).map f).foldl min a) (f n) := by
  rw [List.range_succ, List.map_append, List.foldl_append]
  rfl

theorem overhead_runs (clk : Nat → UInt64) (pos N : Nat) : Runs (cpucycles_overhead clk pos N) (fun o => o = overheadOf clk pos N) := by
  unfold cpucycles_overhead overheadOf
  refine runs_cfor (fun n o => o = ((List.range n).map fun i => clk (pos + 2 * i + 1) - clk (pos + 2 * i)).foldl min 0xffffffffffffffff) (Nat.zero_le _) rfl ?_
  intro i o _ _ ho
  dsimp only
  rw [foldl_min_succ, ← ho, runs_cif]
  refine ⟨fun h => ?_, fun h => ?_⟩
  · rw [decide_eq_true_iff] at h
    rw [runs_pure, u64_min, if_neg (by rw [u64_le]; rw [u64_lt] at h; omega)]
  · rw [decide_eq_false_iff_not] at h
    rw [runs_pure, u64_min, if_pos (by rw [u64_le]; rw [u64_lt] at h; omega)]

theorem cmp_le (a b : UInt64) : cmp_uint64 a b ≤ 0 ↔ a ≤ b := by
  unfold cmp_uint64
  simp only [gt_iff_lt, u64_lt, u64_le]
  split
  · simp; omega
  · split
    · simp; omega
    · simp; omega

theorem cmp_uint64_good : GoodCmp cmp_uint64 := by
  refine ⟨fun a b => ?_, fun a b c h1 h2 => ?_⟩
  · unfold cmp_uint64
    simp only [gt_iff_lt, u64_lt]
    split <;> split <;> simp <;> omega
  · rw [cmp_le, u64_le] at *
    omega

/-- The elements in ascending order. -/
abbrev srt (l : List UInt64) : List UInt64 := l.insertionSort (· ≤ ·)

theorem srt_sorted (l : List UInt64) : (srt l).Pairwise (· ≤ ·) := by
  have : IsTrans UInt64 (· ≤ ·) := ⟨fun a b c h1 h2 => by rw [u64_le] at *; omega⟩
  have : Std.Total (α := UInt64) (· ≤ ·) := ⟨fun a b => by rw [u64_le, u64_le]; omega⟩
  exact List.pairwise_insertionSort (· ≤ ·) l

theorem srt_perm (l : List UInt64) : (srt l).Perm l := List.perm_insertionSort _ l

theorem srt_length (l : List UInt64) : (srt l).length = l.length := (srt_perm l).length_eq

theorem qsort_eq {qs : Qsort} (h : QsortSpec qs) (l : List UInt64) : qs cmp_uint64 l = (srt l) := by
  obtain ⟨h1, h2⟩ := h _ cmp_uint64_good l
  exact List.Perm.eq_of_pairwise (le := (· ≤ ·)) (fun a b _ _ h1 h2 => by rw [u64_le] at h1 h2; exact UInt64.toNat_inj.1 (by omega)) (h2.imp fun h => (cmp_le _ _).1 h) (srt_sorted l) (h1.trans (srt_perm l).symm)

theorem rdList_runs {m : Mem UInt64} : ∀ (n o : Nat) (l : List UInt64), m.Holds o l → l.length = n → Runs (rdList m o n) (fun v => v = l)
  | 0, o, l, _, h => by
    rw [List.length_eq_zero_iff] at h
    subst h
    rfl
  | n + 1, o, l, h, hl => by
    obtain ⟨x, l, rfl⟩ : ∃ x m, l = x :: m := by cases l with | nil => simp at hl | cons x m => exact ⟨x, m, rfl⟩
    have h2 : m.Holds (o + 1) l := ((Mem.Holds.append (l := [x]) (l' := l)).1 h).2
    unfold rdList
    rw [runs_bind, runs_rd_of (show m[o]? = some (some x) from h.has 0 0 (by simp)), runs_bind]
    refine (rdList_runs n (o + 1) l h2 (by simpa using hl)).mono fun v hv => ?_
    rw [runs_pure, hv]

theorem wrList_runs : ∀ (l : List UInt64) (m : Mem UInt64) (o : Nat), o + l.length ≤ m.size → Runs (wrList m o l) (fun m' => m.Wrote m' o l)
  | [], m, o, _ => Mem.Wrote.nil _ _
  | x :: l, m, o, h => by
    rw [List.length_cons] at h
    unfold wrList
    rw [runs_bind]
    refine (runs_wr_upd (by omega)).mono fun m1 h1 => ?_
    refine (wrList_runs l m1 (o + 1) (by rw [h1.size]; omega)).mono fun m2 h2 => ?_
    refine ⟨by rw [h2.size, h1.size], ?_, fun j hj => ?_⟩
    · rw [show x :: l = [x] ++ l from rfl, Mem.Holds.append]
      refine ⟨fun j hj => ?_, h2.holds⟩
      rw [List.length_singleton] at hj
      obtain rfl : j = 0 := by omega
      rw [h2.frame _ (by omega)]
      exact h1.has 0 (by omega)
    · rw [List.length_cons] at hj
      rw [h2.frame j (by omega), h1.frame j (by omega)]

theorem median_runs {qs : Qsort} (hq : QsortSpec qs) {t : Mem UInt64} {d : List UInt64} (h : t.Holds 0 d) (hs : d.length ≤ t.size) (h0 : 0 < d.length) (hl : d.length < 2 ^ 64) :
    Runs (median qs t d.length) (fun r => t.Wrote r.1 0 (srt d) ∧ r.2 = medianOf d) := by
  have hln : (srt d).length = d.length := srt_length d
  unfold median medianOf
  rw [runs_bind]
  refine (rdList_runs _ 0 d h rfl).mono fun v hv => ?_
  subst hv
  rw [runs_bind, qsort_eq hq]
  refine (wrList_runs _ t 0 (by omega)).mono fun t' ht => ?_
  have get : ∀ i, i < v.length → t'[i]? = some (some ((srt v).getD i 0)) := fun i hi => by
    have := ht.holds.has 0 i (by omega)
    rwa [Nat.zero_add] at this
  rw [runs_cif]
  dsimp only
  refine ⟨fun ho => ?_, fun ho => ?_⟩
  · rw [decide_eq_true_iff] at ho
    rw [runs_bind, runs_rd_of (get _ (by omega)), runs_pure, if_pos (by omega)]
    exact ⟨ht, rfl⟩
  · rw [decide_eq_false_iff_not, not_not] at ho
    have e : (v.length / 2 + (2 ^ 64 - 1)) % 2 ^ 64 = v.length / 2 - 1 := by omega
    rw [runs_bind, e, runs_rd_of (get _ (by omega)), runs_bind, runs_rd_of (get _ (by omega)), runs_pure, if_neg (by omega)]
    exact ⟨ht, rfl⟩

theorem average_runs {t : Mem UInt64} {d : List UInt64} (h : t.Holds 0 d) (h0 : 0 < d.length) : Runs (average t d.length) (fun r => r.toNat = averageOf d) := by
  unfold average averageOf
  rw [runs_bind]
  refine (runs_cfor (fun i (acc : UInt64) => acc.toNat = ((d.take i).map UInt64.toNat).sum % 2 ^ 64) (Nat.zero_le _) (by simp) ?_).mono fun acc hacc => ?_
  · intro i acc _ hi hacc
    have := h.has 0 i (by omega)
    rw [Nat.zero_add] at this
    rw [runs_bind, runs_rd_of this, runs_pure, List.take_add_one, UInt64.toNat_add, hacc]
    dsimp only
    rw [List.getD_eq_getElem?_getD, List.getElem?_eq_getElem (by omega)]
    simp only [List.map_append, List.sum_append, Option.toList_some, List.map_cons, List.map_nil, List.sum_cons, List.sum_nil, Option.getD_some]
    omega
  · rw [List.take_length] at hacc
    unfold udiv
    rw [if_neg (by omega), runs_bind, runs_bind, runs_leak, runs_pure, runs_pure, hacc]
    have : (d.map UInt64.toNat).sum % 2 ^ 64 / d.length ≤ (d.map UInt64.toNat).sum % 2 ^ 64 := Nat.div_le_self _ _
    have : (d.map UInt64.toNat).sum % 2 ^ 64 < 2 ^ 64 := Nat.mod_lt _ (by decide)
    rw [UInt64.toNat_ofNat']
    exact Nat.mod_eq_of_lt (by omega)

theorem cycleDiffs_length (o : UInt64) (l : List UInt64) : (cycleDiffs o l).length = l.length - 1 := by simp [cycleDiffs]

theorem cycleDiffs_get (o : UInt64) (l : List UInt64) (i : Nat) (hi : i + 1 < l.length) : (cycleDiffs o l)[i]'(by rw [cycleDiffs_length]; omega) = l[i + 1] - l[i] - o := by
  simp [cycleDiffs]

theorem diffs_runs {t : Mem UInt64} {l : List UInt64} (h : t.Holds 0 l) (o : UInt64) (h0 : 2 ≤ l.length) :
    Runs (cfor 0 (l.length - 1) t fun i t => do
      let x ← rd t (i + 1)
      let y ← rd t i
      wr t i (x - y - o)) (fun t' => t'.size = t.size ∧ t'.Holds 0 (cycleDiffs o l)) := by
  have hsz : l.length ≤ t.size := by
    have := (Array.getElem?_eq_some_iff.mp (h (l.length - 1) (by omega))).1
    omega
  refine (runs_cfor (fun i t' => t'.size = t.size ∧ (∀ j (hj : j < l.length), i ≤ j → t'[j]? = some (some l[j])) ∧
    ∀ j (hj : j < (cycleDiffs o l).length), j < i → t'[j]? = some (some (cycleDiffs o l)[j])) (Nat.zero_le _) ⟨rfl, fun j hj _ => ?_, fun j _ hj => absurd hj (by omega)⟩ ?_).mono fun t' ht => ?_
  · have := h j hj
    rwa [Nat.zero_add] at this
  · intro i t' _ hi ht
    obtain ⟨h1, h2, h3⟩ := ht
    rw [runs_bind, runs_rd_of (h2 (i + 1) (by omega) (by omega)), runs_bind, runs_rd_of (h2 i (by omega) (Nat.le_refl _))]
    refine (runs_wr_upd (by omega)).mono fun t2 ht2 => ?_
    refine ⟨by rw [ht2.size, h1], fun j hj hij => ?_, fun j hj hij => ?_⟩
    · rw [ht2.frame j (by omega)]
      exact h2 j hj (by omega)
    · by_cases hji : j = i
      · subst hji
        have := ht2.has 0 (by omega)
        rw [Nat.add_zero] at this
        rw [this, cycleDiffs_get o l j (by omega)]
      · rw [ht2.frame j (by omega)]
        exact h3 j hj (by omega)
  · refine ⟨ht.1, fun j hj => ?_⟩
    rw [Nat.zero_add]
    exact ht.2.2 j hj (by rw [cycleDiffs_length] at hj; omega)

/-- The static variable after a call. -/
def overheadAfter (clk : Nat → UInt64) (N : Nat) (st : PrintSt) : UInt64 := if st.overhead = 0xffffffffffffffff then overheadOf clk st.pos N else st.overhead

theorem print_results_runs (clk : Nat → UInt64) {qs : Qsort} (hq : QsortSpec qs) (N : Nat) (st : PrintSt) (s : String) {t : Mem UInt64} {l : List UInt64} (h : t.Holds 0 l) (h2 : 2 ≤ l.length)
    (hl : l.length < 2 ^ 64) : Runs (print_results clk qs N st s t l.length) (fun r => r.1.size = t.size ∧ r.2 = ⟨overheadAfter clk N st,
      if st.overhead = 0xffffffffffffffff then st.pos + 2 * N else st.pos, st.out ++ report s (cycleDiffs (overheadAfter clk N st) l), st.err⟩) := by
  unfold print_results
  rw [runs_cif]
  refine ⟨fun h => absurd h (by simp; omega), fun _ => ?_⟩
  rw [runs_bind]
  refine Runs.mono (P := fun st' => st' = ⟨overheadAfter clk N st, if st.overhead = 0xffffffffffffffff then st.pos + 2 * N else st.pos, st.out, st.err⟩) ?_ fun st' hst => ?_
  · rw [runs_cif]
    unfold overheadAfter
    refine ⟨fun h => ?_, fun h => ?_⟩
    · have h : st.overhead = 0xffffffffffffffff := by simpa using h
      rw [runs_bind]
      refine (overhead_runs clk st.pos N).mono fun o ho => ?_
      rw [runs_pure, if_pos h, if_pos h, ho]
    · have h : st.overhead ≠ 0xffffffffffffffff := by simpa using h
      rw [runs_pure, if_neg h, if_neg h]
  subst hst
  dsimp only
  rw [runs_bind]
  refine (diffs_runs h (overheadAfter clk N st) h2).mono fun t1 ht1 => ?_
  have hlen := cycleDiffs_length (overheadAfter clk N st) l
  have hsz : l.length ≤ t.size := by
    have := (Array.getElem?_eq_some_iff.mp (h (l.length - 1) (by omega))).1
    omega
  rw [runs_bind, ← hlen]
  refine (median_runs hq ht1.2 (by rw [ht1.1]; omega) (by omega) (by omega)).mono fun r hr => ?_
  obtain ⟨t2, m⟩ := r
  obtain ⟨ht2, hm⟩ := hr
  dsimp only at ht2 hm ⊢
  have hp := srt_perm (cycleDiffs (overheadAfter clk N st) l)
  have hav := average_runs ht2.holds (by rw [srt_length]; omega)
  rw [srt_length] at hav
  rw [runs_bind]
  refine hav.mono fun a ha => ?_
  rw [runs_pure]
  refine ⟨by rw [ht2.size, ht1.1], ?_⟩
  have ha' : a.toNat = averageOf (cycleDiffs (overheadAfter clk N st) l) := by
    rw [ha]
    unfold averageOf
    rw [(hp.map UInt64.toNat).sum_nat, srt_length]
  dsimp only
  rw [ha', hm]
  congr 1
  unfold report
  simp only [String.toList_append, List.append_assoc]
  rfl

end Verif.Proof
