import Verif.Model.Kat
import Verif.Spec.Kat
import Verif.Proof.TestKyber

/-! # PQCgenKAT_kem.c -/

namespace Verif.Proof
open Verif.Model Verif.Spec

attribute [local irreducible] KeyGen_internal Encaps_internal Decaps_internal

/-! ## FindMarker -/

theorem holds_tail {m : Mem UInt8} {o : Nat} {x : UInt8} {l : List UInt8} (h : m.Holds o (x :: l)) : m[o]? = some (some x) ∧ m.Holds (o + 1) l := by
  have := (Mem.Holds.append (l := [x]) (l' := l)).1 h
  exact ⟨h.has 0 0 (by simp), this.2⟩

theorem strlen_runs {s : Mem UInt8} : ∀ (l : List UInt8) (n j : Nat), s.Holds j (l ++ [0]) → (∀ x ∈ l, x ≠ 0) → l.length < n → Runs (strlen s n j) (fun r => r = j + l.length)
  | [], n + 1, j, h, _, _ => by
    unfold strlen
    rw [runs_bind, runs_rd_of (holds_tail h).1]
    rfl
  | x :: l, n + 1, j, h, h0, hn => by
    rw [List.cons_append] at h
    obtain ⟨h1, h2⟩ := holds_tail h
    rw [strlen, runs_bind, runs_rd_of h1, if_neg (h0 x (by simp))]
    refine (strlen_runs l n (j + 1) h2 (fun y hy => h0 y (by simp [hy])) (by simpa using hn)).mono fun r hr => ?_
    rw [hr, List.length_cons]
    omega

theorem strncmpNe_runs {a b : Mem UInt8} : ∀ (n j : Nat) (l l' : List UInt8), a.Holds j l → b.Holds j l' → l.length = n → l'.length = n → (∀ x ∈ l', x ≠ 0) →
    Runs (strncmpNe a b n j) (fun r => r = decide (l ≠ l'))
  | 0, j, l, l', _, _, h, h', _ => by
    rw [List.length_eq_zero_iff] at h h'
    subst h; subst h'
    rfl
  | n + 1, j, l, l', ha, hb, h, h', h0 => by
    obtain ⟨x, l, rfl⟩ : ∃ x m, l = x :: m := by cases l with | nil => simp at h | cons x m => exact ⟨x, m, rfl⟩
    obtain ⟨y, l', rfl⟩ : ∃ x m, l' = x :: m := by cases l' with | nil => simp at h' | cons x m => exact ⟨x, m, rfl⟩
    rw [strncmpNe, runs_bind, runs_rd_of (holds_tail ha).1, runs_bind, runs_rd_of (holds_tail hb).1]
    by_cases hxy : x = y
    · rw [if_neg (by simpa using hxy), if_neg (by rw [hxy]; exact h0 y (by simp))]
      refine (strncmpNe_runs n (j + 1) l l' (holds_tail ha).2 (holds_tail hb).2 (by simpa using h) (by simpa using h') fun z hz => h0 z (by simp [hz])).mono fun r hr => ?_
      rw [hr]
      simp [hxy]
    · rw [if_pos hxy, runs_pure]
      simp [hxy]

theorem wr_wrote {m : Mem UInt8} {o : Nat} {x : UInt8} (h : o < m.size) : Runs (wr m o x) (fun m' => m.Wrote m' o [x]) := by
  refine (runs_wr_upd h).mono fun m' hu => ⟨hu.size, fun i hi => ?_, fun j hj => hu.frame j (by simpa using hj)⟩
  rw [hu.has.get (by omega) (by simp at hi; omega)]
  simp at hi
  subst hi
  rfl

theorem fmFill_runs : ∀ (n i : Nat) (line : Mem UInt8) (f : File), i + n ≤ line.size →
    Runs (fmFill n i line f) (fun r => if n ≤ f.length then ∃ line', r = some (line', f.drop n) ∧ line.Wrote line' i (f.take n) else r = none)
  | 0, i, line, f, _ => by
    unfold fmFill
    rw [runs_bind, runs_leak, runs_pure, if_pos (Nat.zero_le _)]
    exact ⟨line, rfl, Mem.Wrote.nil _ _⟩
  | n + 1, i, line, f, h => by
    rw [fmFill, runs_bind, runs_leak]
    cases f with
    | nil =>
      simp only [fgetc]
      rw [runs_bind]
      refine (wr_wrote (by omega)).mono fun line' hw => ?_
      rw [runs_bind, runs_leak, runs_pure]
      simp
    | cons c f =>
      simp only [fgetc]
      rw [runs_bind]
      refine (wr_wrote (by omega)).mono fun line' hw => ?_
      rw [runs_bind, runs_leak]
      refine (fmFill_runs n (i + 1) line' f (by rw [hw.size]; omega)).mono fun r hr => ?_
      by_cases hn : n ≤ f.length
      · rw [if_pos hn] at hr
        obtain ⟨line'', rfl, h2⟩ := hr
        rw [if_pos (by simpa using hn)]
        exact ⟨line'', by simp, hw.append h2⟩
      · rw [if_neg hn] at hr
        rw [if_neg (by simpa using hn)]
        exact hr

theorem afterFirst_append (m f : List UInt8) : afterFirst m (m ++ f) = some f := by
  cases m with
  | nil => cases f <;> simp [afterFirst]
  | cons x m => simp [afterFirst]

theorem afterFirst_cons_ne {m : List UInt8} {x : UInt8} {f : List UInt8} (h : ¬ m <+: x :: f) : afterFirst m (x :: f) = afterFirst m f := by
  rw [afterFirst, if_neg (by rw [List.isPrefixOf_iff_prefix]; exact h)]

theorem afterFirst_short {m : List UInt8} : ∀ {f : List UInt8}, f.length < m.length → afterFirst m f = none
  | [], h => by
    rw [afterFirst, if_neg (by rintro rfl; simp at h)]
  | x :: f, h => by
    rw [afterFirst_cons_ne (fun hp => by have := hp.length_le; omega)]
    exact afterFirst_short (by simp at h; omega)

theorem shift_runs {line : Mem UInt8} {x : UInt8} {w : List UInt8} (h : line.Holds 0 (x :: w)) :
    Runs (cfor 0 w.length line fun i line => do let x ← rd line (i + 1); wr line i x) (fun line' => line'.size = line.size ∧ line'.Holds 0 w) := by
  refine (runs_cfor (fun i (l : Mem UInt8) => l.size = line.size ∧ (∀ j < i, l[j]? = some (some (w.getD j 0))) ∧ ∀ j, i ≤ j → l[j]? = line[j]?) (Nat.zero_le _) ⟨rfl, fun j hj => absurd hj (Nat.not_lt_zero j), fun _ _ => rfl⟩ ?_).mono ?_
  · intro i l _ hi hl
    obtain ⟨h1, h2, h3⟩ := hl
    have hget : l[i + 1]? = some (some (w.getD i 0)) := by
      rw [h3 _ (by omega)]
      have := (holds_tail h).2.has 0 i hi
      rw [← this, Nat.add_comm i 1, Nat.zero_add]
    rw [runs_bind, runs_rd_of hget]
    have hi' : i < line.size := by
      have := (Array.getElem?_eq_some_iff.mp (h i (by simp; omega))).1
      omega
    refine (wr_wrote (by omega)).mono fun l' hw => ⟨hw.size.trans h1, fun j hj => ?_, fun j hj => ?_⟩
    · by_cases hji : j = i
      · subst hji
        exact hw.holds.has 0 0 (by simp)
      · rw [hw.frame j (by simp; omega)]
        exact h2 j (by omega)
    · rw [hw.frame j (by simp; omega)]
      exact h3 j (by omega)
  · rintro l ⟨h1, h2, -⟩
    refine ⟨h1, fun i hi => ?_⟩
    rw [Nat.zero_add, h2 i hi, List.getD_eq_getElem?_getD, List.getElem?_eq_getElem hi]
    rfl

/-- The result of `FindMarker` from that of the specification. -/
def fmResult : Option (List UInt8) → Int × File
  | some f => (1, f)
  | none => (0, [])

theorem fmLoop_runs {marker : Mem UInt8} {m : List UInt8} (hm : marker.Holds 0 m) (h0 : ∀ x ∈ m, x ≠ 0) : ∀ (f : File) (n : Nat) (line : Mem UInt8) (w : List UInt8), f.length < n → line.Holds 0 w →
    w.length = m.length → m.length < line.size → Runs (fmLoop marker m.length n line f) (fun r => r = fmResult (afterFirst m (w ++ f)))
  | f, n + 1, line, w, hn, hw, hl, hs => by
    rw [fmLoop, runs_bind]
    refine (strncmpNe_runs _ 0 w m hw hm hl rfl h0).mono fun d hd => ?_
    rw [runs_cif, hd]
    refine ⟨fun h => ?_, fun h => ?_⟩
    · have : w = m := by simpa using h
      subst this
      rw [runs_pure, afterFirst_append]
      rfl
    · have hne : w ≠ m := by simpa using h
      obtain ⟨x, w, rfl⟩ : ∃ x v, w = x :: v := by
        cases w with
        | nil => exact absurd (List.length_eq_zero_iff.1 hl.symm).symm hne
        | cons x v => exact ⟨x, v, rfl⟩
      have hl' : m.length - 1 = w.length := by simp at hl; omega
      have e : afterFirst m (x :: w ++ f) = afterFirst m (w ++ f) := by
        refine afterFirst_cons_ne fun hp => hne ?_
        have := List.prefix_of_prefix_length_le hp (List.prefix_append (x :: w) f) (by omega)
        exact (this.eq_of_length hl.symm).symm
      rw [e, hl', runs_bind]
      refine (shift_runs hw).mono fun line1 h1 => ?_
      obtain ⟨z1, h1⟩ := h1
      cases f with
      | nil =>
        simp only [fgetc]
        rw [runs_bind]
        refine (wr_wrote (by omega)).mono fun line2 h2 => ?_
        rw [runs_bind, runs_leak, runs_pure, afterFirst_short (by rw [List.append_nil]; simp at hl; omega)]
        rfl
      | cons c f =>
        simp only [fgetc]
        rw [runs_bind]
        refine (wr_wrote (by omega)).mono fun line2 h2 => ?_
        rw [runs_bind, runs_leak, runs_bind]
        refine (wr_wrote (by rw [h2.size]; omega)).mono fun line3 h3 => ?_
        have hh : line3.Holds 0 (w ++ [c]) := by
          intro i hi
          rw [h3.frame _ (by simp at hi hl ⊢; omega)]
          revert i
          show line2.Holds 0 (w ++ [c])
          rw [Mem.Holds.append, Nat.zero_add]
          refine ⟨fun i hi => ?_, h2.holds⟩
          rw [h2.frame _ (by omega)]
          exact h1 i hi
        have := fmLoop_runs hm h0 f n line3 (w ++ [c]) (by simpa using hn) hh (by simpa using hl) (by rw [h3.size, h2.size, z1]; exact hs)
        simpa using this

theorem FindMarker_runs {marker : Mem UInt8} {m : List UInt8} (hm : marker.Holds 0 (m ++ [0])) (h0 : ∀ x ∈ m, x ≠ 0) (f : File) :
    Runs (FindMarker f marker) (fun r => r = fmResult (afterFirst (m.take 49) f)) := by
  have hsz : m.length < marker.size := by
    have := (Array.getElem?_eq_some_iff.mp (hm m.length (by simp))).1
    omega
  unfold FindMarker
  rw [runs_bind]
  refine (strlen_runs m (marker.size + 1) 0 hm h0 (by omega)).mono fun n hn => ?_
  rw [Nat.zero_add] at hn
  subst hn
  rw [runs_bind]
  have hlen : Runs (cif (decide (m.length > MAX_MARKER_LEN - 1)) (pure (MAX_MARKER_LEN - 1)) (pure m.length)) (fun len => len = (m.take 49).length) := by
    rw [runs_cif]
    refine ⟨fun h => ?_, fun h => ?_⟩
    · simp [MAX_MARKER_LEN] at h
      rw [runs_pure, List.length_take]
      simp [MAX_MARKER_LEN]; omega
    · simp [MAX_MARKER_LEN] at h
      rw [runs_pure, List.length_take]
      omega
  refine hlen.mono fun len hl => ?_
  subst hl
  have hm' : marker.Holds 0 (m.take 49) := by
    have h1 := ((Mem.Holds.append (l := m) (l' := [0])).1 hm).1
    rw [← List.take_append_drop 49 m] at h1
    exact (Mem.Holds.append.1 h1).1
  have h0' : ∀ x ∈ m.take 49, x ≠ 0 := fun x hx => h0 x (List.mem_of_mem_take hx)
  have hl : (m.take 49).length ≤ 49 := by simp
  generalize m.take 49 = m at *
  rw [runs_bind]
  refine (fmFill_runs _ 0 _ f (by rw [Mem.size_uninit]; simp [MAX_MARKER_LEN]; omega)).mono fun r hr => ?_
  by_cases hf : m.length ≤ f.length
  · rw [if_pos hf] at hr
    obtain ⟨line, rfl, hw⟩ := hr
    dsimp only
    have hz : line.size = 50 := by rw [hw.size, Mem.size_uninit]; rfl
    rw [runs_bind]
    refine (wr_wrote (by omega)).mono fun line2 h2 => ?_
    have hh : line2.Holds 0 (f.take m.length) := by
      intro i hi
      rw [h2.frame _ (by simp at hi ⊢; omega)]
      exact hw.holds i hi
    have := fmLoop_runs hm' h0' (f.drop m.length) ((f.drop m.length).length + 1) line2 (f.take m.length) (by omega) hh (by simp; omega) (by rw [h2.size]; omega)
    rw [List.take_append_drop] at this
    exact this
  · rw [if_neg hf] at hr
    subst hr
    rw [afterFirst_short (by omega)]
    rfl

/-! ## ReadHex -/

theorem hexDigitVal_some : ∀ c : Fin 256, (hexDigitVal (UInt8.ofNat c.val)).isSome = isxdigit (UInt8.ofNat c.val) ∧
    (isxdigit (UInt8.ofNat c.val) = true → (hexDigitVal (UInt8.ofNat c.val)).getD 0 < 16 ∧
      Runs (hexNibble (UInt8.ofNat c.val)) (fun r => r = UInt8.ofNat ((hexDigitVal (UInt8.ofNat c.val)).getD 0))) := by decide +kernel

theorem isSome_hex (c : UInt8) : (hexDigitVal c).isSome = isxdigit c := by
  have := (hexDigitVal_some ⟨c.toNat, c.toNat_lt⟩).1
  simpa using this

theorem hexNibble_runs {c : UInt8} (h : isxdigit c = true) : Runs (hexNibble c) (fun r => r = UInt8.ofNat ((hexDigitVal c).getD 0)) ∧ (hexDigitVal c).getD 0 < 16 := by
  have := (hexDigitVal_some ⟨c.toNat, c.toNat_lt⟩).2
  simp only [UInt8.ofNat_toNat] at this
  exact ⟨(this h).2, (this h).1⟩

/-- A string shifted left by four bits, with the new digit `d`. -/
def shiftIn (a : List UInt8) (d : Nat) : List UInt8 :=
  (List.range a.length).map fun i => UInt8.ofNat (((a.getD i 0).toNat <<< 4) ||| if i + 1 < a.length then (a.getD (i + 1) 0).toNat >>> 4 else d)

theorem getD_append_l {l l' : List UInt8} {i : Nat} (h : i < l.length) : (l ++ l').getD i 0 = l.getD i 0 := by
  rw [List.getD_eq_getElem?_getD, List.getElem?_append_left h, List.getD_eq_getElem?_getD]

theorem getD_append_end {l : List UInt8} {y : UInt8} : (l ++ [y]).getD l.length 0 = y := by
  rw [List.getD_eq_getElem?_getD, List.getElem?_append_right (Nat.le_refl _)]
  simp

theorem shiftIn_append (l : List UInt8) (y : UInt8) (d : Nat) : shiftIn (l ++ [y]) d = shiftIn l (y.toNat >>> 4) ++ [UInt8.ofNat ((y.toNat <<< 4) ||| d)] := by
  unfold shiftIn
  rw [List.length_append, List.length_singleton, List.range_succ, List.map_append, List.map_singleton]
  congr 1
  · refine List.map_congr_left fun i hi => ?_
    rw [List.mem_range] at hi
    rw [if_pos (by omega), getD_append_l hi]
    by_cases h : i + 1 < l.length
    · rw [if_pos h, getD_append_l h]
    · rw [if_neg h, show i + 1 = l.length by omega, getD_append_end]
  · rw [if_neg (by omega), getD_append_end]

theorem shl4_or {y d : Nat} (hd : d < 16) : (y <<< 4) ||| d = 16 * y + d := by
  rw [← Nat.shiftLeft_add_eq_or_of_lt (by omega : d < 2 ^ 4), Nat.shiftLeft_eq]
  omega

theorem shiftIn_beBytes : ∀ (n v d : Nat), d < 16 → shiftIn (beBytes n v) d = beBytes n (16 * v + d)
  | 0, _, _, _ => rfl
  | n + 1, v, d, hd => by
    have hy : (UInt8.ofNat v).toNat = v % 256 := by simp
    rw [beBytes, shiftIn_append, shiftIn_beBytes n _ _ (by rw [Nat.shiftRight_eq_div_pow, hy]; omega), beBytes, shl4_or hd, hy, Nat.shiftRight_eq_div_pow]
    congr 2
    · omega
    · apply UInt8.toNat_inj.1
      simp

theorem shiftA_runs {A : Mem UInt8} {a : List UInt8} {d : Nat} (h : A.Holds 0 a) (ha : 0 < a.length) (hd : d < 16) :
    Runs (do
      let A ← cfor 0 (a.length - 1) A fun i A => do
        let x ← rd A i
        let y ← rd A (i + 1)
        wr A i (UInt8.ofNat ((x.toNat <<< 4) ||| (y.toNat >>> 4)))
      let x ← rd A (a.length - 1)
      wr A (a.length - 1) (UInt8.ofNat ((x.toNat <<< 4) ||| (UInt8.ofNat d).toNat))) (fun A' => A.Wrote A' 0 (shiftIn a d)) := by
  have hlen : (shiftIn a d).length = a.length := by simp [shiftIn]
  have hget : ∀ i, i < a.length → (shiftIn a d).getD i 0 = UInt8.ofNat (((a.getD i 0).toNat <<< 4) ||| if i + 1 < a.length then (a.getD (i + 1) 0).toNat >>> 4 else d) := fun i hi => by
    unfold shiftIn
    rw [List.getD_eq_getElem?_getD, List.getElem?_map, List.getElem?_range hi]
    rfl
  have hsz : a.length ≤ A.size := by
    have := (Array.getElem?_eq_some_iff.mp (h (a.length - 1) (by omega))).1
    omega
  rw [runs_bind]
  refine (runs_cfor (fun i (l : Mem UInt8) => l.size = A.size ∧ (∀ j < i, l[j]? = some (some ((shiftIn a d).getD j 0))) ∧ ∀ j, i ≤ j → l[j]? = A[j]?) (Nat.zero_le _)
    ⟨rfl, fun j hj => absurd hj (Nat.not_lt_zero j), fun _ _ => rfl⟩ ?_).mono ?_
  · intro i l _ hi hl
    obtain ⟨h1, h2, h3⟩ := hl
    have g : ∀ j, i ≤ j → j < a.length → l[j]? = some (some (a.getD j 0)) := fun j hj hj' => by
      rw [h3 _ hj]
      have := h.has 0 j hj'
      rwa [Nat.zero_add] at this
    rw [runs_bind, runs_rd_of (g i (Nat.le_refl _) (by omega)), runs_bind, runs_rd_of (g (i + 1) (by omega) (by omega))]
    refine (wr_wrote (by omega)).mono fun l' hw => ⟨hw.size.trans h1, fun j hj => ?_, fun j hj => ?_⟩
    · by_cases hji : j = i
      · subst hji
        rw [hget j (by omega), if_pos (by omega)]
        exact hw.holds.has 0 0 (by simp)
      · rw [hw.frame j (by simp; omega)]
        exact h2 j (by omega)
    · rw [hw.frame j (by simp; omega)]
      exact h3 j (by omega)
  · rintro l ⟨h1, h2, h3⟩
    have g : l[a.length - 1]? = some (some (a.getD (a.length - 1) 0)) := by
      rw [h3 _ (Nat.le_refl _)]
      have := h.has 0 (a.length - 1) (by omega)
      rwa [Nat.zero_add] at this
    rw [runs_bind, runs_rd_of g]
    refine (wr_wrote (by omega)).mono fun l' hw => ⟨hw.size.trans h1, fun i hi => ?_, fun j hj => ?_⟩
    · rw [hlen] at hi
      have e : (shiftIn a d)[i]'(by omega) = (shiftIn a d).getD i 0 := by
        rw [List.getD_eq_getElem?_getD, List.getElem?_eq_getElem (by omega)]
        rfl
      rw [Nat.zero_add, e]
      by_cases hi' : i = a.length - 1
      · subst hi'
        rw [hget _ (by omega), if_neg (by omega)]
        have := hw.holds.has 0 0 (by simp)
        simpa [Nat.mod_eq_of_lt (show d < 256 by omega)] using this
      · rw [hw.frame i (by simp; omega)]
        exact h2 i (by omega)
    · rw [hw.frame j (by simp; omega)]
      exact h3 j (by omega)

theorem Wrote_trans {m m' m'' : Mem UInt8} {o : Nat} {l l' : List UInt8} (h : m.Wrote m' o l) (h' : m'.Wrote m'' o l') (hl : l.length = l'.length) : m.Wrote m'' o l' :=
  ⟨h'.size.trans h.size, h'.holds, fun j hj => (h'.frame j hj).trans (h.frame j (by rw [hl]; exact hj))⟩

/-- What the loop reads before the first digit, and after. -/
theorem rhLoop_started {L : Nat} (hL : 0 < L) : ∀ (f : File) (n : Nat) (A : Mem UInt8) (v : Nat), f.length < n → A.Holds 0 (beBytes L v) →
    Runs (rhLoop L n true A f) (fun r => A.Wrote r.1 0 (beBytes L ((f.takeWhile isxdigit).foldl (fun a c => 16 * a + (hexDigitVal c).getD 0) v)) ∧
      r.2 = (f.drop (f.takeWhile isxdigit).length).drop 1)
  | [], n + 1, A, v, _, hA => by
    rw [rhLoop]
    simp only [fgetc]
    rw [runs_bind, runs_leak, runs_pure]
    exact ⟨⟨rfl, hA, fun _ _ => rfl⟩, rfl⟩
  | c :: f, n + 1, A, v, hn, hA => by
    rw [rhLoop]
    simp only [fgetc]
    rw [runs_bind, runs_leak, runs_cif]
    refine ⟨fun h => ?_, fun h => ?_⟩
    · have hx : isxdigit c = false := by simpa using h
      rw [runs_cif]
      refine ⟨fun h => absurd h (by decide), fun _ => ?_⟩
      rw [runs_pure]
      simp only [List.takeWhile_cons, hx, Bool.false_eq_true, if_false]
      exact ⟨⟨rfl, hA, fun _ _ => rfl⟩, rfl⟩
    · have hx : isxdigit c = true := by simpa using h
      obtain ⟨h1, h2⟩ := hexNibble_runs hx
      rw [runs_bind]
      refine h1.mono fun ich hi => ?_
      subst hi
      have hs := shiftA_runs hA (by rw [beBytes_length]; exact hL) h2
      rw [beBytes_length, shiftIn_beBytes _ _ _ h2, runs_bind] at hs
      rw [runs_bind]
      refine hs.mono fun A1 h3 => ?_
      rw [runs_bind] at h3 ⊢
      refine h3.mono fun x h4 => ?_
      rw [runs_bind]
      refine h4.mono fun A2 h5 => ?_
      refine (rhLoop_started hL f n A2 _ (by simpa using hn) h5.holds).mono fun r hr => ?_
      simp only [List.takeWhile_cons, hx, if_true, List.foldl_cons, List.length_cons, List.drop_succ_cons]
      exact ⟨Wrote_trans h5 hr.1 (by simp [beBytes_length]), hr.2⟩

theorem rhLoop_runs {L : Nat} (hL : 0 < L) : ∀ (f : File) (n : Nat) (A : Mem UInt8), f.length < n → A.Holds 0 (beBytes L 0) →
    Runs (rhLoop L n false A f) (fun r => A.Wrote r.1 0 (beBytes L (hexNumber (hexRun f).1)) ∧ r.2 = (hexRun f).2)
  | [], n + 1, A, _, hA => by
    rw [rhLoop]
    simp only [fgetc]
    rw [runs_bind, runs_leak, runs_pure]
    exact ⟨⟨rfl, hA, fun _ _ => rfl⟩, rfl⟩
  | c :: f, n + 1, A, hn, hA => by
    by_cases hx : isxdigit c = true
    · have e : hexRun (c :: f) = ((c :: f).takeWhile isxdigit, ((c :: f).drop ((c :: f).takeWhile isxdigit).length).drop 1) := by
        unfold hexRun
        have hs : (hexDigitVal c).isNone = false := by
          have := isSome_hex c
          rw [hx] at this
          cases h : hexDigitVal c <;> simp_all
        simp only [List.dropWhile_cons, hs, Bool.false_and, Bool.false_eq_true, if_false, isSome_hex]
      have := rhLoop_started hL (c :: f) (n + 1) A 0 hn hA
      rw [e]
      rw [rhLoop] at this ⊢
      simp only [fgetc] at this ⊢
      rw [runs_bind, runs_leak, runs_cif] at this ⊢
      refine ⟨fun h => absurd hx (by simpa using h), fun h => ?_⟩
      exact this.2 h
    · have hx : isxdigit c = false := by simpa using hx
      have hs : (hexDigitVal c).isNone = true := by
        have := isSome_hex c
        rw [hx] at this
        cases h : hexDigitVal c <;> simp_all
      rw [rhLoop]
      simp only [fgetc]
      rw [runs_bind, runs_leak, runs_cif]
      refine ⟨fun _ => ?_, fun h => absurd h (by simp [hx])⟩
      rw [runs_cif]
      refine ⟨fun _ => ?_, fun h => absurd h (by decide)⟩
      rw [runs_cif]
      refine ⟨fun h => ?_, fun h => ?_⟩
      · have : c = 10 := by simpa using h
        subst this
        rw [runs_pure]
        have e : hexRun (10 :: f) = ([], f) := by
          unfold hexRun
          simp [isSome_hex, hx]
        rw [e]
        exact ⟨⟨rfl, hA, fun _ _ => rfl⟩, rfl⟩
      · have h10 : c ≠ 10 := by simpa using h
        have e : hexRun (c :: f) = hexRun f := by
          unfold hexRun
          simp [hs, h10]
        rw [e]
        exact rhLoop_runs hL f n A (by simpa using hn) hA

theorem beBytes_zero : ∀ n, beBytes n 0 = List.replicate n 0
  | 0 => rfl
  | n + 1 => by
    rw [beBytes, Nat.zero_div, beBytes_zero n, List.replicate_succ']
    rfl

theorem memset0_runs {A : Mem UInt8} {L : Nat} (h : L ≤ A.size) : Runs (memset A 0 0x00 L) (fun A' => A.Wrote A' 0 (beBytes L 0)) := by
  unfold memset
  refine (runs_cfor (fun i (l : Mem UInt8) => A.Wrote l 0 (List.replicate i 0)) (Nat.zero_le _) (Mem.Wrote.nil _ _) ?_).mono fun l hl => by rw [beBytes_zero]; exact hl
  intro i l _ hi hl
  refine (wr_wrote (by rw [hl.size]; omega)).mono fun l' hw => ?_
  rw [List.replicate_succ']
  exact hl.append (by simpa using hw)

/-- The result of `ReadHex`. -/
theorem ReadHex_runs {str : Mem UInt8} {m : List UInt8} (hm : str.Holds 0 (m ++ [0])) (h0 : ∀ x ∈ m, x ≠ 0) {A : Mem UInt8} {L : Nat} (hL : 0 < L) (hA : L ≤ A.size) (f : File) :
    Runs (ReadHex f A L str) (fun r => match afterFirst (m.take 49) f with
      | none => r.1 = 0 ∧ A.Wrote r.2.1 0 (beBytes L 0) ∧ r.2.2 = []
      | some g => r.1 = 1 ∧ A.Wrote r.2.1 0 (beBytes L (hexNumber (hexRun g).1)) ∧ r.2.2 = (hexRun g).2) := by
  unfold ReadHex
  rw [runs_cif]
  refine ⟨fun h => absurd h (by simp; omega), fun _ => ?_⟩
  rw [runs_bind]
  refine (memset0_runs hA).mono fun A1 h1 => ?_
  rw [runs_bind]
  refine (FindMarker_runs hm h0 f).mono fun r hr => ?_
  cases ha : afterFirst (m.take 49) f with
  | none =>
    rw [ha] at hr
    subst hr
    dsimp only [fmResult]
    rw [runs_cif]
    exact ⟨fun h => absurd h (by decide), fun _ => ⟨rfl, h1, rfl⟩⟩
  | some g =>
    rw [ha] at hr
    subst hr
    dsimp only [fmResult]
    rw [runs_cif]
    refine ⟨fun _ => ?_, fun h => absurd h (by decide)⟩
    rw [runs_bind]
    refine (rhLoop_runs hL g _ A1 (by omega) h1.holds).mono fun v hv => ?_
    exact ⟨rfl, Wrote_trans h1 hv.1 (by simp [beBytes_length]), hv.2⟩

/-! ## Writing and reading back -/

theorem hex02X_eq : ∀ c : Fin 256, hex02X (UInt8.ofNat c.val) = hexUpper [UInt8.ofNat c.val] ∧ (hexUpper [UInt8.ofNat c.val]).all isxdigit = true ∧
    (hexUpper [UInt8.ofNat c.val]).length = 2 ∧ hexNumber (hexUpper [UInt8.ofNat c.val]) = c.val := by decide +kernel

theorem hex02X_eq' (x : UInt8) : hex02X x = hexUpper [x] := by
  have := (hex02X_eq ⟨x.toNat, x.toNat_lt⟩).1
  simpa using this

theorem hexUpper_append (a b : List UInt8) : hexUpper (a ++ b) = hexUpper a ++ hexUpper b := by simp [hexUpper]

theorem hexUpper_all (l : List UInt8) : ∀ x ∈ hexUpper l, isxdigit x = true := by
  induction l with
  | nil => intro x hx; cases hx
  | cons y l ih =>
    rw [show y :: l = [y] ++ l from rfl, hexUpper_append]
    intro x hx
    rcases List.mem_append.1 hx with h | h
    · have := (hex02X_eq ⟨y.toNat, y.toNat_lt⟩).2.1
      simp only [UInt8.ofNat_toNat] at this
      exact List.all_eq_true.1 this x h
    · exact ih x h

theorem hexNumber_append (a b : List UInt8) : hexNumber (a ++ b) = 16 ^ b.length * hexNumber a + hexNumber b := by
  have h : ∀ (b : List UInt8) (v : Nat), b.foldl (fun a c => 16 * a + (hexDigitVal c).getD 0) v = 16 ^ b.length * v + hexNumber b := by
    intro b
    induction b with
    | nil => intro v; simp [hexNumber]
    | cons c b ih =>
      intro v
      unfold hexNumber
      rw [List.foldl_cons, List.foldl_cons, ih, ih, List.length_cons]
      ring
  unfold hexNumber
  rw [List.foldl_append, h]
  rfl

theorem hexNumber_hexUpper (l : List UInt8) : hexNumber (hexUpper l) = beNat l := by
  induction l using List.reverseRecOn with
  | nil => rfl
  | append_singleton l y ih =>
    have := hex02X_eq ⟨y.toNat, y.toNat_lt⟩
    simp only [UInt8.ofNat_toNat] at this
    rw [hexUpper_append, hexNumber_append, this.2.2.1, this.2.2.2, ih, beNat_append]
    norm_num

theorem takeWhile_append_all {l r : List UInt8} {q : UInt8 → Bool} (h : ∀ x ∈ l, q x = true) (hr : r.takeWhile q = []) : (l ++ r).takeWhile q = l := by
  rw [List.takeWhile_append_of_pos h, hr, List.append_nil]

theorem hexRun_hexUpper (l r : List UInt8) : hexRun (hexUpper l ++ 10 :: r) = (hexUpper l, r) := by
  have h := hexUpper_all l
  have h10 : isxdigit 10 = false := by decide
  have e : (hexUpper l ++ 10 :: r).dropWhile (fun c => (hexDigitVal c).isNone && c ≠ 10) = hexUpper l ++ 10 :: r := by
    cases hl : hexUpper l with
    | nil => simp
    | cons x t =>
      have hx : isxdigit x = true := h x (by rw [hl]; simp)
      rw [← isSome_hex] at hx
      rw [List.cons_append, List.dropWhile_cons_of_neg]
      cases hv : hexDigitVal x <;> simp_all
  unfold hexRun
  simp only [isSome_hex]
  rw [e, takeWhile_append_all h (by simp [h10])]
  simp

theorem fprintBstr_runs {fp : File} {S : String} {A : Mem UInt8} {l : List UInt8} {L : Nat} (h : A.Holds 0 l) (hl : l.length = L) (hL : 0 < L) :
    Runs (fprintBstr fp S A L) (fun r => r = fp ++ hexField S l) := by
  unfold fprintBstr
  rw [runs_bind]
  refine (runs_cfor (fun i (o : File) => o = fp ++ txt S ++ hexUpper (l.take i)) (Nat.zero_le _) (by simp [hexUpper]) ?_).mono fun o ho => ?_
  · intro i o _ hi ho
    have := h.has 0 i (by omega)
    rw [Nat.zero_add] at this
    rw [runs_bind, runs_rd_of this, runs_pure, ho, hex02X_eq', List.append_assoc, ← hexUpper_append, List.take_add_one]
    dsimp only
    rw [List.getD_eq_getElem?_getD, List.getElem?_eq_getElem (by omega)]
    rfl
  · rw [runs_bind, runs_cif]
    refine ⟨fun h => absurd h (by simp; omega), fun _ => ?_⟩
    rw [runs_pure, runs_pure, ho, ← hl, List.take_length]
    simp [hexField, txt, ascii, asciiBytes]

/-! ## Numbers -/

theorem asciiBytes_append (a b : String) : asciiBytes (a ++ b) = asciiBytes a ++ asciiBytes b := by simp [asciiBytes]

theorem fmtInt_nat (n : Nat) : fmtInt n = asciiBytes (toString n) := rfl

theorem digits_nat (n : Nat) : (∀ x ∈ asciiBytes (toString n), isdigit x = true) ∧ asciiBytes (toString n) ≠ [] ∧ decVal (asciiBytes (toString n)) = n := by
  have e : asciiBytes (toString n) = (Nat.toDigits 10 n).map fun c => UInt8.ofNat c.toNat := by
    unfold asciiBytes
    rw [Nat.toString_eq_repr, Nat.toList_repr]
  have hd : ∀ c ∈ Nat.toDigits 10 n, 48 ≤ c.toNat ∧ c.toNat ≤ 57 := fun c hc => by
    have := Nat.isDigit_of_mem_toDigits (by decide) (by decide) hc
    simp only [Char.isDigit, Bool.and_eq_true, decide_eq_true_eq] at this
    exact ⟨this.1, this.2⟩
  rw [e]
  refine ⟨fun x hx => ?_, by simp, ?_⟩
  · obtain ⟨c, hc, rfl⟩ := List.mem_map.1 hx
    have := hd c hc
    simp [isdigit]
    omega
  · unfold decVal
    rw [List.foldl_map]
    refine Eq.trans ?_ (Nat.ofDigitChars_ten_toDigits (n := n))
    rw [Nat.ofDigitChars_eq_foldl]
    have : ∀ (l : List Char) (v : Nat), (∀ c ∈ l, 48 ≤ c.toNat ∧ c.toNat ≤ 57) → l.foldl (fun a c => 10 * a + ((UInt8.ofNat c.toNat).toNat - 48)) v = l.foldl (fun a c => 10 * a + (c.toNat - '0'.toNat)) v := by
      intro l
      induction l with
      | nil => intro v _; rfl
      | cons c l ih =>
        intro v h
        have := h c (by simp)
        rw [List.foldl_cons, List.foldl_cons, ih _ fun d hd => h d (by simp [hd])]
        congr 2
        simp
        omega
    exact this _ _ hd

theorem fscanf_runs {n : Nat} (hn : n ≤ 2147483647) (r : List UInt8) : Runs (fscanf_d (asciiBytes (toString n) ++ 10 :: r)) (fun v => v = (some (n : Int), 10 :: r)) := by
  obtain ⟨h1, h2, h3⟩ := digits_nat n
  revert h1 h2 h3
  generalize asciiBytes (toString n) = l
  intro h1 h2 h3
  obtain ⟨c, t, rfl⟩ : ∃ c t, l = c :: t := by cases l with | nil => exact absurd rfl h2 | cons c t => exact ⟨c, t, rfl⟩
  have hc := h1 c (by simp)
  have hc' : 48 ≤ c.toNat ∧ c.toNat ≤ 57 := by simpa [isdigit] using hc
  have e1 : (c :: t ++ 10 :: r).dropWhile isspace = c :: t ++ 10 :: r := by
    rw [List.cons_append, List.dropWhile_cons_of_neg]
    simp [isspace]
    omega
  unfold fscanf_d
  rw [e1]
  simp only [List.cons_append, if_neg (show ¬ c.toNat = 45 by omega), if_neg (show ¬ c.toNat = 43 by omega)]
  have e2 : (c :: (t ++ 10 :: r)).takeWhile isdigit = c :: t := takeWhile_append_all (l := c :: t) (r := 10 :: r) h1 (by simp [isdigit])
  have e3 : (c :: (t ++ 10 :: r)).dropWhile isdigit = 10 :: r := by
    have := List.takeWhile_append_dropWhile (p := isdigit) (l := c :: (t ++ 10 :: r))
    rw [e2] at this
    exact List.append_cancel_left (as := c :: t) this
  rw [e2, e3, if_neg (by simp), h3, runs_bind]
  simp only [ckInt, Bool.false_eq_true, if_false]
  rw [if_pos (by omega), runs_pure, runs_pure]

/-! ## Records -/

/-- What follows the seed in a record of the request file. -/
def reqTail : List UInt8 := asciiBytes "pk =\nsk =\nct =\nss =\n\n"

theorem asciiBytes_eq (s : String) (l : List Char) (h : s = String.ofList l) : asciiBytes s = l.map fun c => UInt8.ofNat c.toNat := by
  rw [h, asciiBytes, String.toList_ofList]

theorem holds_cstr (s : String) : (cstr s).Holds 0 (asciiBytes s ++ [0]) := Mem.holds_ofList _

theorem after_count {J : List UInt8} (hJ : J = [] ∨ J = reqTail) (r : List UInt8) : afterFirst ((asciiBytes "count = ").take 49) (J ++ (asciiBytes "count = " ++ r)) = some r := by
  rw [show asciiBytes "count = " = [99, 111, 117, 110, 116, 32, 61, 32] by decide]
  rcases hJ with rfl | rfl
  · simp [afterFirst, List.isPrefixOf]
  · rw [show reqTail = [112, 107, 32, 61, 10, 115, 107, 32, 61, 10, 99, 116, 32, 61, 10, 115, 115, 32, 61, 10, 10] by decide]
    simp [afterFirst, List.isPrefixOf]

theorem after_count_none {J : List UInt8} (hJ : J = [] ∨ J = reqTail) : afterFirst ((asciiBytes "count = ").take 49) J = none := by
  rcases hJ with rfl | rfl <;> decide +kernel

theorem after_seed (r : List UInt8) : afterFirst ((asciiBytes "seed = ").take 49) (10 :: (asciiBytes "seed = " ++ r)) = some r := by
  rw [show asciiBytes "seed = " = [115, 101, 101, 100, 32, 61, 32] by decide]
  simp [afterFirst, List.isPrefixOf]

theorem runsO_cif {α β : Type} {b : Bool} {x y : C α} {o : Option β} {Q : β → α → Prop} (h1 : b = true → RunsO x o Q) (h2 : b = false → RunsO y o Q) : RunsO (cif b x y) o Q := by
  unfold cif
  refine Runs.bindO (P := fun _ => True) trivial fun _ _ => ?_
  cases b
  · exact h2 rfl
  · exact h1 rfl

end Verif.Proof
