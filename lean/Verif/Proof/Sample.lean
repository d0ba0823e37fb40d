import Verif.Proof.Shake
import Verif.C.Partial
import Verif.Spec.Fips203

/-! # Rejection sampling -/

namespace Verif.Proof
open Verif.Model Verif.Spec

/-- The 12-bit candidates of a byte string, two from every three bytes. -/
def cands : List UInt8 → List Nat
  | a :: b :: c :: X => (a.toNat + 256 * (b.toNat % 16)) :: (b.toNat / 16 + 16 * c.toNat) :: cands X
  | _ => []

/-- The accepted candidates. -/
def accepted (X : List UInt8) : List Nat := (cands X).filter (· < 3329)

theorem cands_append : ∀ (n : Nat) (X Y : List UInt8), X.length = 3 * n → cands (X ++ Y) = cands X ++ cands Y
  | 0, X, Y, h => by
    have : X = [] := List.length_eq_zero_iff.mp (by omega)
    subst this; simp [cands]
  | n + 1, a :: b :: c :: X, Y, h => by
    have := cands_append n X Y (by simp at h; omega)
    simp [cands, this]
  | n + 1, [], Y, h => by simp at h
  | n + 1, [a], Y, h => by simp at h; omega
  | n + 1, [a, b], Y, h => by simp at h; omega

theorem accepted_append (n : Nat) (X Y : List UInt8) (h : X.length = 3 * n) : accepted (X ++ Y) = accepted X ++ accepted Y := by
  unfold accepted
  rw [cands_append n X Y h, List.filter_append]

theorem cands_short (X : List UInt8) (h : X.length < 3) : cands X = [] := by
  match X, h with
  | [], _ => rfl
  | [_], _ => rfl
  | [_, _], _ => rfl

theorem accepted_short (X : List UInt8) (h : X.length < 3) : accepted X = [] := by unfold accepted; rw [cands_short X h]; rfl

theorem cands_length : ∀ (n : Nat) (X : List UInt8), X.length ≤ n → 3 * (cands X).length ≤ 2 * X.length
  | _, [], _ => by simp [cands]
  | _, [_], _ => by simp [cands]
  | _, [_, _], _ => by simp [cands]
  | 0, a :: b :: c :: X, h => by simp at h
  | n + 1, a :: b :: c :: X, h => by
    have := cands_length n X (by simp at h; omega)
    simp [cands]; omega

theorem accepted_length (X : List UInt8) : 3 * (accepted X).length ≤ 2 * X.length := by
  have h1 := cands_length X.length X (Nat.le_refl _)
  have h2 : (accepted X).length ≤ (cands X).length := List.length_filter_le ..
  omega

theorem accepted_lt {X : List UInt8} {d : Nat} (h : d ∈ accepted X) : d < 3329 := by
  unfold accepted at h
  simpa using (List.mem_filter.mp h).2

/-- One iteration of `SampleNTT`, in terms of candidates. -/
theorem accepted_three (a b c : UInt8) :
    accepted [a, b, c] = (if a.toNat + 256 * (b.toNat % 16) < 3329 then [a.toNat + 256 * (b.toNat % 16)] else []) ++
      (if b.toNat / 16 + 16 * c.toNat < 3329 then [b.toNat / 16 + 16 * c.toNat] else []) := by
  unfold accepted
  simp only [cands, List.filter_cons, List.filter_nil, decide_eq_true_eq]
  split <;> split <;> rfl

theorem sampleStep_eq (l : List Nat) (a b c : UInt8) (hl : l.length < 256) : sampleStep l a b c = (l ++ accepted [a, b, c]).take 256 := by
  rw [accepted_three]
  unfold sampleStep
  dsimp only
  generalize a.toNat + 256 * (b.toNat % 16) = d1
  generalize b.toNat / 16 + 16 * c.toNat = d2
  by_cases h1 : d1 < 3329 <;> by_cases h2 : d2 < 3329
  · simp only [h1, h2, if_true, true_and]
    split
    · rename_i h
      rw [List.append_assoc, List.take_of_length_le (by simp at h ⊢; omega)]
    · rename_i h
      rw [← List.append_assoc, List.take_left' (by simp at h ⊢; omega)]
  · simp only [h1, h2, if_true, if_false, false_and]
    rw [List.append_nil, List.take_of_length_le (by simp; omega)]
  · simp only [h1, h2, if_true, if_false, true_and, hl]
    rw [List.nil_append, List.take_of_length_le (by simp; omega)]
  · simp only [h1, h2, if_false, false_and]
    rw [List.append_nil, List.append_nil, List.take_of_length_le (by omega)]

theorem drop3 {X : List UInt8} {i : Nat} (h : 3 * i + 3 ≤ X.length) :
    X.drop (3 * i) = [X.getD (3 * i) 0, X.getD (3 * i + 1) 0, X.getD (3 * i + 2) 0] ++ X.drop (3 * (i + 1)) := by
  have e : ∀ j (hj : j < X.length), X.drop j = X.getD j 0 :: X.drop (j + 1) := fun j hj => by
    rw [List.drop_eq_getElem_cons hj]; simp [hj]
  rw [e _ (by omega), e _ (by omega), e _ (by omega)]
  rfl

theorem take_take_append (L M R : List Nat) (n : Nat) : ((L ++ M).take n ++ R).take n = (L ++ M ++ R).take n := by
  rw [List.take_append, List.take_append (l₁ := L ++ M), List.take_take, Nat.min_self]
  congr 1
  rw [List.length_take]
  by_cases h : n ≤ (L ++ M).length
  · rw [Nat.min_eq_left h, Nat.sub_self, Nat.sub_eq_zero_of_le h]
  · rw [Nat.min_eq_right (by omega)]

theorem sampleLoop_eq (X : List UInt8) : ∀ (n i : Nat) (l : List Nat), X.length = 3 * (i + n) → l.length ≤ 256 →
    sampleLoop X n i l = if ((l ++ accepted (X.drop (3 * i))).take 256).length = 256 then some ((l ++ accepted (X.drop (3 * i))).take 256) else none
  | 0, i, l, hX, hl => by
    rw [sampleLoop, List.drop_of_length_le (by omega), accepted_short [] (by simp), List.append_nil, List.take_of_length_le hl]
    by_cases h : l.length < 256
    · rw [if_pos h, if_neg (by omega)]
    · rw [if_neg h, if_pos (by omega)]
  | n + 1, i, l, hX, hl => by
    rw [sampleLoop]
    by_cases h : l.length < 256
    · rw [if_pos h, sampleStep_eq _ _ _ _ h]
      rw [sampleLoop_eq X n (i + 1) _ (by omega) (by simp)]
      rw [take_take_append]
      rw [drop3 (i := i) (by omega), accepted_append 1 [_, _, _] _ rfl, List.append_assoc]
    · rw [if_neg h, List.take_left' (by omega), if_pos (by omega)]

/-- The coefficients that SampleNTT takes from the XOF output `X`. -/
def sampled (X : List UInt8) : List Nat := (accepted X).take 256

def rqOf (a : List Nat) : Rq := fun i => ((a.getD i.val 0 : Nat) : Zq)

theorem SampleNTT_eq (N : Nat) (B : List UInt8) :
    SampleNTT N B = if (sampled (SHAKE128 B (3 * N))).length = 256 then some (rqOf (sampled (SHAKE128 B (3 * N)))) else none := by
  unfold SampleNTT
  rw [sampleLoop_eq _ N 0 [] (by rw [SHAKE128_length]; omega) (by simp)]
  rw [Nat.mul_zero, List.drop_zero, List.nil_append]
  unfold sampled
  split <;> rfl

/-! ## `rej_uniform` -/

theorem cand0 (a b : UInt8) : ((a.toNat >>> 0) ||| (b.toNat <<< 8)) &&& 0xFFF = a.toNat + 256 * (b.toNat % 16) := by
  have ha := a.toNat_lt
  have hb := b.toNat_lt
  rw [Nat.shiftRight_zero, show 0xFFF = 2 ^ 12 - 1 from rfl, Nat.and_two_pow_sub_one_eq_mod, Nat.or_comm, ← Nat.shiftLeft_add_eq_or_of_lt (by omega),
    Nat.shiftLeft_eq]
  omega

theorem cand1 (b c : UInt8) : ((b.toNat >>> 4) ||| (c.toNat <<< 4)) &&& 0xFFF = b.toNat / 16 + 16 * c.toNat := by
  have hc := c.toNat_lt
  have hb := b.toNat_lt
  rw [Nat.shiftRight_eq_div_pow, show 0xFFF = 2 ^ 12 - 1 from rfl, Nat.and_two_pow_sub_one_eq_mod, Nat.or_comm,
    ← Nat.shiftLeft_add_eq_or_of_lt (by omega), Nat.shiftLeft_eq]
  omega

theorem cand0_lt (a b : UInt8) : a.toNat + 256 * (b.toNat % 16) < 4096 := by
  have ha := a.toNat_lt
  omega

theorem cand1_lt (b c : UInt8) : b.toNat / 16 + 16 * c.toNat < 4096 := by
  have hc := c.toNat_lt
  have hb := b.toNat_lt
  omega

theorem u16_toNat {n : Nat} (h : n < 4096) : (UInt16.ofNat n).toNat = n := by
  rw [UInt16.toNat_ofNat']; omega

theorem take_append_one {L : List Nat} {d len : Nat} (h : L.length < len) : (L ++ [d]).take len = L ++ [d] :=
  List.take_of_length_le (by simp; omega)

/-- What the loop of `rej_uniform` has done after consuming `X`. -/
def RejR (r : Mem Int16) (ro len : Nat) (X : List UInt8) (r' : Mem Int16) (ctr : Nat) : Prop :=
  r.Wrote r' ro (((accepted X).take len).map fun d : Nat => i16 (d : Int)) ∧ ctr = ((accepted X).take len).length

/-- Acceptance of one candidate: the written list is extended. -/
theorem accept_runs {r r' : Mem Int16} {ro len d : Nat} {L : List Nat} (hr : ro + len ≤ r.size) (hw : r.Wrote r' ro ((L.take len).map fun d : Nat => i16 (d : Int)))
    (c : Bool) (hc : c = true ↔ (L.take len).length < len ∧ d < 3329) :
    Runs (cif c (do let r ← wr r' (ro + (L.take len).length) (i16 (d : Int)); pure (r, (L.take len).length + 1)) (pure (r', (L.take len).length)))
      (fun s => r.Wrote s.1 ro (((L ++ if d < 3329 then [d] else []).take len).map fun d : Nat => i16 (d : Int)) ∧
        s.2 = ((L ++ if d < 3329 then [d] else []).take len).length) := by
  rw [runs_cif]
  by_cases h : (L.take len).length < len ∧ d < 3329
  · rw [hc.2 h, if_pos h.2]
    refine ⟨fun _ => ?_, fun h => absurd h (by simp)⟩
    rw [runs_bind]
    have hlt : L.length < len := by have := h.1; rw [List.length_take] at this; omega
    have e : L.take len = L := List.take_of_length_le (by omega)
    rw [take_append_one hlt]
    rw [e] at hw ⊢
    refine (runs_wr_upd (by rw [hw.size]; omega)).mono fun m hm => ?_
    refine ⟨?_, by simp⟩
    show r.Wrote m ro _
    rw [List.map_append]
    refine hw.append ?_
    rw [List.length_map]
    exact (hm.wrote_of rfl fun i hi => by simp)
  · have : c = false := by
      cases c
      · rfl
      · exact absurd (hc.1 rfl) h
    rw [this]
    refine ⟨fun h => absurd h (by simp), fun _ => ?_⟩
    rw [runs_pure]
    by_cases hd : d < 3329
    · rw [if_pos hd]
      have : len ≤ L.length := by
        have : ¬ (L.take len).length < len := fun h' => h ⟨h', hd⟩
        rw [List.length_take] at this; omega
      rw [List.take_append_of_le_length this]
      exact ⟨hw, rfl⟩
    · rw [if_neg hd, List.append_nil]
      exact ⟨hw, rfl⟩

theorem rej_uniform_runs {r : Mem Int16} {ro len : Nat} {buf : Mem UInt8} {buflen : Nat} {X : List UInt8} (hX : buf.Holds 0 X) (hl : X.length = buflen)
    (hr : ro + len ≤ r.size) : Runs (rej_uniform r ro len buf buflen) (fun s => RejR r ro len X s.1 s.2) := by
  unfold rej_uniform
  rw [runs_bind]
  refine (runs_cwhile_measure (fun (s : Poly × Nat × Nat) => ∃ t, s.2.2 = 3 * t ∧ 3 * t ≤ X.length ∧ RejR r ro len (X.take (3 * t)) s.1 s.2.1)
    (fun s => buflen - s.2.2) ?_ ?_ ?_).mono fun s hs => ?_
  · dsimp only; omega
  · exact ⟨0, rfl, by omega, by
      constructor
      · rw [Nat.mul_zero, List.take_zero, accepted_short [] (by simp), List.take_nil]
        exact Mem.Wrote.nil r ro
      · rw [Nat.mul_zero, List.take_zero, accepted_short [] (by simp), List.take_nil]; rfl⟩
  · rintro ⟨r', ctr, pos⟩ ⟨t, ht, htl, hw, hctr⟩ hc
    dsimp only at ht hw hctr hc ⊢
    simp only [Bool.and_eq_true, decide_eq_true_eq] at hc
    obtain ⟨hc1, hc2⟩ := hc
    subst ht
    have g0 : buf[3 * t + 0]? = some (some (X.getD (3 * t) 0)) := by have := hX.getElem? 0 (i := 3 * t) (by omega); rwa [Nat.zero_add] at this
    have g1 : buf[3 * t + 1]? = some (some (X.getD (3 * t + 1) 0)) := by have := hX.getElem? 0 (i := 3 * t + 1) (by omega); rwa [Nat.zero_add] at this
    have g2 : buf[3 * t + 2]? = some (some (X.getD (3 * t + 2) 0)) := by have := hX.getElem? 0 (i := 3 * t + 2) (by omega); rwa [Nat.zero_add] at this
    have hacc : accepted (X.take (3 * (t + 1))) = accepted (X.take (3 * t)) ++ accepted [X.getD (3 * t) 0, X.getD (3 * t + 1) 0, X.getD (3 * t + 2) 0] := by
      rw [← accepted_append t _ _ (by rw [List.length_take]; omega)]
      congr 1
      conv_lhs => rw [show 3 * (t + 1) = 3 * t + 3 from rfl, List.take_add]
      rw [drop3 (by omega)]
      rfl
    rw [accepted_three, ← List.append_assoc] at hacc
    rw [runs_bind, runs_rd_of g0, runs_bind, runs_rd_of g1, runs_bind, runs_rd_of g1, runs_bind, runs_rd_of g2, runs_bind]
    rw [cand0, cand1, u16_toNat (cand0_lt ..), u16_toNat (cand1_lt ..)]
    generalize X.getD (3 * t) 0 = a at *
    generalize X.getD (3 * t + 1) 0 = b at *
    generalize X.getD (3 * t + 2) 0 = c at *
    generalize a.toNat + 256 * (b.toNat % 16) = d0 at *
    generalize b.toNat / 16 + 16 * c.toNat = d1 at *
    subst hctr
    refine (accept_runs hr hw _ (by
      rw [decide_eq_true_eq]; exact ⟨fun h => ⟨hc1, h⟩, fun h => h.2⟩)).mono fun s hs => ?_
    obtain ⟨r1, ctr1⟩ := s
    obtain ⟨hw1, hc1'⟩ := hs
    dsimp only at hw1 hc1' ⊢
    subst hc1'
    rw [runs_bind]
    refine (accept_runs hr hw1 _ (by
      rw [Bool.and_eq_true, decide_eq_true_eq, decide_eq_true_eq]; rfl)).mono fun s hs => ?_
    rw [← hacc] at hs
    refine ⟨⟨t + 1, rfl, by omega, hs⟩, ?_⟩
    dsimp only; omega
  · obtain ⟨hs, hn⟩ := hs
    obtain ⟨r', ctr, pos⟩ := s
    obtain ⟨t, ht, htl, hw, hctr⟩ := hs
    dsimp only at ht hw hctr hn ⊢
    subst ht
    have hacc : accepted X = accepted (X.take (3 * t)) ++ accepted (X.drop (3 * t)) := by
      rw [← accepted_append t _ _ (by rw [List.length_take]; omega), List.take_append_drop]
    have : (accepted X).take len = (accepted (X.take (3 * t))).take len := by
      rw [hacc]
      by_cases h : len ≤ (accepted (X.take (3 * t))).length
      · exact List.take_append_of_le_length h
      · have hlen : ctr < len := by rw [hctr, List.length_take]; omega
        have : ¬ 3 * t + 3 ≤ buflen := by
          intro hh
          simp [hlen, hh] at hn
        rw [accepted_short (X.drop (3 * t)) (by rw [List.length_drop]; omega), List.append_nil]
    show RejR _ _ _ _ _ _
    unfold RejR
    rw [this]
    exact ⟨hw, hctr⟩

end Verif.Proof
