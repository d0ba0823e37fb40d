import Verif.Proof.Coef
import Mathlib.Algebra.BigOperators.Intervals
import Mathlib.Data.Nat.Prime.Basic
import Mathlib.Tactic.NormNum.Prime
import Mathlib.Algebra.Field.ZMod
import Mathlib.Tactic.Positivity
import Mathlib.Algebra.BigOperators.Ring.Finset

/-! # The number-theoretic transform, layer by layer -/

namespace Verif.Proof
open Verif.Model Verif.Spec Finset

/-- Block `b`, offset `x` after `l` layers, blocks having length `L = 2^(8-l)`: coefficient `x` of `f` modulo `X^L - cnode(2^l+b)`. -/
def lev (f : Nat → Zq) (l L b x : Nat) : Zq := ∑ m ∈ range (2 ^ l), f (x + L * m) * cnode (2 ^ l + b) ^ m

theorem sum_range_double (n : Nat) (g : Nat → Zq) :
    ∑ m ∈ range (2 * n), g m = ∑ m ∈ range n, g (2 * m) + ∑ m ∈ range n, g (2 * m + 1) := by
  induction n with
  | zero => simp
  | succ n ih =>
    rw [show 2 * (n + 1) = 2 * n + 1 + 1 from by ring, sum_range_succ, sum_range_succ, ih, sum_range_succ, sum_range_succ]
    ring

theorem lev_even (f : Nat → Zq) (l L b x : Nat) (hl : l < 7) (hb : b < 2 ^ l) :
    lev f (l + 1) L (2 * b) x = lev f l (2 * L) b x + Z (2 ^ l + b) * lev f l (2 * L) b (x + L) := by
  have hn : 2 ^ l + b < 128 := by
    have : 2 ^ l ≤ 2 ^ 6 := Nat.pow_le_pow_right (by omega) (by omega)
    omega
  have h1 : 1 ≤ 2 ^ l + b := by
    have : 0 < 2 ^ l := by positivity
    omega
  unfold lev
  rw [show 2 ^ (l + 1) + 2 * b = 2 * (2 ^ l + b) from by ring, cnode_even _ h1, show 2 ^ (l + 1) = 2 * 2 ^ l from by ring,
    sum_range_double, ← Z_sq _ h1 hn, mul_sum]
  congr 1
  · refine sum_congr rfl fun m _ => ?_
    rw [← pow_mul, show L * (2 * m) = 2 * L * m from by ring]
  · refine sum_congr rfl fun m _ => ?_
    rw [← pow_mul, show x + L * (2 * m + 1) = x + L + 2 * L * m from by ring]
    ring

theorem lev_odd (f : Nat → Zq) (l L b x : Nat) (hl : l < 7) (hb : b < 2 ^ l) :
    lev f (l + 1) L (2 * b + 1) x = lev f l (2 * L) b x - Z (2 ^ l + b) * lev f l (2 * L) b (x + L) := by
  have hn : 2 ^ l + b < 128 := by
    have : 2 ^ l ≤ 2 ^ 6 := Nat.pow_le_pow_right (by omega) (by omega)
    omega
  have h1 : 1 ≤ 2 ^ l + b := by
    have : 0 < 2 ^ l := by positivity
    omega
  unfold lev
  rw [show 2 ^ (l + 1) + (2 * b + 1) = 2 * (2 ^ l + b) + 1 from by ring, cnode_odd _ h1, show 2 ^ (l + 1) = 2 * 2 ^ l from by ring,
    sum_range_double, ← Z_sq _ h1 hn, mul_sum, sub_eq_add_neg, ← sum_neg_distrib]
  congr 1
  · refine sum_congr rfl fun m _ => ?_
    rw [← pow_mul, show L * (2 * m) = 2 * L * m from by ring, Even.neg_pow ⟨m, by ring⟩]
  · refine sum_congr rfl fun m _ => ?_
    rw [← pow_mul, show x + L * (2 * m + 1) = x + L + 2 * L * m from by ring, Odd.neg_pow ⟨m, by ring⟩]
    ring

/-- The same by position in the array. -/
def levI (f : Nat → Zq) (l i : Nat) : Zq := lev f l (2 ^ (8 - l)) (i / 2 ^ (8 - l)) (i % 2 ^ (8 - l))

theorem levI_zero (f : Nat → Zq) (i : Nat) (hi : i < 256) : levI f 0 i = f i := by
  unfold levI lev
  simp [Nat.mod_eq_of_lt hi]

/-- The butterfly equations by position: `L` is the half block length. -/
theorem levI_lo (f : Nat → Zq) (l b x : Nat) (hl : l < 7) (hb : b < 2 ^ l) (hx : x < 2 ^ (7 - l)) :
    levI f (l + 1) (b * (2 * 2 ^ (7 - l)) + x) =
      levI f l (b * (2 * 2 ^ (7 - l)) + x) + Z (2 ^ l + b) * levI f l (b * (2 * 2 ^ (7 - l)) + x + 2 ^ (7 - l)) := by
  unfold levI
  rw [show 8 - l = (7 - l) + 1 from by omega, show 8 - (l + 1) = 7 - l from by omega, Nat.pow_succ]
  generalize 2 ^ (7 - l) = L at *
  have e1 : (b * (2 * L) + x) / L = 2 * b := by
    rw [show b * (2 * L) + x = x + L * (2 * b) from by ring, Nat.add_mul_div_left _ _ (by omega), Nat.div_eq_of_lt hx]; omega
  have e2 : (b * (2 * L) + x) % L = x := by
    rw [show b * (2 * L) + x = x + L * (2 * b) from by ring, Nat.add_mul_mod_self_left, Nat.mod_eq_of_lt hx]
  have e3 : (b * (2 * L) + x) / (L * 2) = b := by
    rw [show b * (2 * L) + x = x + (L * 2) * b from by ring, Nat.add_mul_div_left _ _ (by omega), Nat.div_eq_of_lt (by omega)]; omega
  have e4 : (b * (2 * L) + x) % (L * 2) = x := by
    rw [show b * (2 * L) + x = x + (L * 2) * b from by ring, Nat.add_mul_mod_self_left, Nat.mod_eq_of_lt (by omega)]
  have e5 : (b * (2 * L) + x + L) / (L * 2) = b := by
    rw [show b * (2 * L) + x + L = (x + L) + (L * 2) * b from by ring, Nat.add_mul_div_left _ _ (by omega),
      Nat.div_eq_of_lt (by omega)]; omega
  have e6 : (b * (2 * L) + x + L) % (L * 2) = x + L := by
    rw [show b * (2 * L) + x + L = (x + L) + (L * 2) * b from by ring, Nat.add_mul_mod_self_left, Nat.mod_eq_of_lt (by omega)]
  rw [e1, e2, e3, e4, e5, e6, lev_even f l L b x hl hb, Nat.mul_comm L 2]

theorem levI_hi (f : Nat → Zq) (l b x : Nat) (hl : l < 7) (hb : b < 2 ^ l) (hx : x < 2 ^ (7 - l)) :
    levI f (l + 1) (b * (2 * 2 ^ (7 - l)) + x + 2 ^ (7 - l)) =
      levI f l (b * (2 * 2 ^ (7 - l)) + x) - Z (2 ^ l + b) * levI f l (b * (2 * 2 ^ (7 - l)) + x + 2 ^ (7 - l)) := by
  unfold levI
  rw [show 8 - l = (7 - l) + 1 from by omega, show 8 - (l + 1) = 7 - l from by omega, Nat.pow_succ]
  generalize 2 ^ (7 - l) = L at *
  have e1 : (b * (2 * L) + x + L) / L = 2 * b + 1 := by
    rw [show b * (2 * L) + x + L = x + L * (2 * b + 1) from by ring, Nat.add_mul_div_left _ _ (by omega), Nat.div_eq_of_lt hx]; omega
  have e2 : (b * (2 * L) + x + L) % L = x := by
    rw [show b * (2 * L) + x + L = x + L * (2 * b + 1) from by ring, Nat.add_mul_mod_self_left, Nat.mod_eq_of_lt hx]
  have e3 : (b * (2 * L) + x) / (L * 2) = b := by
    rw [show b * (2 * L) + x = x + (L * 2) * b from by ring, Nat.add_mul_div_left _ _ (by omega), Nat.div_eq_of_lt (by omega)]; omega
  have e4 : (b * (2 * L) + x) % (L * 2) = x := by
    rw [show b * (2 * L) + x = x + (L * 2) * b from by ring, Nat.add_mul_mod_self_left, Nat.mod_eq_of_lt (by omega)]
  have e5 : (b * (2 * L) + x + L) / (L * 2) = b := by
    rw [show b * (2 * L) + x + L = (x + L) + (L * 2) * b from by ring, Nat.add_mul_div_left _ _ (by omega),
      Nat.div_eq_of_lt (by omega)]; omega
  have e6 : (b * (2 * L) + x + L) % (L * 2) = x + L := by
    rw [show b * (2 * L) + x + L = (x + L) + (L * 2) * b from by ring, Nat.add_mul_mod_self_left, Nat.mod_eq_of_lt (by omega)]
  rw [e1, e2, e3, e4, e5, e6, lev_odd f l L b x hl hb, Nat.mul_comm L 2]

/-- State of the array inside a layer: in the block starting at `start` with half length `L`, `x` butterflies are done; the
blocks before are done. `new`/`old` are values and bounds after/before the layer. -/
def Part (r : Mem Int16) (new old : Nat → Zq) (Bn Bo : Int) (start L x : Nat) : Prop :=
  r.size = 256 ∧ ∀ i, i < 256 →
    if i < start + x ∨ (start + L ≤ i ∧ i < start + L + x) then Coef r i (new i) Bn else Coef r i (old i) Bo

theorem Part.old {r : Mem Int16} {new old : Nat → Zq} {Bn Bo : Int} {start L x : Nat} (h : Part r new old Bn Bo start L x)
    {i : Nat} (hi : i < 256) (hn : ¬(i < start + x ∨ (start + L ≤ i ∧ i < start + L + x))) : Coef r i (old i) Bo := by
  have := h.2 i hi; rwa [if_neg hn] at this

/-- One butterfly done: cells `start + x` and `start + x + L` now hold new values, all others are as before. -/
theorem Part.step {r r' : Mem Int16} {new old : Nat → Zq} {Bn Bo : Int} {start L x : Nat}
    (h : Part r new old Bn Bo start L x) (hx : x < L) (hs : r'.size = 256)
    (h1 : Coef r' (start + x) (new (start + x)) Bn) (h2 : Coef r' (start + x + L) (new (start + x + L)) Bn)
    (hf : ∀ i, i ≠ start + x → i ≠ start + x + L → r'[i]? = r[i]?) : Part r' new old Bn Bo start L (x + 1) := by
  refine ⟨hs, fun i hi => ?_⟩
  by_cases ha : i = start + x
  · subst ha; rw [if_pos (by omega)]; exact h1
  by_cases hb : i = start + x + L
  · subst hb; rw [if_pos (by omega)]; exact h2
  have h3 := h.2 i hi
  by_cases hc : i < start + x ∨ (start + L ≤ i ∧ i < start + L + x)
  · rw [if_pos hc] at h3; rw [if_pos (by omega)]; exact h3.frame (hf i ha hb)
  · rw [if_neg hc] at h3; rw [if_neg (by omega)]; exact h3.frame (hf i ha hb)

theorem Part.next {r : Mem Int16} {new old : Nat → Zq} {Bn Bo : Int} {start L : Nat}
    (h : Part r new old Bn Bo start L L) : Part r new old Bn Bo (start + 2 * L) L 0 := by
  refine ⟨h.1, fun i hi => ?_⟩
  have h3 := h.2 i hi
  by_cases hc : i < start + L ∨ (start + L ≤ i ∧ i < start + L + L)
  · rw [if_pos hc] at h3; rw [if_pos (by omega)]; exact h3
  · rw [if_neg hc] at h3; rw [if_neg (by omega)]; exact h3

theorem Part.first {r : Mem Int16} {new old : Nat → Zq} {Bn Bo : Int} {L : Nat}
    (h : PolyIs r old Bo) : Part r new old Bn Bo 0 L 0 :=
  ⟨h.size, fun i hi => by rw [if_neg (by omega)]; exact h.coef i hi⟩

theorem Part.last {r : Mem Int16} {new old : Nat → Zq} {Bn Bo : Int} {start L : Nat}
    (h : Part r new old Bn Bo start L 0) (hs : 256 ≤ start) : PolyIs r new Bn :=
  ⟨h.1, fun i hi => by have := h.2 i hi; rwa [if_pos (by omega)] at this⟩

theorem fqmul_comm (a b : Int16) : fqmul a b = fqmul b a := by unfold fqmul imul; rw [Int.mul_comm]

/-- Forward NTT on residues, with the growth of the coefficients: each of the seven layers adds at most 2497. -/
theorem ntt_runs {r : Mem Int16} {f : Nat → Zq} {B : Int} (h : PolyIs r f B) (hB : B ≤ 15288) :
    Runs (ntt r) (fun r' => PolyIs r' (levI f 7) (B + 17479)) := by
  unfold ntt
  simp only [runs_bind, runs_pure]
  refine Runs.mono (runs_cwhile (fun l (s : Mem Int16 × Nat × Nat) => PolyIs s.1 (levI f l) (B + 2497 * l) ∧ s.2.1 = 2 ^ l ∧
    s.2.2 = 2 ^ (7 - l)) 7 (by omega) ?_ ?_ ?_) ?_
  · exact ⟨(h.mono (by omega)).congr fun i hi => (levI_zero f i hi).symm, rfl, rfl⟩
  · rintro l ⟨r, k, len⟩ hl ⟨hp, hk, hlen⟩
    simp only at hp hk hlen
    subst hk hlen
    have hlen2 : 2 ≤ 2 ^ (7 - l) := by
      have : 2 ^ 1 ≤ 2 ^ (7 - l) := Nat.pow_le_pow_right (by omega) (by omega)
      omega
    have htot : 2 ^ l * (2 * 2 ^ (7 - l)) = 256 := by
      rw [← Nat.pow_succ', ← Nat.pow_add, show l + (7 - l).succ = 8 from by omega]
    refine ⟨by simpa using hlen2, ?_⟩
    rw [runs_bind]
    refine Runs.mono (runs_cwhile (fun b (s : Mem Int16 × Nat × Nat) =>
      Part s.1 (levI f (l + 1)) (levI f l) (B + 2497 * (l + 1)) (B + 2497 * l) (b * (2 * 2 ^ (7 - l))) (2 ^ (7 - l)) 0 ∧
      s.2.1 = 2 ^ l + b ∧ s.2.2 = b * (2 * 2 ^ (7 - l))) (2 ^ l) ?_ ?_ ?_ ?_) ?_
    · have : 2 ^ l ≤ 2 ^ 6 := Nat.pow_le_pow_right (by omega) (by omega)
      omega
    · simp only [Nat.zero_mul]
      exact ⟨Part.first hp, rfl, trivial⟩
    · rintro b ⟨r, k, start⟩ hb ⟨hp, hk, hst⟩
      simp only at hp hk hst
      subst hk hst
      have hstart : b * (2 * 2 ^ (7 - l)) + 2 * 2 ^ (7 - l) ≤ 256 := by
        calc _ = (b + 1) * (2 * 2 ^ (7 - l)) := by ring
          _ ≤ 2 ^ l * (2 * 2 ^ (7 - l)) := Nat.mul_le_mul_right _ hb
          _ = 256 := htot
      have hn : 2 ^ l + b < 128 := by
        have : 2 ^ l ≤ 2 ^ 6 := Nat.pow_le_pow_right (by omega) (by omega)
        omega
      refine ⟨by simp; omega, ?_⟩
      simp only [runs_bind]
      refine runs_zeta hn fun z hz hz1 hz2 => ?_
      have hlo := levI_lo f l b
      have hhi := levI_hi f l b
      generalize hS : b * (2 * 2 ^ (7 - l)) = S at *
      generalize hL : 2 ^ (7 - l) = L at *
      refine Runs.mono (runs_cfor (fun j r => Part r (levI f (l + 1)) (levI f l) (B + 2497 * (l + 1)) (B + 2497 * l) S L (j - S))
        (by omega) ?_ ?_) ?_
      · rw [Nat.sub_self]; exact hp
      · intro j r hj1 hj2 hpart
        obtain ⟨x, rfl⟩ : ∃ x, j = S + x := ⟨j - S, by omega⟩
        have hx : x < L := by omega
        rw [show S + x - S = x from by omega] at hpart
        rw [show S + x + 1 - S = x + 1 from by omega]
        have ho1 := hpart.old (i := S + x) (by omega) (by omega)
        have ho2 := hpart.old (i := S + x + L) (by omega) (by omega)
        simp only [runs_bind]
        refine ho2.runs_rd fun v hv hv1 hv2 => ?_
        refine (fqmul_runs_small z v hz1 hz2).mono fun t ⟨ht, ht1, ht2⟩ => ?_
        have hts : zq t = Z (2 ^ l + b) * levI f l (S + x + L) := by
          rw [ht, hz, hv]; linear_combination (Z (2 ^ l + b) * levI f l (S + x + L)) * zq_inv_R
        obtain ⟨y, hy0, hy, hy1, hy2⟩ := ho1
        have hsz := hpart.1
        rw [runs_rd_of hy0, runs_isub]
        refine ⟨by omega, ?_⟩
        rw [runs_i16c]
        refine ⟨by omega, ?_⟩
        rw [runs_wr]
        refine ⟨by omega, ?_⟩
        rw [runs_rd_of (v := y) (by rw [Array.getElem?_setIfInBounds_ne (by omega)]; exact hy0), runs_iadd]
        refine ⟨by omega, ?_⟩
        rw [runs_i16c]
        refine ⟨by omega, ?_⟩
        rw [runs_wr]
        refine ⟨by simp; omega, ?_⟩
        have hxx := hlo x hl hb (by omega)
        have hxy := hhi x hl hb (by omega)
        refine hpart.step hx (by simp [hsz]) ?_ ?_ ?_
        · refine Coef.set_self _ (by simp; omega) ?_ ?_ ?_
          · rw [zq_i16 (by omega) (by omega), hxx, ← hts, ← hy]; push_cast; rfl
          · rw [toInt_i16_of (by omega) (by omega)]; omega
          · rw [toInt_i16_of (by omega) (by omega)]; omega
        · refine Coef.set_ne ?_ (by omega)
          refine Coef.set_self _ (by omega) ?_ ?_ ?_
          · rw [zq_i16 (by omega) (by omega), hxy, ← hts, ← hy]; push_cast; rfl
          · rw [toInt_i16_of (by omega) (by omega)]; omega
          · rw [toInt_i16_of (by omega) (by omega)]; omega
        · intro i h1 h2
          rw [Array.getElem?_setIfInBounds_ne (by omega), Array.getElem?_setIfInBounds_ne (by omega)]
      · intro r' hr'
        rw [runs_pure]
        rw [show S + L - S = L from by omega] at hr'
        have := hr'.next
        refine ⟨?_, by simp; omega, ?_⟩
        · rw [show (b + 1) * (2 * L) = S + 2 * L from by rw [← hS]; ring]
          exact this
        · show S + L + L = _
          rw [← hS]; ring
    · rintro ⟨r, k, start⟩ ⟨hp, hk, hst⟩
      simp only at hp hk hst ⊢
      rw [hst, htot]; simp
    · rintro ⟨r, k, start⟩ ⟨hp, hk, hst⟩
      simp only at hp hk hst
      rw [runs_pure]
      refine ⟨?_, ?_, ?_⟩
      · have := hp.last (by omega)
        exact this.mono (by push_cast; omega)
      · simp only; rw [hk, Nat.pow_succ]; omega
      · simp only
        rw [Nat.shiftRight_eq_div_pow, show 7 - l = (7 - (l + 1)) + 1 from by omega, Nat.pow_succ]; omega
  · rintro ⟨r, k, len⟩ ⟨hp, hk, hlen⟩
    simp only at hlen ⊢
    rw [hlen]; rfl
  · rintro ⟨r, k, len⟩ ⟨hp, hk, hlen⟩
    exact hp.mono (by norm_num)

theorem Z_mirror' (l b : Nat) (hl : l < 7) (hb : b < 2 ^ l) : Z (2 ^ (l + 1) - 1 - b) * Z (2 ^ l + b) = -1 := by
  rw [mul_comm]; exact Z_mirror l b hl hb

/-- Inverse NTT on residues: the layers are undone one by one, each doubling the values; the final factor is 2^32/128, and
Montgomery multiplication divides by 2^16. -/
theorem invntt_runs {r : Mem Int16} {f : Nat → Zq} {B : Int} (h : PolyIs r (levI f 7) B) (hB : B ≤ 16383) :
    Runs (invntt r) (fun r' => PolyIs r' (fun i => 65536 * f i) 2497) := by
  unfold invntt
  simp only [runs_bind]
  refine Runs.mono (runs_cwhile (fun l (s : Mem Int16 × Nat × Nat) => PolyIs s.1 (fun i => 2 ^ l * levI f (7 - l) i) 16383 ∧
    s.2.1 = 2 ^ (7 - l) - 1 ∧ s.2.2 = 2 ^ (l + 1)) 7 (by omega) ?_ ?_ ?_) ?_
  · exact ⟨(h.mono (by omega)).congr fun i hi => by simp, rfl, rfl⟩
  · rintro l' ⟨r, k, len⟩ hl' ⟨hp, hk, hlen⟩
    simp only at hp hk hlen
    obtain ⟨l, hl, rfl⟩ : ∃ l, l < 7 ∧ l' = 6 - l := ⟨6 - l', by omega, by omega⟩
    rw [show 7 - (6 - l) = l + 1 from by omega] at hp hk
    rw [show 6 - l + 1 = 7 - l from by omega] at hlen
    rw [show 7 - (6 - l + 1) = l from by omega]
    subst hk hlen
    have hlen1 : 0 < 2 ^ (7 - l) := by positivity
    have hlen2 : 2 ^ (7 - l) ≤ 128 := by
      have : 2 ^ (7 - l) ≤ 2 ^ 7 := Nat.pow_le_pow_right (by omega) (by omega)
      omega
    have htot : 2 ^ l * (2 * 2 ^ (7 - l)) = 256 := by
      rw [← Nat.pow_succ', ← Nat.pow_add, show l + (7 - l).succ = 8 from by omega]
    refine ⟨by simpa using hlen2, ?_⟩
    rw [runs_bind]
    refine Runs.mono (runs_cwhile (fun b (s : Mem Int16 × Nat × Nat) =>
      Part s.1 (fun i => 2 ^ (6 - l + 1) * levI f l i) (fun i => 2 ^ (6 - l) * levI f (l + 1) i) 2497 16383
        (b * (2 * 2 ^ (7 - l))) (2 ^ (7 - l)) 0 ∧
      s.2.1 = 2 ^ (l + 1) - 1 - b ∧ s.2.2 = b * (2 * 2 ^ (7 - l))) (2 ^ l) ?_ ?_ ?_ ?_) ?_
    · have : 2 ^ l ≤ 2 ^ 6 := Nat.pow_le_pow_right (by omega) (by omega)
      omega
    · simp only [Nat.zero_mul]
      exact ⟨Part.first hp, rfl, trivial⟩
    · rintro b ⟨r, k, start⟩ hb ⟨hp, hk, hst⟩
      simp only at hp hk hst
      subst hk hst
      have hstart : b * (2 * 2 ^ (7 - l)) + 2 * 2 ^ (7 - l) ≤ 256 := by
        calc _ = (b + 1) * (2 * 2 ^ (7 - l)) := by ring
          _ ≤ 2 ^ l * (2 * 2 ^ (7 - l)) := Nat.mul_le_mul_right _ hb
          _ = 256 := htot
      have hn : 2 ^ (l + 1) - 1 - b < 128 := by
        have : 2 ^ (l + 1) ≤ 2 ^ 7 := Nat.pow_le_pow_right (by omega) (by omega)
        omega
      refine ⟨by simp; omega, ?_⟩
      simp only [runs_bind]
      refine runs_zeta hn fun z hz hz1 hz2 => ?_
      have hlo := levI_lo f l b
      have hhi := levI_hi f l b
      have hmir := Z_mirror' l b hl hb
      generalize hS : b * (2 * 2 ^ (7 - l)) = S at *
      generalize hL : 2 ^ (7 - l) = L at *
      refine Runs.mono (runs_cfor (fun j r => Part r (fun i => 2 ^ (6 - l + 1) * levI f l i)
        (fun i => 2 ^ (6 - l) * levI f (l + 1) i) 2497 16383 S L (j - S)) (by omega) ?_ ?_) ?_
      · rw [Nat.sub_self]; exact hp
      · intro j r hj1 hj2 hpart
        obtain ⟨x, rfl⟩ : ∃ x, j = S + x := ⟨j - S, by omega⟩
        have hx : x < L := by omega
        rw [show S + x - S = x from by omega] at hpart
        rw [show S + x + 1 - S = x + 1 from by omega]
        have ho1 := hpart.old (i := S + x) (by omega) (by omega)
        have ho2 := hpart.old (i := S + x + L) (by omega) (by omega)
        simp only [runs_bind]
        have hsz := hpart.1
        obtain ⟨t, ht0, ht, ht1, ht2⟩ := ho1
        obtain ⟨v, hv0, hv, hv1, hv2⟩ := ho2
        rw [runs_rd_of ht0, runs_rd_of hv0, runs_iadd]
        refine ⟨by omega, ?_⟩
        rw [runs_i16c]
        refine ⟨by omega, ?_⟩
        refine (barrett_runs _).mono fun y ⟨hy, hy1, hy2⟩ => ?_
        rw [runs_wr]
        refine ⟨by omega, ?_⟩
        rw [runs_rd_of (v := v) (by rw [Array.getElem?_setIfInBounds_ne (by omega)]; exact hv0), runs_isub]
        refine ⟨by omega, ?_⟩
        rw [runs_i16c]
        refine ⟨by omega, ?_⟩
        rw [runs_wr]
        refine ⟨by simp; omega, ?_⟩
        rw [runs_rd_of (v := i16 (v.toInt - t.toInt)) (by rw [Mem.get?_set (by simp; omega), if_pos rfl])]
        refine (fqmul_runs_small _ _ hz1 hz2).mono fun w ⟨hw, hw1, hw2⟩ => ?_
        rw [runs_wr]
        refine ⟨by simp; omega, ?_⟩
        have hxx := hlo x hl hb (by omega)
        have hxy := hhi x hl hb (by omega)
        refine hpart.step hx (by simp [hsz]) ?_ ?_ ?_
        · refine Coef.set_ne (Coef.set_ne (Coef.set_self _ (by omega) ?_ (by omega) (by omega)) (by omega)) (by omega)
          rw [hy, zq_i16 (by omega) (by omega)]; push_cast
          rw [show ((t.toInt : Int) : Zq) = zq t from rfl, show ((v.toInt : Int) : Zq) = zq v from rfl, ht, hv, hxx, hxy]
          ring
        · refine Coef.set_self _ (by simp; omega) ?_ (by omega) (by omega)
          rw [hw, hz, zq_i16 (by omega) (by omega)]; push_cast
          rw [show ((t.toInt : Int) : Zq) = zq t from rfl, show ((v.toInt : Int) : Zq) = zq v from rfl, ht, hv, hxx, hxy]
          linear_combination (-(2 ^ (6 - l + 1) * levI f l (S + x + L))) * hmir +
            (Z (2 ^ (l + 1) - 1 - b) * (-(2 ^ (6 - l + 1)) * Z (2 ^ l + b) * levI f l (S + x + L))) * zq_inv_R
        · intro i h1 h2
          rw [Array.getElem?_setIfInBounds_ne (by omega), Array.getElem?_setIfInBounds_ne (by omega),
            Array.getElem?_setIfInBounds_ne (by omega)]
      · intro r' hr'
        rw [runs_pure]
        rw [show S + L - S = L from by omega] at hr'
        have := hr'.next
        refine ⟨?_, by simp; omega, ?_⟩
        · rw [show (b + 1) * (2 * L) = S + 2 * L from by rw [← hS]; ring]
          exact this
        · show S + L + L = _
          rw [← hS]; ring
    · rintro ⟨r, k, start⟩ ⟨hp, hk, hst⟩
      simp only at hp hk hst ⊢
      rw [hst, htot]; simp
    · rintro ⟨r, k, start⟩ ⟨hp, hk, hst⟩
      simp only at hp hk hst
      rw [runs_pure]
      refine ⟨?_, ?_, ?_⟩
      · have := hp.last (by omega)
        exact this.mono (by omega)
      · simp only; rw [hk, Nat.pow_succ]; omega
      · simp only
        rw [Nat.shiftLeft_eq, show 6 - l + 1 + 1 = (7 - l) + 1 from by omega, Nat.pow_add]
  · rintro ⟨r, k, len⟩ ⟨hp, hk, hlen⟩
    simp only at hlen ⊢
    rw [hlen]; rfl
  · rintro ⟨r, k, len⟩ ⟨hp, hk, hlen⟩
    simp only at hp
    refine runs_polyloop hp.size fun i m hi hm hfr => ?_
    obtain ⟨x, hx0, hx, hx1, hx2⟩ := (hp.coef i hi).frame (hfr i (Nat.le_refl _))
    simp only [runs_bind]
    rw [runs_rd_of hx0, fqmul_comm]
    refine (fqmul_runs_small _ _ (by decide) (by decide)).mono fun w ⟨hw, hw1, hw2⟩ => ?_
    rw [runs_wr]
    refine ⟨by omega, w, rfl, ?_, hw1, hw2⟩
    rw [hw, hx, levI_zero f i hi]
    have : (169 : Zq) * (zq 1441 * 2 ^ 7) = 65536 := by decide
    linear_combination (f i) * this

end Verif.Proof
