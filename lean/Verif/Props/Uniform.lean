import Verif.Proof.SampleDist
import Verif.Props.AvxSample

/-! # Properties of the distribution of the public matrix (C59)

SampleNTT and `rej_uniform` on uniformly distributed bytes in place of the output of SHAKE128: every polynomial is hit by the same number of byte strings, and the number of
strings that are too short is known. `b` ranges over all byte strings of the stated length. -/

set_option autoImplicit false

namespace Verif.Props
open Verif.Model Verif.Spec Verif.Proof Finset

/-- SampleNTT on the bytes `X` as output of the XOF, with at most `N` iterations. -/
def SampleNTTFrom (N : Nat) (X : List UInt8) : Option Rq := (sampleLoop X N 0 []).map fun a i => ((a.getD i.val 0 : Nat) : Zq)

/-- This is SampleNTT of the standard if the bytes are the output of SHAKE128. -/
example (N : Nat) (B : List UInt8) : SampleNTT N B = SampleNTTFrom N (SHAKE128 B (3 * N)) := rfl

/-- The byte string with the given values. -/
def str {n : Nat} (b : Fin n → Fin 256) : List UInt8 := List.ofFn fun i => UInt8.ofNat (b i).val

theorem take_eq_iff_prefix {l v : List Nat} {n : Nat} (h : v.length = n) : l.take n = v ↔ v <+: l := by
  rw [List.prefix_iff_eq_take, h]
  exact eq_comm

theorem sampleFrom_eq (N : Nat) (X : List UInt8) (hX : X.length = 3 * N) :
    SampleNTTFrom N X = if 256 ≤ (accepted X).length then some (rqOf ((accepted X).take 256)) else none := by
  unfold SampleNTTFrom
  rw [sampleLoop_eq X N 0 [] (by omega) (by simp), Nat.mul_zero, List.drop_zero, List.nil_append, List.length_take]
  by_cases h : 256 ≤ (accepted X).length
  · rw [if_pos (by omega), if_pos h]; rfl
  · rw [if_neg (by omega), if_neg h]; rfl

theorem val_of_lt {d : Nat} (h : d < 3329) : ((d : Nat) : Zq).val = d := ZMod.val_cast_of_lt h

theorem rqOf_eq_iff {l : List Nat} (hl : ∀ d ∈ l, d < 3329) (h : l.length = 256) (f : Rq) : rqOf l = f ↔ l = List.ofFn fun i => (f i).val := by
  have hg : ∀ i : Fin 256, l.getD i.val 0 = l[i.val]'(by omega) := fun i => by simp [List.getD, show i.val < l.length from by omega]
  constructor
  · rintro rfl
    refine List.ext_getElem (by rw [h, List.length_ofFn]) fun i h1 h2 => ?_
    rw [List.getElem_ofFn]
    have hi : i < 256 := by omega
    show _ = ((l.getD i 0 : Nat) : Zq).val
    rw [hg ⟨i, hi⟩, val_of_lt (hl _ (List.getElem_mem _))]
  · intro e
    funext i
    show ((l.getD i.val 0 : Nat) : Zq) = f i
    have e1 : l[i.val]'(by omega) = (f i).val := by
      subst e
      rw [List.getElem_ofFn]
    rw [hg i, e1]
    exact ZMod.natCast_zmod_val (f i)

theorem sampleFrom_some (N : Nat) (X : List UInt8) (hX : X.length = 3 * N) (f : Rq) :
    SampleNTTFrom N X = some f ↔ (List.ofFn fun i => (f i).val) <+: accepted X := by
  rw [sampleFrom_eq N X hX, ← take_eq_iff_prefix (n := 256) (List.length_ofFn)]
  by_cases h : 256 ≤ (accepted X).length
  · rw [if_pos h, Option.some.injEq, rqOf_eq_iff (fun d hd => accepted_lt (List.mem_of_mem_take hd)) (by rw [List.length_take]; omega)]
  · rw [if_neg h]
    refine ⟨fun e => absurd e (by simp), fun e => absurd (congrArg List.length e) ?_⟩
    rw [List.length_take, List.length_ofFn]
    omega

theorem card_str (N : Nat) (P : List Nat → Prop) [DecidablePred P] :
    Finset.card {b : Fin (3 * N) → Fin 256 | P (accepted (str b))} = sumC (2 * N) fun l => if P l then 1 else 0 := by
  rw [← sumB_eq]
  unfold sumB
  rw [Finset.card_filter]
  rfl

theorem str_length {n : Nat} (b : Fin n → Fin 256) : (str b).length = n := bytesOf_length b

theorem card_some (N : Nat) (f : Rq) : Finset.card {b : Fin (3 * N) → Fin 256 | SampleNTTFrom N (str b) = some f} = prefixCount (2 * N) 256 := by
  have e : ∀ b : Fin (3 * N) → Fin 256, SampleNTTFrom N (str b) = some f ↔ (List.ofFn fun i => (f i).val) <+: accepted (str b) :=
    fun b => sampleFrom_some N _ (str_length b) f
  simp only [e]
  rw [card_str N fun l => (List.ofFn fun i => (f i).val) <+: l, sumC_prefix _ _ fun x hx => ?_, List.length_ofFn]
  rw [List.mem_ofFn] at hx
  obtain ⟨i, rfl⟩ := hx
  exact ZMod.val_lt (f i)

/-- C59. SampleNTT on uniform bytes is uniform: any two polynomials are the result for equally many byte strings, for every number of iterations. -/
theorem C59_uniform (N : Nat) (f g : Rq) :
    Finset.card {b : Fin (3 * N) → Fin 256 | SampleNTTFrom N (str b) = some f} = Finset.card {b : Fin (3 * N) → Fin 256 | SampleNTTFrom N (str b) = some g} := by
  rw [card_some, card_some]

/-- C59. The number of byte strings of 3N bytes that hold too few candidates below q. -/
theorem C59_failures (N : Nat) : Finset.card {b : Fin (3 * N) → Fin 256 | SampleNTTFrom N (str b) = none} =
    ∑ j ∈ range 256, (2 * N).choose j * 3329 ^ j * 767 ^ (2 * N - j) := by
  have e : ∀ b : Fin (3 * N) → Fin 256, SampleNTTFrom N (str b) = none ↔ (accepted (str b)).length < 256 := fun b => by
    rw [sampleFrom_eq N _ (str_length b)]
    split
    · simp; omega
    · simp; omega
  simp only [e]
  rw [card_str N fun l => l.length < 256, ← Finset.sum_congr rfl fun j _ => sumC_length (2 * N) j]
  unfold sumC
  rw [Finset.sum_comm]
  refine Finset.sum_congr rfl fun c _ => ?_
  rw [Finset.sum_ite_eq]
  simp only [Finset.mem_range]

/-- C59. Together: the number of byte strings giving a certain polynomial. -/
theorem C59_count (N : Nat) (f : Rq) :
    3329 ^ 256 * Finset.card {b : Fin (3 * N) → Fin 256 | SampleNTTFrom N (str b) = some f} +
      ∑ j ∈ range 256, (2 * N).choose j * 3329 ^ j * 767 ^ (2 * N - j) = 256 ^ (3 * N) := by
  rw [← C59_failures N]
  have h := Finset.card_eq_sum_card_fiberwise (f := fun b : Fin (3 * N) → Fin 256 => SampleNTTFrom N (str b)) (s := univ) (t := univ) (fun _ _ => by simp only [Finset.coe_univ, Set.mem_univ])
  rw [Fintype.sum_option, Finset.sum_congr rfl fun g _ => C59_uniform N g f, Finset.sum_const, Finset.card_univ, Finset.card_univ, smul_eq_mul, Nat.add_comm,
    Fintype.card_fun, Fintype.card_fun] at h
  rw [show Fintype.card Zq = 3329 from ZMod.card 3329] at h
  simp only [Fintype.card_fin] at h
  exact h.symm

/-- C59. The bound in appendix B of FIPS 203: 280 iterations are not enough with probability below 2^-261. -/
theorem C59_limit_280 : Finset.card {b : Fin (3 * 280) → Fin 256 | SampleNTTFrom 280 (str b) = none} * 2 ^ 261 < 256 ^ (3 * 280) := by
  rw [C59_failures, failSum_eq]
  decide +kernel

/-- C59. The blocks of the code: three (112 + 56 iterations) are not enough with probability below 1 in 120 and above 1 in 121, four with probability below 2^-105. -/
theorem C59_limit_blocks :
    Finset.card {b : Fin (3 * 168) → Fin 256 | SampleNTTFrom 168 (str b) = none} * 120 < 256 ^ (3 * 168) ∧
    256 ^ (3 * 168) < Finset.card {b : Fin (3 * 168) → Fin 256 | SampleNTTFrom 168 (str b) = none} * 121 ∧
    Finset.card {b : Fin (3 * 224) → Fin 256 | SampleNTTFrom 224 (str b) = none} * 2 ^ 105 < 256 ^ (3 * 224) := by
  rw [C59_failures, C59_failures, failSum_eq, failSum_eq]
  decide +kernel

/-- Cases: with 127 iterations there are not enough candidates, so no string gives a polynomial; with 128 exactly one string gives it. -/
example (f : Rq) : Finset.card {b : Fin (3 * 127) → Fin 256 | SampleNTTFrom 127 (str b) = some f} = 0 ∧
    Finset.card {b : Fin (3 * 128) → Fin 256 | SampleNTTFrom 128 (str b) = some f} = 1 := by
  have h1 := C59_count 127 f
  have h2 := C59_count 128 f
  have e1 : ∑ j ∈ range 256, (2 * 127).choose j * 3329 ^ j * 767 ^ (2 * 127 - j) = 256 ^ (3 * 127) := by rw [failSum_eq]; decide +kernel
  have e2 : 3329 ^ 256 + ∑ j ∈ range 256, (2 * 128).choose j * 3329 ^ j * 767 ^ (2 * 128 - j) = 256 ^ (3 * 128) := by rw [failSum_eq]; decide +kernel
  rw [e1] at h1
  rw [← e2] at h2
  have p : 0 < 3329 ^ 256 := Nat.pow_pos (by omega)
  generalize 3329 ^ 256 = a at *
  exact ⟨(Nat.mul_eq_zero.1 (Nat.add_eq_right.1 h1)).resolve_left (by omega), Nat.eq_of_mul_eq_mul_left p (by rw [Nat.mul_one]; exact Nat.add_right_cancel h2)⟩

/-! ## The code -/

attribute [local irreducible] prefixCount Avx.rej_uniform_avx rej_uniform

theorem fills_iff {m : C (Mem Int16 × Nat)} {L : List Nat} (hL : ∀ d ∈ L, d < 3329)
    (h : Runs m (fun s => s.1.Holds 0 (L.map fun d : Nat => i16 (d : Int)) ∧ s.2 = L.length)) (v : Fin 256 → Fin 3329) :
    Runs m (fun s => s.2 = 256 ∧ ∀ i, ∃ x, s.1[i.val]? = some (some x) ∧ x.toInt = ((v i).val : Int)) ↔ L = List.ofFn fun i => (v i).val := by
  constructor
  · intro h'
    obtain ⟨s, t, _, ⟨hs, hn⟩, hn', hv⟩ := (h.and h').exists_ok
    have hl : L.length = 256 := by omega
    refine List.ext_getElem (by rw [hl, List.length_ofFn]) fun i h1 h2 => ?_
    rw [List.getElem_ofFn]
    obtain ⟨x, hx, hxv⟩ := hv ⟨i, by omega⟩
    have := hs i (by rw [List.length_map]; omega)
    rw [Nat.zero_add, hx, List.getElem_map, Option.some.injEq, Option.some.injEq] at this
    rw [this, i16_nat (hL _ (List.getElem_mem _))] at hxv
    exact_mod_cast hxv
  · rintro rfl
    refine h.mono fun s hs => ⟨by rw [hs.2, List.length_ofFn], fun i => ?_⟩
    have := hs.1 i.val (by rw [List.length_map, List.length_ofFn]; exact i.isLt)
    rw [Nat.zero_add, List.getElem_map, List.getElem_ofFn] at this
    exact ⟨_, this, i16_nat (v i).isLt⟩

theorem card_prefix (N : Nat) (v : Fin 256 → Fin 3329) : Set.ncard {b : Fin (3 * N) → Fin 256 | (accepted (str b)).take 256 = List.ofFn fun i => (v i).val} = prefixCount (2 * N) 256 := by
  have hp := sumC_prefix (2 * N) (List.ofFn fun i => (v i).val) fun x hx => by
    rw [List.mem_ofFn] at hx
    obtain ⟨i, rfl⟩ := hx
    exact (v i).isLt
  rw [List.length_ofFn] at hp
  rw [← hp, ← card_str N fun l => (List.ofFn fun i => (v i).val) <+: l, ← Set.ncard_coe_finset]
  refine congrArg Set.ncard (Set.ext fun b => ?_)
  simp only [Set.mem_ofPred_eq, Finset.coe_filter, Finset.mem_univ, true_and]
  exact take_eq_iff_prefix List.length_ofFn

/-- C59. `rej_uniform` of the reference code on a buffer of uniform bytes: the number of buffers of 3N bytes for which the call fills the polynomial with the coefficients `v` is
the same for every `v`. -/
theorem C59_code (N : Nat) (r : Mem Int16) (hr : r.size = 256) (v w : Fin 256 → Fin 3329) :
    Set.ncard {b : Fin (3 * N) → Fin 256 | Runs (rej_uniform r 0 256 (Mem.ofList (str b)) (3 * N)) (fun s => s.2 = 256 ∧ ∀ i, ∃ x, s.1[i.val]? = some (some x) ∧ x.toInt = ((v i).val : Int))} =
    Set.ncard {b : Fin (3 * N) → Fin 256 | Runs (rej_uniform r 0 256 (Mem.ofList (str b)) (3 * N)) (fun s => s.2 = 256 ∧ ∀ i, ∃ x, s.1[i.val]? = some (some x) ∧ x.toInt = ((w i).val : Int))} := by
  have e : ∀ v : Fin 256 → Fin 3329, Set.ncard {b : Fin (3 * N) → Fin 256 | Runs (rej_uniform r 0 256 (Mem.ofList (str b)) (3 * N))
      (fun s => s.2 = 256 ∧ ∀ i, ∃ x, s.1[i.val]? = some (some x) ∧ x.toInt = ((v i).val : Int))} = prefixCount (2 * N) 256 := fun v => by
    rw [← card_prefix N v]
    refine congrArg Set.ncard (Set.ext fun b => ?_)
    refine fills_iff (fun d hd => accepted_lt (List.mem_of_mem_take hd)) ?_ v
    exact (rej_uniform_runs (Mem.holds_ofList (str b)) (str_length b) (by omega)).mono fun s hs => ⟨hs.1.holds, hs.2⟩
  rw [e v, e w]

/-- C59. The same for the vectorised `rej_uniform_avx`, which always takes three blocks. -/
theorem C59_code_avx (r : Mem Int16) (hr : r.size = 256) (v w : Fin 256 → Fin 3329) :
    Set.ncard {b : Fin 504 → Fin 256 | Runs (Avx.rej_uniform_avx r (Mem.ofList (str b))) (fun s => s.2 = 256 ∧ ∀ i, ∃ x, s.1[i.val]? = some (some x) ∧ x.toInt = ((v i).val : Int))} =
    Set.ncard {b : Fin 504 → Fin 256 | Runs (Avx.rej_uniform_avx r (Mem.ofList (str b))) (fun s => s.2 = 256 ∧ ∀ i, ∃ x, s.1[i.val]? = some (some x) ∧ x.toInt = ((w i).val : Int))} := by
  have e : ∀ v : Fin 256 → Fin 3329, Set.ncard {b : Fin 504 → Fin 256 | Runs (Avx.rej_uniform_avx r (Mem.ofList (str b)))
      (fun s => s.2 = 256 ∧ ∀ i, ∃ x, s.1[i.val]? = some (some x) ∧ x.toInt = ((v i).val : Int))} = prefixCount (2 * 168) 256 := fun v => by
    refine Eq.trans ?_ (card_prefix 168 v)
    refine congrArg Set.ncard (Set.ext fun b => ?_)
    refine fills_iff (fun d hd => accepted_lt (List.mem_of_mem_take hd)) ?_ v
    exact (Avx.rej_uniform_avx_runs hr (Mem.holds_ofList (str b)) (str_length b)).mono fun s hs => ⟨hs.2.1, hs.2.2⟩
  rw [e v, e w]

end Verif.Props
