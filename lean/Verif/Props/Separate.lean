import Mathlib.Logic.Function.Basic
import Mathlib.Data.Fintype.BigOperators
import Verif.Proof.Correct
import Verif.Proof.SpongeSpec
import Verif.Spec.Oracle

/-! # C99: the hash calls of ML-KEM do not meet

The security theorems (C76, C81, C82, C86, C87, C95) take G, H, J, the XOF and PRF as separate functions, while all are the one KECCAK. Here: no two calls for different purposes give KECCAK the same input,
for all parameter sets and values together, and no call is made twice in one run. -/

set_option autoImplicit false

namespace Verif.Props
open Verif.Model (ParamSet)
open Verif.Spec Verif.Proof
open Verif.Spec.Oracle (Sponge Query)

/-! ## The algorithms are those of the standard -/

/-- C99. With KECCAK in the place of the function, these are the algorithms of the standard. -/
theorem C99_standard (P : Params) (N : Nat) :
    (∀ d z, Oracle.KeyGen_internal KECCAK P N d z = KeyGen_internal P N d z) ∧
    (∀ ek m, Oracle.Encaps_internal KECCAK P N ek m = Encaps_internal P N ek m) ∧
    ∀ dk c, Oracle.Decaps_internal KECCAK P N dk c = Decaps_internal P N dk c := ⟨fun _ _ => rfl, fun _ _ => rfl, fun _ _ => rfl⟩

/-! ## Separation -/

theorem byte_inj {a b : Nat} (ha : a < 256) (hb : b < 256) (h : UInt8.ofNat a = UInt8.ofNat b) : a = b := by
  have := congrArg UInt8.toNat h
  rw [UInt8.toNat_ofNat', UInt8.toNat_ofNat'] at this
  omega

theorem input_inj {M M' : List UInt8} {s : List Bool} (h : h2b M ++ s = h2b M' ++ s) : M = M' := h2b_inj (List.append_cancel_right h)

theorem suffix_ne {M M' : List UInt8} : h2b M ++ [false, true] ≠ h2b M' ++ [true, true, true, true] := fun h => by
  have := congrArg List.length h
  simp only [List.length_append, h2b_length, List.length_cons, List.length_nil] at this
  omega

theorem ct_len (p : ParamSet) : 32 * ((fips p).du * (fips p).k + (fips p).dv) ≠ 1 := by cases p <;> decide

/-- C99. Two calls with the same capacity and the same bits are the same call: for the same purpose, with the same values. -/
theorem C99_separate (q q' : Query) (hq : q.Proper) (hq' : q'.Proper) (h : q.input = q'.input) : q = q' := by
  have key : ∀ {c c' : Nat} {N N' : List Bool}, (c, N) = (c', N') → c = c' ∧ N = N' := fun h => Prod.mk.inj h
  cases q with
  | seed k d =>
    cases q' with
    | seed k' d' =>
      obtain ⟨h1, h2⟩ := List.append_inj' (input_inj (key h).2) rfl
      rw [byte_inj hq.2 hq'.2 (List.cons.inj h2).1, h1]
    | coins m h' =>
      have := congrArg List.length (input_inj (key h).2)
      rw [List.length_append, List.length_append, hq.1, hq'.1, hq'.2] at this
      cases this
    | keyHash _ => exact absurd (key h).1 (by decide)
    | reject _ _ => exact absurd (key h).1 (by decide)
    | entry _ _ _ => exact absurd (key h).1 (by decide)
    | noise _ _ => exact absurd (key h).1 (by decide)
  | coins m e =>
    cases q' with
    | seed k' d' =>
      have := congrArg List.length (input_inj (key h).2)
      rw [List.length_append, List.length_append, hq.1, hq.2, hq'.1] at this
      cases this
    | coins m' e' =>
      obtain ⟨h1, h2⟩ := List.append_inj (input_inj (key h).2) (hq.1.trans hq'.1.symm)
      rw [h1, h2]
    | keyHash _ => exact absurd (key h).1 (by decide)
    | reject _ _ => exact absurd (key h).1 (by decide)
    | entry _ _ _ => exact absurd (key h).1 (by decide)
    | noise _ _ => exact absurd (key h).1 (by decide)
  | keyHash ek =>
    cases q' with
    | keyHash ek' => rw [input_inj (key h).2]
    | reject _ _ => exact absurd (key h).2 suffix_ne
    | noise _ _ => exact absurd (key h).2 suffix_ne
    | seed _ _ => exact absurd (key h).1 (by decide)
    | coins _ _ => exact absurd (key h).1 (by decide)
    | entry _ _ _ => exact absurd (key h).1 (by decide)
  | reject z c =>
    cases q' with
    | keyHash ek' => exact absurd (key h).2.symm suffix_ne
    | reject z' c' =>
      obtain ⟨h1, h2⟩ := List.append_inj (input_inj (key h).2) (hq.1.trans hq'.1.symm)
      rw [h1, h2]
    | noise s n =>
      obtain ⟨_, h2⟩ := List.append_inj (input_inj (key h).2) (hq.1.trans hq'.1.symm)
      obtain ⟨p, hp⟩ := hq.2
      rw [h2] at hp
      exact absurd hp.symm (ct_len p)
    | seed _ _ => exact absurd (key h).1 (by decide)
    | coins _ _ => exact absurd (key h).1 (by decide)
    | entry _ _ _ => exact absurd (key h).1 (by decide)
  | entry ρ i j =>
    cases q' with
    | entry ρ' i' j' =>
      obtain ⟨h1, h2⟩ := List.append_inj' (input_inj (key h).2) rfl
      obtain ⟨h3, h4⟩ := List.cons.inj h2
      rw [h1, byte_inj hq.2.2 hq'.2.2 h3, byte_inj hq.2.1 hq'.2.1 (List.cons.inj h4).1]
    | keyHash _ => exact absurd (key h).1 (by decide)
    | reject _ _ => exact absurd (key h).1 (by decide)
    | noise _ _ => exact absurd (key h).1 (by decide)
    | seed _ _ => exact absurd (key h).1 (by decide)
    | coins _ _ => exact absurd (key h).1 (by decide)
  | noise s n =>
    cases q' with
    | keyHash ek' => exact absurd (key h).2.symm suffix_ne
    | reject z c =>
      obtain ⟨_, h2⟩ := List.append_inj (input_inj (key h).2) (hq.1.trans hq'.1.symm)
      obtain ⟨p, hp⟩ := hq'.2
      rw [← h2] at hp
      exact absurd hp.symm (ct_len p)
    | noise s' n' =>
      obtain ⟨h1, h2⟩ := List.append_inj' (input_inj (key h).2) rfl
      rw [h1, byte_inj hq.2 hq'.2 (List.cons.inj h2).1]
    | seed _ _ => exact absurd (key h).1 (by decide)
    | coins _ _ => exact absurd (key h).1 (by decide)
    | entry _ _ _ => exact absurd (key h).1 (by decide)

/-- C99. So whatever answers are chosen for the calls of all purposes, some function in the place of KECCAK gives them: one function can serve as separate functions for the purposes. -/
theorem C99_any (F : Query → Nat → List Bool) : ∃ O : Sponge, ∀ q : Query, q.Proper → O q.input.1 q.input.2 = F q := by
  classical
  refine ⟨fun c N => if h : ∃ q : Query, q.Proper ∧ q.input = (c, N) then F h.choose else fun _ => [], fun q hq => ?_⟩
  have h : ∃ q' : Query, q'.Proper ∧ q'.input = (q.input.1, q.input.2) := ⟨q, hq, rfl⟩
  dsimp only
  rw [dif_pos h, C99_separate _ _ h.choose_spec.1 hq h.choose_spec.2]

/-- C99. And a random function in the place of KECCAK, on a finite set of inputs with the answers in a finite set, gives independent uniform answers to the calls of all purposes: each choice of answers to a
set of calls is given by the same number of functions, the fraction |Y|^(-|Q|) of all. -/
theorem C99_uniform {Y : Type} [Fintype Y] [DecidableEq Y] (X : Finset (Nat × List Bool)) (Q : Finset Query) (hQ : ∀ q ∈ Q, q.Proper ∧ q.input ∈ X) (F : Query → Y) :
    (Finset.univ.filter fun O : X → Y => ∀ q, (h : q ∈ Q) → O ⟨q.input, (hQ q h).2⟩ = F q).card * Fintype.card Y ^ Q.card = Fintype.card Y ^ X.card := by
  classical
  have hi : Set.InjOn Query.input (Q : Set Query) := fun a ha b hb e => C99_separate a b (hQ a ha).1 (hQ b hb).1 e
  let R : Finset X := X.attach.filter fun x => x.1 ∈ Q.image Query.input
  let t : X → Finset Y := fun x => if h : ∃ q ∈ Q, q.input = x.1 then {F h.choose} else Finset.univ
  have e1 : (Finset.univ.filter fun O : X → Y => ∀ q, (h : q ∈ Q) → O ⟨q.input, (hQ q h).2⟩ = F q) = Fintype.piFinset t := by
    ext O
    rw [Finset.mem_filter, Fintype.mem_piFinset]
    constructor
    · rintro ⟨-, h⟩ x
      by_cases hx : ∃ q ∈ Q, q.input = x.1
      · show O x ∈ (if h : ∃ q ∈ Q, q.input = x.1 then {F h.choose} else Finset.univ : Finset Y)
        rw [dif_pos hx, Finset.mem_singleton, ← h _ hx.choose_spec.1]
        exact congrArg O (Subtype.ext hx.choose_spec.2.symm)
      · show O x ∈ (if h : ∃ q ∈ Q, q.input = x.1 then {F h.choose} else Finset.univ : Finset Y)
        rw [dif_neg hx]
        exact Finset.mem_univ _
    · intro h
      refine ⟨Finset.mem_univ _, fun q hq => ?_⟩
      have h1 : O ⟨q.input, (hQ q hq).2⟩ ∈ (if h : ∃ q' ∈ Q, q'.input = q.input then {F h.choose} else Finset.univ : Finset Y) := h ⟨q.input, (hQ q hq).2⟩
      have hx : ∃ q' ∈ Q, q'.input = q.input := ⟨q, hq, rfl⟩
      rw [dif_pos hx, Finset.mem_singleton] at h1
      rw [h1, hi hx.choose_spec.1 hq hx.choose_spec.2]
  have e2 : ∀ x : X, (t x).card = if x ∈ R then 1 else Fintype.card Y := fun x => by
    have hR : x ∈ R ↔ ∃ q ∈ Q, q.input = x.1 := by
      show x ∈ X.attach.filter _ ↔ _
      rw [Finset.mem_filter, Finset.mem_image]
      exact and_iff_right (Finset.mem_attach _ _)
    show (if h : ∃ q ∈ Q, q.input = x.1 then {F h.choose} else Finset.univ : Finset Y).card = _
    by_cases hx : ∃ q ∈ Q, q.input = x.1
    · rw [dif_pos hx, if_pos (hR.2 hx), Finset.card_singleton]
    · rw [dif_neg hx, if_neg (fun h => hx (hR.1 h)), Finset.card_univ]
  have e3 : R.card = Q.card := by
    rw [← Finset.card_image_of_injOn hi]
    refine Finset.card_bij (fun x _ => x.1) (fun x hx => (Finset.mem_filter.1 hx).2) (fun x _ y _ h => Subtype.ext h) fun y hy => ?_
    obtain ⟨q, hq, rfl⟩ := Finset.mem_image.1 hy
    exact ⟨⟨q.input, (hQ q hq).2⟩, Finset.mem_filter.2 ⟨Finset.mem_attach _ _, hy⟩, rfl⟩
  have e4 : R.card + (Finset.univ.filter fun x => x ∉ R).card = X.card := by
    rw [← Fintype.card_coe X, ← Finset.card_univ, ← Finset.card_filter_add_card_filter_not (s := Finset.univ) (fun x => x ∈ R), Finset.filter_univ_mem]
  rw [e1, Fintype.card_piFinset, Finset.prod_congr rfl fun x _ => e2 x, Finset.prod_ite, Finset.prod_const_one, one_mul, Finset.prod_const, ← e3, ← pow_add, Nat.add_comm, e4]

/-! ## Padding and states -/

/-- The padded bits, which are the blocks of the sponge. -/
def paddedBits (q : Query) : List Bool := q.input.2 ++ pad101 (1600 - q.input.1) q.input.2.length

theorem zeros_one {i j : Nat} {a b : List Bool} (h : List.replicate i false ++ true :: a = List.replicate j false ++ true :: b) : i = j ∧ a = b := by
  induction i generalizing j with
  | zero =>
    cases j with
    | zero => exact ⟨rfl, (List.cons.inj h).2⟩
    | succ j => exact absurd (List.cons.inj h).1 (by decide)
  | succ i ih =>
    cases j with
    | zero => exact absurd (List.cons.inj h).1 (by decide)
    | succ j =>
      obtain ⟨h1, h2⟩ := ih (List.cons.inj h).2
      exact ⟨by rw [h1], h2⟩

theorem pad_reverse (N : List Bool) (r n : Nat) : (N ++ pad101 r n).reverse = true :: (List.replicate ((-(n : Int) - 2) % (r : Int)).toNat false ++ true :: N.reverse) := by
  simp [pad101]

theorem pad_inj {N N' : List Bool} {r r' n n' : Nat} (h : N ++ pad101 r n = N' ++ pad101 r' n') : N = N' := by
  have h := congrArg List.reverse h
  rw [pad_reverse, pad_reverse] at h
  exact List.reverse_injective (zeros_one (List.cons.inj h).2).2

/-- C99. The same holds for the padded bits, so no two calls run through the same blocks with the same capacity. -/
theorem C99_padded (q q' : Query) (hq : q.Proper) (hq' : q'.Proper) (hc : q.input.1 = q'.input.1) (h : paddedBits q = paddedBits q') : q = q' :=
  C99_separate q q' hq hq' (Prod.ext hc (pad_inj h))

/-- The calls that take one block: all but H and J. -/
def OneBlock : Query → Prop
  | .keyHash _ => False
  | .reject _ _ => False
  | _ => True

/-- The 1600 bits that the first call of the permutation gets, if there is one block. -/
def firstState (q : Query) : List Bool := paddedBits q ++ List.replicate q.input.1 false

theorem one_block (q : Query) (hq : q.Proper) (h1 : OneBlock q) : (paddedBits q).length = 1600 - q.input.1 ∧ q.input.1 ≤ 1024 := by
  have hp : ∀ (c : Nat) (M : List UInt8) (s : List Bool) (n : Nat), (h2b M ++ s).length = n → (pad101 (1600 - c) n).length + n = 1600 - c →
      (h2b M ++ s ++ pad101 (1600 - c) (h2b M ++ s).length).length = 1600 - c := fun c M s n h1 h2 => by
    rw [List.length_append, h1]; omega
  cases q with
  | seed k d => exact ⟨hp 1024 _ _ 266 (by rw [List.length_append, h2b_length, List.length_append, hq.1]; rfl) (by decide +kernel), Nat.le_refl 1024⟩
  | coins m h => exact ⟨hp 1024 _ _ 514 (by rw [List.length_append, h2b_length, List.length_append, hq.1, hq.2]; rfl) (by decide +kernel), Nat.le_refl 1024⟩
  | keyHash _ => exact h1.elim
  | reject _ _ => exact h1.elim
  | entry ρ i j => exact ⟨hp 256 _ _ 276 (by rw [List.length_append, h2b_length, List.length_append, hq.1]; rfl) (by decide +kernel), Nat.le_of_ble_eq_true rfl⟩
  | noise s n => exact ⟨hp 512 _ _ 268 (by rw [List.length_append, h2b_length, List.length_append, hq.1]; rfl) (by decide +kernel), Nat.le_of_ble_eq_true rfl⟩

/-- C99. The calls other than H and J run the permutation first on distinct states, whatever their capacities. -/
theorem C99_states (q q' : Query) (hq : q.Proper) (hq' : q'.Proper) (h : firstState q = firstState q') : q = q' := by
  have h := congrArg List.reverse h
  unfold firstState paddedBits at h
  rw [List.reverse_append (bs := List.replicate q.input.1 false), List.reverse_append (bs := List.replicate q'.input.1 false), List.reverse_replicate, List.reverse_replicate, pad_reverse, pad_reverse] at h
  obtain ⟨h1, h2⟩ := zeros_one h
  exact C99_separate q q' hq hq' (Prod.ext h1 (List.reverse_injective (zeros_one h2).2))

theorem zipWith_false (L : List Bool) : List.zipWith xor (List.replicate L.length false) L = L := by
  induction L with
  | nil => rfl
  | cons a L ih =>
    show (xor false a) :: List.zipWith xor (List.replicate L.length false) L = _
    rw [ih, Bool.false_xor]

/-- C99. For these calls `firstState` is what the permutation of the sponge gets, once. -/
theorem C99_absorb (f : List Bool → List Bool) (q : Query) (hq : q.Proper) (h1 : OneBlock q) : spongeAbsorb f (1600 - q.input.1) q.input.2 = f (firstState q) := by
  obtain ⟨hl, hc⟩ := one_block q hq h1
  unfold spongeAbsorb
  show (List.range ((paddedBits q).length / _)).foldl (fun S i => f (List.zipWith xor S (block _ (paddedBits q) i ++ _))) _ = _
  rw [hl, Nat.div_self (by omega)]
  show f (List.zipWith xor _ (block _ (paddedBits q) 0 ++ _)) = _
  have e1 : block (1600 - q.input.1) (paddedBits q) 0 = paddedBits q := by
    rw [block, Nat.mul_zero, List.drop_zero, ← hl, List.take_length]
  have e2 : 1600 - (1600 - q.input.1) = q.input.1 := by omega
  rw [e1, e2]
  have e3 : (paddedBits q ++ List.replicate q.input.1 false).length = 1600 := by
    rw [List.length_append, hl, List.length_replicate]; omega
  conv_lhs => rw [← e3]
  rw [zipWith_false]
  rfl

/-- C99. Only whole inputs are separate, not their beginnings: for every value z and counter there is a ciphertext, of any parameter set, for which the first block of J(z ‖ c) is the one block of PRF(z, n). -/
theorem C99_prefix (p : ParamSet) (z : List UInt8) (hz : z.length = 32) (n : Nat) :
    ∃ c : List UInt8, c.length = 32 * ((fips p).du * (fips p).k + (fips p).dv) ∧ block 1088 (paddedBits (.reject z c)) 0 = paddedBits (.noise z n) := by
  generalize hL : 32 * ((fips p).du * (fips p).k + (fips p).dv) = L
  have hL' : 104 ≤ L := by rw [← hL]; cases p <;> decide
  have hp := padB_length 136 33 0x1F (by decide)
  refine ⟨[UInt8.ofNat n] ++ padB 136 33 0x1F ++ List.replicate (L - 104) 0, ?_, ?_⟩
  · rw [List.length_append, List.length_append, hp, List.length_replicate, List.length_singleton]; omega
  · have e : paddedBits (.noise z n) = h2b (z ++ [UInt8.ofNat n]) ++ ([true, true, true, true] ++ pad101 1088 (h2b (z ++ [UInt8.ofNat n]) ++ [true, true, true, true]).length) :=
      List.append_assoc _ _ _
    have e2 : (h2b (z ++ [UInt8.ofNat n]) ++ [true, true, true, true]).length = 268 := by
      rw [List.length_append, h2b_length, List.length_append, hz]; rfl
    have e3 : [true, true, true, true] ++ pad101 1088 268 = h2b (padB 136 33 0x1F) := by
      rw [h2b_padB sfx_shake 136 33 (by decide)]; rfl
    rw [e, e2, e3, ← h2b_append, block, Nat.mul_zero, List.drop_zero]
    have e4 : paddedBits (.reject z ([UInt8.ofNat n] ++ padB 136 33 0x1F ++ List.replicate (L - 104) 0)) =
        h2b (z ++ [UInt8.ofNat n] ++ padB 136 33 0x1F) ++ (h2b (List.replicate (L - 104) 0) ++ ([true, true, true, true] ++
          pad101 1088 (Query.reject z ([UInt8.ofNat n] ++ padB 136 33 0x1F ++ List.replicate (L - 104) 0)).input.2.length)) := by
      rw [← List.append_assoc (h2b _) (h2b _), ← h2b_append, ← List.append_assoc]
      simp only [paddedBits, Query.input, List.append_assoc]
    have e5 : (h2b (z ++ [UInt8.ofNat n] ++ padB 136 33 0x1F)).length = 1088 := by
      rw [h2b_length, List.length_append, List.length_append, hz, hp]; rfl
    rw [e4, ← e5, List.take_left']
    rfl

/-! ## One run -/

/-- The two functions give the same answers to the calls in the list. -/
def SameOn (O O' : Sponge) (l : List Query) : Prop := ∀ q ∈ l, O q.input.1 q.input.2 = O' q.input.1 q.input.2

theorem SameOn.left {O O' : Sponge} {l m : List Query} (h : SameOn O O' (l ++ m)) : SameOn O O' l := fun q hq => h q (List.mem_append_left _ hq)
theorem SameOn.right {O O' : Sponge} {l m : List Query} (h : SameOn O O' (l ++ m)) : SameOn O O' m := fun q hq => h q (List.mem_append_right _ hq)

theorem mem_entries {k : Nat} {ρ : List UInt8} {q : Query} : q ∈ Oracle.entries k ρ ↔ ∃ i < k, ∃ j < k, q = .entry ρ i j := by
  simp only [Oracle.entries, List.mem_flatMap, List.mem_map, List.mem_range, eq_comm (b := q)]

theorem mem_noises {n : Nat} {s : List UInt8} {q : Query} : q ∈ Oracle.noises n s ↔ ∃ i < n, q = .noise s i := by
  simp only [Oracle.noises, List.mem_map, List.mem_range, eq_comm (b := q)]

theorem sample_congr {O O' : Sponge} {k : Nat} {ρ : List UInt8} (h : SameOn O O' (Oracle.entries k ρ)) (N : Nat) {i j : Nat} (hi : i < k) (hj : j < k) :
    Oracle.SampleNTT O N (ρ ++ [UInt8.ofNat j, UInt8.ofNat i]) = Oracle.SampleNTT O' N (ρ ++ [UInt8.ofNat j, UInt8.ofNat i]) := by
  have e := congrFun (h _ (mem_entries.2 ⟨i, hi, j, hj, rfl⟩)) (8 * (3 * N))
  unfold Oracle.SampleNTT Oracle.SHAKE128
  exact congrArg (fun X => (sampleLoop (b2h X) N 0 []).map fun a (i : Fin 256) => ((a.getD i.val 0 : Nat) : Zq)) e

/-- Both matrices are undefined, or they have the same entries. -/
theorem expand_congr {O O' : Sponge} {k : Nat} {ρ : List UInt8} (h : SameOn O O' (Oracle.entries k ρ)) (N : Nat) :
    (Oracle.ExpandA O k N ρ = none ∧ Oracle.ExpandA O' k N ρ = none) ∨
      ∃ A A', Oracle.ExpandA O k N ρ = some A ∧ Oracle.ExpandA O' k N ρ = some A' ∧ ∀ i < k, ∀ j < k, A i j = A' i j := by
  unfold Oracle.ExpandA
  by_cases hc : ∀ i < k, ∀ j < k, (Oracle.SampleNTT O N (ρ ++ [UInt8.ofNat j, UInt8.ofNat i])).isSome
  · rw [if_pos hc, if_pos fun i hi j hj => by rw [← sample_congr h N hi hj]; exact hc i hi j hj]
    exact Or.inr ⟨_, _, rfl, rfl, fun i hi j hj => by rw [sample_congr h N hi hj]⟩
  · rw [if_neg hc, if_neg fun hc' => hc fun i hi j hj => by rw [sample_congr h N hi hj]; exact hc' i hi j hj]
    exact Or.inl ⟨rfl, rfl⟩

theorem noise_congr {O O' : Sponge} {n : Nat} {s : List UInt8} (h : SameOn O O' (Oracle.noises n s)) (η : Nat) {i : Nat} (hi : i < n) : Oracle.noise O η s i = Oracle.noise O' η s i := by
  have e := congrFun (h _ (mem_noises.2 ⟨i, hi, rfl⟩)) (8 * (64 * η))
  unfold Oracle.noise Oracle.PRF Oracle.SHAKE256
  exact congrArg (fun X => SamplePolyCBD η (b2h X)) e

theorem encrypt_congr {O O' : Sponge} {P : Params} {ek r : List UInt8} (h : SameOn O O' (Oracle.encryptCalls P ek r)) (N : Nat) (m : List UInt8) :
    Oracle.K_PKE_Encrypt O P N ek m r = Oracle.K_PKE_Encrypt O' P N ek m r := by
  unfold Oracle.K_PKE_Encrypt
  dsimp only
  rcases expand_congr (SameOn.left h) N with ⟨h1, h2⟩ | ⟨A, A', h1, h2, hA⟩
  · rw [h1, h2, Option.bind_eq_bind, Option.bind_none, Option.bind_none]
  · rw [h1, h2]
    have hn := SameOn.right h
    have hd : ∀ f f' : Nat → Rq, (∀ j < P.k, f j = f' j) → dotNTT P.k f (fun i => NTT (Oracle.noise O P.η₁ r i)) = dotNTT P.k f' (fun i => NTT (Oracle.noise O' P.η₁ r i)) :=
      fun f f' hf => dotNTT_congr hf fun i hi => by rw [noise_congr hn P.η₁ (by omega)]
    show some (concat P.k (fun i => ByteEncode P.du fun j => Compress P.du ((NTTInv (dotNTT P.k (fun j => A j i) fun i => NTT (Oracle.noise O P.η₁ r i)) + Oracle.noise O P.η₂ r (P.k + i)) j)) ++ ByteEncode P.dv fun j =>
        Compress P.dv ((NTTInv (dotNTT P.k _ fun i => NTT (Oracle.noise O P.η₁ r i)) + Oracle.noise O P.η₂ r (2 * P.k) + _) j)) =
      some (concat P.k (fun i => ByteEncode P.du fun j => Compress P.du ((NTTInv (dotNTT P.k (fun j => A' j i) fun i => NTT (Oracle.noise O' P.η₁ r i)) + Oracle.noise O' P.η₂ r (P.k + i)) j)) ++ ByteEncode P.dv fun j =>
        Compress P.dv ((NTTInv (dotNTT P.k _ fun i => NTT (Oracle.noise O' P.η₁ r i)) + Oracle.noise O' P.η₂ r (2 * P.k) + _) j))
    rw [hd _ _ fun _ _ => rfl, noise_congr hn P.η₂ (i := 2 * P.k) (by omega)]
    refine congrArg (fun c => some (c ++ _)) (concat_congr fun i hi => ?_)
    rw [hd _ (fun j => A' j i) fun j hj => hA j hj i hi, noise_congr hn P.η₂ (i := P.k + i) (by omega)]

theorem keygen_congr {O O' : Sponge} {P : Params} {d : List UInt8} (N : Nat) (hG : Oracle.G O (d ++ [UInt8.ofNat P.k]) = Oracle.G O' (d ++ [UInt8.ofNat P.k]))
    (hA : SameOn O O' (Oracle.entries P.k (Oracle.G O (d ++ [UInt8.ofNat P.k])).1)) (hn : SameOn O O' (Oracle.noises (2 * P.k) (Oracle.G O (d ++ [UInt8.ofNat P.k])).2)) :
    Oracle.K_PKE_KeyGen O P N d = Oracle.K_PKE_KeyGen O' P N d := by
  unfold Oracle.K_PKE_KeyGen
  rw [← hG]
  generalize Oracle.G O (d ++ [UInt8.ofNat P.k]) = g at hA hn
  obtain ⟨ρ, σ⟩ := g
  dsimp only at hA hn ⊢
  rcases expand_congr hA N with ⟨h1, h2⟩ | ⟨A, A', h1, h2, hA⟩
  · rw [h1, h2, Option.bind_eq_bind, Option.bind_none, Option.bind_none]
  · rw [h1, h2]
    have hs : ∀ i < P.k, NTT (Oracle.noise O P.η₁ σ i) = NTT (Oracle.noise O' P.η₁ σ i) := fun i hi => by rw [noise_congr hn P.η₁ (by omega)]
    show some (concat P.k (fun i => ByteEncode12 (dotNTT P.k (A i) (fun i => NTT (Oracle.noise O P.η₁ σ i)) + NTT (Oracle.noise O P.η₁ σ (P.k + i)))) ++ ρ, concat P.k fun i => ByteEncode12 (NTT (Oracle.noise O P.η₁ σ i))) =
      some (concat P.k (fun i => ByteEncode12 (dotNTT P.k (A' i) (fun i => NTT (Oracle.noise O' P.η₁ σ i)) + NTT (Oracle.noise O' P.η₁ σ (P.k + i)))) ++ ρ, concat P.k fun i => ByteEncode12 (NTT (Oracle.noise O' P.η₁ σ i)))
    rw [concat_congr fun i hi => by rw [dotNTT_congr (hA i hi) hs, noise_congr hn P.η₁ (i := P.k + i) (by omega)], concat_congr (f := fun i => ByteEncode12 (NTT (Oracle.noise O P.η₁ σ i))) fun i hi => by rw [hs i hi]]

theorem G_congr {O O' : Sponge} {M : List UInt8} (h : O 1024 (h2b M ++ [false, true]) = O' 1024 (h2b M ++ [false, true])) : Oracle.G O M = Oracle.G O' M := by
  unfold Oracle.G Oracle.SHA3_512
  rw [h]

theorem H_congr {O O' : Sponge} {M : List UInt8} (h : O 512 (h2b M ++ [false, true]) = O' 512 (h2b M ++ [false, true])) : Oracle.H O M = Oracle.H O' M := by
  unfold Oracle.H Oracle.SHA3_256
  rw [h]

theorem J_congr {O O' : Sponge} {M : List UInt8} (h : O 512 (h2b M ++ [true, true, true, true]) = O' 512 (h2b M ++ [true, true, true, true])) : Oracle.J O M = Oracle.J O' M := by
  unfold Oracle.J Oracle.SHAKE256
  rw [h]

/-- C99. The lists are all the calls: the results depend on the function only through its answers to them. -/
theorem C99_only (O O' : Sponge) (P : Params) (N : Nat) :
    (∀ d z, SameOn O O' (Oracle.keyGenCalls O P N d) → Oracle.KeyGen_internal O P N d z = Oracle.KeyGen_internal O' P N d z) ∧
    (∀ ek m, SameOn O O' (Oracle.encapsCalls O P ek m) → Oracle.Encaps_internal O P N ek m = Oracle.Encaps_internal O' P N ek m) ∧
    ∀ dk c, SameOn O O' (Oracle.decapsCalls O P dk c) → Oracle.Decaps_internal O P N dk c = Oracle.Decaps_internal O' P N dk c := by
  refine ⟨fun d z h => ?_, fun ek m h => ?_, fun dk c h => ?_⟩
  · unfold Oracle.keyGenCalls at h
    have hG := G_congr (h _ (List.mem_append_left _ (List.mem_append_left _ List.mem_cons_self)))
    have hk := keygen_congr N hG (fun q hq => h q (List.mem_append_left _ (List.mem_append_left _ (List.mem_cons_of_mem _ hq)))) fun q hq => h q (List.mem_append_left _ (List.mem_append_right _ hq))
    unfold Oracle.KeyGen_internal
    rw [← hk]
    cases hr : Oracle.K_PKE_KeyGen O P N d with
    | none => rfl
    | some r =>
      obtain ⟨ek, dk⟩ := r
      rw [hr] at h
      have hH := H_congr (h (.keyHash ek) (List.mem_append_right _ List.mem_cons_self))
      show some (ek, dk ++ ek ++ Oracle.H O ek ++ z) = some (ek, dk ++ ek ++ Oracle.H O' ek ++ z)
      rw [hH]
  · unfold Oracle.encapsCalls at h
    have hH := H_congr (h _ List.mem_cons_self)
    have hG := G_congr (h _ (List.mem_cons_of_mem _ List.mem_cons_self))
    have hE := encrypt_congr (fun q hq => h q (List.mem_cons_of_mem _ (List.mem_cons_of_mem _ hq))) N m
    unfold Oracle.Encaps_internal
    rw [← hH, ← hG]
    dsimp only
    rw [hE]
  · unfold Oracle.decapsCalls at h
    have hG := G_congr (h _ List.mem_cons_self)
    have hJ := J_congr (h _ (List.mem_cons_of_mem _ List.mem_cons_self))
    have hE := encrypt_congr (fun q hq => h q (List.mem_cons_of_mem _ (List.mem_cons_of_mem _ hq))) N (K_PKE_Decrypt P (bytes dk 0 (384 * P.k)) c)
    unfold Oracle.Decaps_internal
    dsimp only
    rw [← hG, ← hJ, hE]

/-- All calls have the lengths of `Query.Proper`, and KECCAK gets no input twice. -/
def Once (l : List Query) : Prop := (∀ q ∈ l, q.Proper) ∧ (l.map Query.input).Nodup

theorem once_of {l : List Query} (h : ∀ q ∈ l, q.Proper) (hn : l.Nodup) : Once l :=
  ⟨h, hn.map_on fun a ha b hb e => C99_separate a b (h a ha) (h b hb) e⟩

theorem nodup_entries (k : Nat) (ρ : List UInt8) : (Oracle.entries k ρ).Nodup := by
  refine List.nodup_flatMap.2 ⟨fun i _ => List.nodup_range.map fun a b e => (Query.entry.inj e).2.2, List.Nodup.pairwise_of_forall_ne List.nodup_range fun a _ b _ hab => ?_⟩
  intro q h1 h2
  obtain ⟨_, _, rfl⟩ := List.mem_map.1 h1
  obtain ⟨_, _, e⟩ := List.mem_map.1 h2
  exact hab (Query.entry.inj e).2.1.symm

theorem nodup_noises (n : Nat) (s : List UInt8) : (Oracle.noises n s).Nodup := List.nodup_range.map fun a b e => (Query.noise.inj e).2

/-- The function returns the number of bits asked for, in H and G. -/
def Lengths (O : Sponge) : Prop := (∀ M, (Oracle.SHA3_512 O M).length = 64) ∧ ∀ M, (Oracle.SHA3_256 O M).length = 32

theorem G_len {O : Sponge} (hO : Lengths O) (M : List UInt8) : (Oracle.G O M).1.length = 32 ∧ (Oracle.G O M).2.length = 32 := by
  have := hO.1 M
  exact ⟨by rw [Oracle.G, List.length_take, this]; rfl, by rw [Oracle.G, List.length_drop, this]⟩

theorem H_len {O : Sponge} (hO : Lengths O) (M : List UInt8) : (Oracle.H O M).length = 32 := hO.2 M

theorem k_le (p : ParamSet) : (fips p).k ≤ 4 := by cases p <;> decide

theorem bytes_len {B : List UInt8} {a b : Nat} (h : b ≤ B.length) : (bytes B a b).length = b - a := by
  rw [bytes, List.length_take, List.length_drop]
  omega

theorem encrypt_calls (p : ParamSet) {ek r : List UInt8} (hek : ek.length = 384 * (fips p).k + 32) (hr : r.length = 32) :
    (∀ q ∈ Oracle.encryptCalls (fips p) ek r, q.Proper) ∧ (Oracle.encryptCalls (fips p) ek r).Nodup := by
  have hk := k_le p
  refine ⟨fun q hq => ?_, List.nodup_append'.2 ⟨nodup_entries _ _, nodup_noises _ _, fun q h1 h2 => ?_⟩⟩
  · rcases List.mem_append.1 hq with hq | hq
    · obtain ⟨i, hi, j, hj, rfl⟩ := mem_entries.1 hq
      exact ⟨by rw [bytes_len (by omega)]; omega, by omega, by omega⟩
    · obtain ⟨i, hi, rfl⟩ := mem_noises.1 hq
      exact ⟨hr, by omega⟩
  · obtain ⟨i, hi, j, hj, rfl⟩ := mem_entries.1 h1
    obtain ⟨_, _, e⟩ := mem_noises.1 h2
    cases e

theorem encrypt_no {P : Params} {ek r : List UInt8} {q : Query} (h : q ∈ Oracle.encryptCalls P ek r) : (∃ ρ i j, q = .entry ρ i j) ∨ ∃ s n, q = .noise s n := by
  rcases List.mem_append.1 h with h | h
  · obtain ⟨i, _, j, _, rfl⟩ := mem_entries.1 h
    exact Or.inl ⟨_, _, _, rfl⟩
  · obtain ⟨i, _, rfl⟩ := mem_noises.1 h
    exact Or.inr ⟨_, _, rfl⟩

theorem ek_len {O : Sponge} (hO : Lengths O) {P : Params} {N : Nat} {d ek dk : List UInt8} (h : Oracle.K_PKE_KeyGen O P N d = some (ek, dk)) : ek.length = 384 * P.k + 32 := by
  have hG := (G_len hO (d ++ [UInt8.ofNat P.k])).1
  unfold Oracle.K_PKE_KeyGen at h
  generalize Oracle.G O (d ++ [UInt8.ofNat P.k]) = g at h hG
  obtain ⟨ρ, σ⟩ := g
  dsimp only at h hG
  rw [Option.bind_eq_bind, Option.bind_eq_some_iff] at h
  obtain ⟨A, _, h⟩ := h
  rw [← (Prod.mk.inj (Option.some.inj h)).1, List.length_append, concat_length fun i => byteEncode12_length _, hG]

/-- C99. In one run of key generation, encapsulation or decapsulation no input is given to KECCAK twice: each noise polynomial, each entry of the matrix and each hash value has an input of its own. This
holds for every function in the place of KECCAK that returns the number of bits asked for, so for KECCAK (next theorem). -/
theorem C99_once (O : Sponge) (hO : Lengths O) (p : ParamSet) (N : Nat) :
    (∀ d, d.length = 32 → Once (Oracle.keyGenCalls O (fips p) N d)) ∧
    (∀ ek m, ek.length = 384 * (fips p).k + 32 → m.length = 32 → Once (Oracle.encapsCalls O (fips p) ek m)) ∧
    ∀ dk c, dk.length = 768 * (fips p).k + 96 → c.length = 32 * ((fips p).du * (fips p).k + (fips p).dv) → Once (Oracle.decapsCalls O (fips p) dk c) := by
  have hk := k_le p
  refine ⟨fun d hd => ?_, fun ek m hek hm => ?_, fun dk c hdk hc => ?_⟩
  · obtain ⟨hG1, hG2⟩ := G_len hO (d ++ [UInt8.ofNat (fips p).k])
    have hlast : ∀ q ∈ (Oracle.K_PKE_KeyGen O (fips p) N d).toList.map fun r => Query.keyHash r.1, ∃ ek, q = .keyHash ek ∧ ek.length = 384 * (fips p).k + 32 := by
      intro q hq
      obtain ⟨r, hr, rfl⟩ := List.mem_map.1 hq
      exact ⟨r.1, rfl, ek_len (dk := r.2) hO (Option.mem_toList.1 hr)⟩
    have hln : ((Oracle.K_PKE_KeyGen O (fips p) N d).toList.map fun r => Query.keyHash r.1).Nodup := by
      cases Oracle.K_PKE_KeyGen O (fips p) N d with
      | none => exact List.nodup_nil
      | some r => exact List.nodup_singleton _
    unfold Oracle.keyGenCalls
    generalize ((Oracle.K_PKE_KeyGen O (fips p) N d).toList.map fun r => Query.keyHash r.1) = last at hlast hln
    generalize Oracle.G O (d ++ [UInt8.ofNat (fips p).k]) = g at hG1 hG2
    obtain ⟨ρ, σ⟩ := g
    dsimp only at hG1 hG2 ⊢
    refine once_of (fun q hq => ?_) (List.nodup_append'.2 ⟨List.nodup_append'.2 ⟨List.nodup_cons.2 ⟨fun h => ?_, nodup_entries _ _⟩, nodup_noises _ _, fun q h1 h2 => ?_⟩, hln, fun q h1 h2 => ?_⟩)
    · rcases List.mem_append.1 hq with hq | hq
      · rcases List.mem_append.1 hq with hq | hq
        · rcases List.mem_cons.1 hq with rfl | hq
          · exact ⟨hd, by omega⟩
          · obtain ⟨i, hi, j, hj, rfl⟩ := mem_entries.1 hq
            exact ⟨hG1, by omega, by omega⟩
        · obtain ⟨i, hi, rfl⟩ := mem_noises.1 hq
          exact ⟨hG2, by omega⟩
      · obtain ⟨ek, rfl, he⟩ := hlast q hq
        exact ⟨p, he⟩
    · obtain ⟨_, _, _, _, e⟩ := mem_entries.1 h
      cases e
    · obtain ⟨_, _, rfl⟩ := mem_noises.1 h2
      rcases List.mem_cons.1 h1 with e | h1
      · cases e
      · obtain ⟨_, _, _, _, e⟩ := mem_entries.1 h1
        cases e
    · obtain ⟨ek, rfl, _⟩ := hlast q h2
      rcases List.mem_append.1 h1 with h1 | h1
      · rcases List.mem_cons.1 h1 with e | h1
        · cases e
        · obtain ⟨_, _, _, _, e⟩ := mem_entries.1 h1
          cases e
      · obtain ⟨_, _, e⟩ := mem_noises.1 h1
        cases e
  · obtain ⟨h1, h2⟩ := encrypt_calls p hek (G_len hO (m ++ Oracle.H O ek)).2
    refine once_of (fun q hq => ?_) (List.nodup_cons.2 ⟨fun h => ?_, List.nodup_cons.2 ⟨fun h => ?_, h2⟩⟩)
    · rcases List.mem_cons.1 hq with rfl | hq
      · exact ⟨p, hek⟩
      rcases List.mem_cons.1 hq with rfl | hq
      · exact ⟨hm, H_len hO ek⟩
      · exact h1 q hq
    · rcases List.mem_cons.1 h with e | h
      · cases e
      · rcases encrypt_no h with ⟨_, _, _, e⟩ | ⟨_, _, e⟩ <;> cases e
    · rcases encrypt_no h with ⟨_, _, _, e⟩ | ⟨_, _, e⟩ <;> cases e
  · have hm : (K_PKE_Decrypt (fips p) (bytes dk 0 (384 * (fips p).k)) c).length = 32 := by
      unfold K_PKE_Decrypt
      dsimp only
      rw [byteEncode_length]
    unfold Oracle.decapsCalls
    generalize K_PKE_Decrypt (fips p) (bytes dk 0 (384 * (fips p).k)) c = m at hm
    dsimp only
    have hb : ∀ a b n, b ≤ 768 * (fips p).k + 96 → b - a = n → (bytes dk a b).length = n := fun a b n h e => by rw [bytes_len (by omega), e]
    obtain ⟨h1, h2⟩ := encrypt_calls p (hb (384 * (fips p).k) (768 * (fips p).k + 32) _ (by omega) (by omega))
      (G_len hO (m ++ bytes dk (768 * (fips p).k + 32) (768 * (fips p).k + 64))).2
    refine once_of (fun q hq => ?_) (List.nodup_cons.2 ⟨fun h => ?_, List.nodup_cons.2 ⟨fun h => ?_, h2⟩⟩)
    · rcases List.mem_cons.1 hq with rfl | hq
      · exact ⟨hm, hb _ _ _ (by omega) (by omega)⟩
      rcases List.mem_cons.1 hq with rfl | hq
      · exact ⟨hb _ _ _ (by omega) (by omega), p, hc⟩
      · exact h1 q hq
    · rcases List.mem_cons.1 h with e | h
      · cases e
      · rcases encrypt_no h with ⟨_, _, _, e⟩ | ⟨_, _, e⟩ <;> cases e
    · rcases encrypt_no h with ⟨_, _, _, e⟩ | ⟨_, _, e⟩ <;> cases e

/-- C99. In particular for the algorithms of the standard, which the code computes (C01, C02, C03, C48, C49, C50). -/
theorem C99_mlkem (p : ParamSet) (N : Nat) :
    (∀ d, d.length = 32 → Once (Oracle.keyGenCalls KECCAK (fips p) N d)) ∧
    (∀ ek m, ek.length = 384 * (fips p).k + 32 → m.length = 32 → Once (Oracle.encapsCalls KECCAK (fips p) ek m)) ∧
    ∀ dk c, dk.length = 768 * (fips p).k + 96 → c.length = 32 * ((fips p).du * (fips p).k + (fips p).dv) → Once (Oracle.decapsCalls KECCAK (fips p) dk c) :=
  C99_once KECCAK ⟨SHA3_512_length, SHA3_256_length⟩ p N

/-! ## Non-vacuity -/

/-- There are proper calls of each kind, and the inputs of two entries differ. -/
example : (Query.seed 3 (List.replicate 32 0)).Proper ∧ (Query.coins (List.replicate 32 0) (List.replicate 32 0)).Proper ∧ (Query.keyHash (List.replicate 800 0)).Proper ∧
    (Query.reject (List.replicate 32 0) (List.replicate 768 0)).Proper ∧ (Query.entry (List.replicate 32 0) 1 2).Proper ∧ (Query.noise (List.replicate 32 0) 8).Proper :=
  ⟨⟨rfl, by decide⟩, ⟨rfl, rfl⟩, ⟨.k2, by decide +kernel⟩, ⟨rfl, .k2, by decide +kernel⟩, ⟨rfl, by decide, by decide⟩, ⟨rfl, by decide⟩⟩

example : (Query.entry (List.replicate 32 0) 1 2).input ≠ (Query.entry (List.replicate 32 0) 2 1).input := fun h =>
  absurd (C99_separate (.entry (List.replicate 32 0) 1 2) (.entry (List.replicate 32 0) 2 1) ⟨rfl, by decide, by decide⟩ ⟨rfl, by decide, by decide⟩ h) (by decide)

example : firstState (.noise (List.replicate 32 0) 1) ≠ firstState (.seed 1 (List.replicate 32 0)) := fun h =>
  absurd (C99_states (.noise (List.replicate 32 0) 1) (.seed 1 (List.replicate 32 0)) ⟨rfl, by decide⟩ ⟨rfl, by decide⟩ h) (by decide)

/-- Without the lengths the statement is false: J with a ciphertext of one byte is PRF. -/
example : (Query.reject (List.replicate 32 0) [7]).input = (Query.noise (List.replicate 32 0) 7).input := rfl

theorem two_calls (q q' : Query) (hp : q.Proper) (hp' : q'.Proper) (hne : q ≠ q') :
    (Finset.univ.filter fun O : ({q.input, q'.input} : Finset (Nat × List Bool)) → Bool => O ⟨q.input, by simp⟩ = true ∧ O ⟨q'.input, by simp⟩ = false).card * 2 ^ 2 = 2 ^ 2 := by
  have hni : q.input ≠ q'.input := fun h => hne (C99_separate q q' hp hp' h)
  have hQ : ∀ r ∈ ({q, q'} : Finset Query), r.Proper ∧ r.input ∈ ({q.input, q'.input} : Finset (Nat × List Bool)) := fun r hr => by
    rcases Finset.mem_insert.1 hr with rfl | hr
    · exact ⟨hp, Finset.mem_insert_self _ _⟩
    · rw [Finset.mem_singleton.1 hr]
      exact ⟨hp', Finset.mem_insert_of_mem (Finset.mem_singleton_self _)⟩
  have h := C99_uniform {q.input, q'.input} {q, q'} hQ fun r => decide (r = q)
  rw [Finset.card_pair hne, Finset.card_pair hni, Fintype.card_bool] at h
  rw [← h]
  congr 2
  ext O
  rw [Finset.mem_filter, Finset.mem_filter]
  refine and_congr_right fun _ => ⟨fun h r hr => ?_, fun h => ⟨?_, ?_⟩⟩
  · rcases Finset.mem_insert.1 hr with rfl | hr'
    · rw [decide_eq_true rfl]; exact h.1
    · obtain rfl := Finset.mem_singleton.1 hr'
      rw [decide_eq_false hne.symm]; exact h.2
  · exact (h q (Finset.mem_insert_self _ _)).trans (decide_eq_true rfl)
  · exact (h q' (Finset.mem_insert_of_mem (Finset.mem_singleton_self _))).trans (decide_eq_false hne.symm)

/-- Of the functions with one bit as answer on two inputs, a quarter gives two chosen answers: one of four. -/
example : ∃ q q' : Query, q ≠ q' ∧
    (Finset.univ.filter fun O : ({q.input, q'.input} : Finset (Nat × List Bool)) → Bool => O ⟨q.input, by simp⟩ = true ∧ O ⟨q'.input, by simp⟩ = false).card * 2 ^ 2 = 2 ^ 2 :=
  ⟨.noise (List.replicate 32 0) 0, .noise (List.replicate 32 0) 1, by decide, two_calls (.noise (List.replicate 32 0) 0) (.noise (List.replicate 32 0) 1) ⟨rfl, by decide⟩ ⟨rfl, by decide⟩ (by decide)⟩

/-- A function that differs from KECCAK where no call is made. -/
example (P : Params) (N : Nat) (dk c : List UInt8) : Oracle.Decaps_internal KECCAK P N dk c = Oracle.Decaps_internal (fun a b d => if a = 0 then [] else KECCAK a b d) P N dk c := by
  refine (C99_only KECCAK _ P N).2.2 dk c fun q _ => ?_
  have : q.input.1 ≠ 0 := by cases q <;> exact Nat.succ_ne_zero _
  funext d
  exact (if_neg this).symm

example : ∃ c : List UInt8, c.length = 1088 ∧ block 1088 (paddedBits (.reject (List.replicate 32 5) c)) 0 = paddedBits (.noise (List.replicate 32 5) 4) :=
  C99_prefix .k3 (List.replicate 32 5) rfl 4

/-- Encapsulation in ML-KEM-512: 11 calls. -/
example (ek m : List UInt8) (h1 : ek.length = 800) (h2 : m.length = 32) : Once (Oracle.encapsCalls KECCAK (fips .k2) ek m) ∧ (Oracle.encapsCalls KECCAK (fips .k2) ek m).length = 11 :=
  ⟨(C99_mlkem .k2 280).2.1 ek m h1 h2, rfl⟩

end Verif.Props
