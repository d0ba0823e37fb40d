import Verif.Avx.Arith
import Verif.Avx.Poly

/-! # The forward NTT of the AVX2 code -/

namespace Verif.Avx
open Verif.Spec Verif.Proof Verif.Model

/-! ## Cells -/

theorem permCells_get (l : Nat) (f : Nat → Nat) : ∀ (n i j : Nat), (permCells l f n i)[j]? = if j < n then some (some (.v l (f (i + j)))) else none
  | 0, i, j => by simp [permCells]
  | n + 1, i, 0 => by simp [permCells]
  | n + 1, i, j + 1 => by
    rw [permCells, List.getElem?_cons_succ, permCells_get l f n (i + 1) j, show i + 1 + j = i + (j + 1) from by omega]
    simp

theorem permCells_length (l : Nat) (f : Nat → Nat) : ∀ (n i : Nat), (permCells l f n i).length = n
  | 0, _ => rfl
  | n + 1, i => by rw [permCells, List.length_cons, permCells_length]

/-- Relation between expressions and lanes under an assignment of the variables. -/
abbrev ER (ρ : Nat → Nat → W) : Ex → W → Prop := fun e w => e.eval ρ = w

theorem qdata_rel (ρ : Nat → Nat → W) : ObRel (ER ρ) ⟨true, true, qcells⟩ (tabObj qdata) [] := by
  refine ⟨rfl, rfl, ?_⟩
  show CRel (ER ρ) [] qcells (qdata.map fun x => some (BitVec.ofInt 16 x))
  unfold qcells
  generalize qdata = l
  induction l with
  | nil => rfl
  | cons x l ih =>
    refine ⟨_, _, rfl, ⟨_, rfl, ?_⟩, ih⟩
    show BitVec.ofNat 16 (x % 65536).toNat = BitVec.ofInt 16 x
    apply BitVec.eq_of_toNat_eq
    simp only [BitVec.toNat_ofNat, BitVec.toNat_ofInt]
    omega

/-- A polynomial whose coefficients are the values of the variables `v l (f i)`. -/
theorem poly_rel {ρ : Nat → Nat → W} {l : Nat} {f : Nat → Nat} {r : Mem Int16} {x : Nat → Int16} (hr : r.size = 256) (hx : r.Has 0 256 x)
    (hρ : ∀ i, i < 256 → ρ l (f i) = (x i).toBitVec) : ObRel (ER ρ) ⟨true, true, permCells l f 256 0⟩ (polyObj r) [] := by
  refine ⟨rfl, rfl, ?_⟩
  have hl : (polyObj r).cells.length = 256 := by simp [polyObj, hr]
  have := CRel.of (R := ER ρ) (cs := permCells l f 256 0) (ds := (polyObj r).cells) (by rw [permCells_length, hl]) ?_
  · rwa [permCells_length, List.drop_of_length_le (by omega)] at this
  · intro i a hi
    rw [permCells_get] at hi
    split at hi
    · rename_i h
      simp only [Option.some.injEq, Nat.zero_add] at hi
      subst hi
      refine ⟨_, ?_, hρ i h⟩
      have := hx i h
      rw [Nat.zero_add] at this
      simp [polyObj, this]
    · simp at hi

/-- An output polynomial of 256 words without contents. -/
theorem poly_rel_any {ρ : Nat → Nat → W} {r : Mem Int16} (hr : r.size = 256) : ObRel (ER ρ) ⟨true, true, List.replicate 256 none⟩ (polyObj r) [] := by
  refine ⟨rfl, rfl, ?_⟩
  have hl : (polyObj r).cells.length = 256 := by simp [polyObj, hr]
  have := CRel.of (R := ER ρ) (cs := List.replicate 256 none) (ds := (polyObj r).cells) (by rw [List.length_replicate, hl]) ?_
  · rwa [List.length_replicate, List.drop_of_length_le (by omega)] at this
  · intro i a hi
    rw [List.getElem?_replicate] at hi
    split at hi <;> simp at hi

theorem objPoly_size {ρ : Nat → Nat → W} {cs : List (Option Ex)} {o : Obj W} (h : CRel (ER ρ) [] cs o.cells) : (objPoly o).size = cs.length := by
  have := h.get.1
  simp [objPoly, this]

theorem objPoly_get {ρ : Nat → Nat → W} {cs : List (Option Ex)} {o : Obj W} (h : CRel (ER ρ) [] cs o.cells) {i : Nat} {e : Ex}
    (hi : cs[i]? = some (some e)) : (objPoly o)[i]? = some (some (Int16.ofBitVec (e.eval ρ))) := by
  obtain ⟨b, hb, hR⟩ := h.get.2.2 i e hi
  simp [objPoly, hb, hR]

/-- A program acting on a polynomial, from its symbolic run. -/
theorem callPoly_runs {ρ : Nat → Nat → W} {post : Ex → Ex} (hp : ∀ e, (post e).eval ρ = e.eval ρ) {w : List Nat} {p : List I}
    {o0 : Obj Ex} {objs0 : List (Obj Ex)} {f : List (Option Ex) → Bool} (hw : p.all (I.stIn w) = true)
    (hrun : headIs (run (Ex.sem post) p ⟨noRegs, o0 :: objs0⟩) f = true)
    {r : Mem Int16} {objs : List (Obj W)} {rests : List (List (Option W))} (h0 : ObRel (ER ρ) o0 (polyObj r) []) (hs : OsRel (ER ρ) rests objs0 objs) :
    Runs (callPoly w p r objs) (fun r' => ∃ cs, f cs = true ∧ r'.size = cs.length ∧
      ∀ (i : Nat) e, cs[i]? = some (some e) → r'[i]? = some (some (Int16.ofBitVec (e.eval ρ)))) := by
  unfold callPoly
  rw [runs_bind]
  refine Runs.mono (call_runs (Ex.sound ρ hp) hw hrun (rest := []) (rests := rests) ⟨h0, hs⟩) ?_
  rintro o ⟨cs, hf, hc⟩
  exact ⟨cs, hf, objPoly_size hc, fun i e hi => objPoly_get hc hi⟩

/-- The same when the final cells are variables. -/
theorem callPoly_perm {ρ : Nat → Nat → W} {post : Ex → Ex} (hp : ∀ e, (post e).eval ρ = e.eval ρ) {w : List Nat} {p : List I}
    {o0 : Obj Ex} {objs0 : List (Obj Ex)} {l : Nat} {g : Nat → Nat} (hw : p.all (I.stIn w) = true)
    (hrun : headIs (run (Ex.sem post) p ⟨noRegs, o0 :: objs0⟩) (fun cs => cellsBeq cs (permCells l g 256 0)) = true)
    {r : Mem Int16} {objs : List (Obj W)} {rests : List (List (Option W))} (h0 : ObRel (ER ρ) o0 (polyObj r) []) (hs : OsRel (ER ρ) rests objs0 objs) :
    Runs (callPoly w p r objs) (fun r' => r'.size = 256 ∧ r'.Has 0 256 (fun m => Int16.ofBitVec (ρ l (g m)))) := by
  refine Runs.mono (callPoly_runs hp hw hrun h0 hs) ?_
  rintro r' ⟨cs, hf, hsz, hg⟩
  have := cellsBeq_eq _ _ hf
  subst this
  refine ⟨by rw [hsz, permCells_length], fun i hi => ?_⟩
  rw [Nat.zero_add]
  have := hg i (.v l (g (0 + i))) (by rw [permCells_get, if_pos hi])
  rw [Nat.zero_add] at this
  exact this

theorem zq_ofBitVec (w : W) : zq (Int16.ofBitVec w) = zw w := rfl
theorem toInt_ofBitVec (w : W) : (Int16.ofBitVec w).toInt = w.toInt := rfl

/-! ## The forward NTT -/

theorem isBf_out {l i l' j z : Nat} (h : isBf l i l' j z = true) : l = l' ∧ l < 7 ∧ j = i + 2 ^ (7 - l) ∧ i / 2 ^ (7 - l) % 2 = 0 ∧
    z = zetaN (2 ^ l + i / 2 ^ (8 - l)) := by
  unfold isBf at h
  simp only [Bool.and_eq_true] at h
  obtain ⟨⟨⟨⟨h1, h2⟩, h3⟩, h4⟩, h5⟩ := h
  exact ⟨Nat.eq_of_beq_eq_true h1, by simpa [Nat.blt] using h2, Nat.eq_of_beq_eq_true h3, Nat.eq_of_beq_eq_true h4, Nat.eq_of_beq_eq_true h5⟩

theorem blk (L i : Nat) (hL : 0 < L) (h : i / L % 2 = 0) : (i + L) / L % 2 ≠ 0 ∧ (i + L) / (2 * L) = i / (2 * L) := by
  have h1 : (i + L) / L = i / L + 1 := Nat.add_div_right i hL
  refine ⟨by omega, ?_⟩
  rw [Nat.mul_comm, ← Nat.div_div_eq_div_mul, ← Nat.div_div_eq_div_mul, h1]
  omega

theorem postNtt_eval (x : Nat → W) (e : Ex) : (postNtt e).eval (bf x) = e.eval (bf x) := by
  unfold postNtt
  split
  · rename_i l i l' j z
    split
    · rename_i h
      obtain ⟨rfl, hl, rfl, hi, rfl⟩ := isBf_out h
      simp only [Ex.eval, Op.eval, Option.getD_some]
      rw [bf, if_pos hi]
    · rfl
  · rename_i l i l' j z
    split
    · rename_i h
      obtain ⟨rfl, hl, rfl, hi, rfl⟩ := isBf_out h
      simp only [Ex.eval, Op.eval, Option.getD_some]
      have hb := blk (2 ^ (7 - l)) i (Nat.two_pow_pos _) hi
      rw [bf, if_neg hb.1, Nat.add_sub_cancel, show 2 ^ (8 - l) = 2 * 2 ^ (7 - l) from by rw [show 8 - l = 7 - l + 1 from by omega, Nat.pow_succ, Nat.mul_comm],
        hb.2]
    · rfl
  · rfl

/-- Position in terms of block, half and offset. -/
theorem pos_split (l i : Nat) (hl : l < 7) (hi : i < 256) : ∃ b x, b < 2 ^ l ∧ x < 2 ^ (7 - l) ∧ i / 2 ^ (8 - l) = b ∧
    ((i / 2 ^ (7 - l) % 2 = 0 ∧ i = b * (2 * 2 ^ (7 - l)) + x) ∨ (i / 2 ^ (7 - l) % 2 ≠ 0 ∧ i = b * (2 * 2 ^ (7 - l)) + x + 2 ^ (7 - l))) := by
  refine ⟨i / 2 ^ (8 - l), i % 2 ^ (7 - l), ?_, Nat.mod_lt _ (Nat.two_pow_pos _), rfl, ?_⟩
  · interval_cases l <;> simp <;> omega
  · interval_cases l <;> simp <;> omega

theorem bf_spec {x : Nat → W} {f : Nat → Zq} {B : Int} (hB : B ≤ 15288) (hx : ∀ i, i < 256 → zw (x i) = f i ∧ -B ≤ (x i).toInt ∧ (x i).toInt ≤ B)
    (l : Nat) (hl : l ≤ 7) : ∀ i, i < 256 → zw (bf x l i) = levI f l i ∧ -(B + 2497 * l) ≤ (bf x l i).toInt ∧ (bf x l i).toInt ≤ B + 2497 * l := by
  induction l with
  | zero => intro i hi; rw [bf, levI_zero f i hi]; simpa using hx i hi
  | succ l ih =>
    intro i hi
    have ih := ih (by omega)
    obtain ⟨b, o, hb, ho, hbi, hc⟩ := pos_split l i (by omega) hi
    have hL : 2 ^ l * (2 * 2 ^ (7 - l)) = 256 := by
      have : l < 7 := by omega
      clear ih hl hb ho hbi hc
      interval_cases l <;> rfl
    have hk : 2 ^ l + b < 128 := by
      have : 2 ^ l ≤ 64 := Nat.pow_le_pow_right (n := 2) (by omega) (show l ≤ 6 from by omega)
      omega
    obtain ⟨hz, hzb⟩ := zeta_zw hk
    have hbb : b * (2 * 2 ^ (7 - l)) + 2 * 2 ^ (7 - l) ≤ 256 := by
      rw [← hL]
      calc b * (2 * 2 ^ (7 - l)) + 2 * 2 ^ (7 - l) = (b + 1) * (2 * 2 ^ (7 - l)) := by ring
        _ ≤ 2 ^ l * (2 * 2 ^ (7 - l)) := Nat.mul_le_mul_right _ hb
    rw [bf, hbi]
    push_cast
    rcases hc with ⟨h0, hi'⟩ | ⟨h0, hi'⟩
    · rw [if_pos h0]
      obtain ⟨a1, a2, a3⟩ := ih i hi
      obtain ⟨b1, _, _⟩ := ih (i + 2 ^ (7 - l)) (by omega)
      have hf := fqW_small (bf x l (i + 2 ^ (7 - l))) _ hzb
      have hs : ((bf x l i) + fqW (bf x l (i + 2 ^ (7 - l))) (BitVec.ofNat 16 (zetaN (2 ^ l + b)))).toInt = _ := toInt_addW (by omega) (by omega)
      refine ⟨?_, by omega, by omega⟩
      have := levI_lo f l b o (by omega) hb ho
      rw [← hi'] at this
      rw [this]
      unfold zw at a1
      unfold zw
      rw [hs]
      push_cast
      rw [a1]
      have h3 := fqW_zw (bf x l (i + 2 ^ (7 - l))) (BitVec.ofNat 16 (zetaN (2 ^ l + b)))
      rw [b1, hz] at h3
      unfold zw at h3
      rw [h3]
      linear_combination (levI f l (i + 2 ^ (7 - l)) * Z (2 ^ l + b)) * zq_inv_R
    · rw [if_neg h0]
      have e1 : i - 2 ^ (7 - l) = b * (2 * 2 ^ (7 - l)) + o := by omega
      obtain ⟨a1, a2, a3⟩ := ih (i - 2 ^ (7 - l)) (by omega)
      obtain ⟨b1, _, _⟩ := ih i hi
      have hf := fqW_small (bf x l i) _ hzb
      have hs : ((bf x l (i - 2 ^ (7 - l))) - fqW (bf x l i) (BitVec.ofNat 16 (zetaN (2 ^ l + b)))).toInt = _ := toInt_subW (by omega) (by omega)
      refine ⟨?_, by omega, by omega⟩
      have := levI_hi f l b o (by omega) hb ho
      rw [← hi', ← e1] at this
      rw [this]
      unfold zw at a1
      unfold zw
      rw [hs]
      push_cast
      rw [a1]
      have h3 := fqW_zw (bf x l i) (BitVec.ofNat 16 (zetaN (2 ^ l + b)))
      rw [b1, hz] at h3
      unfold zw at h3
      rw [h3]
      linear_combination (-(levI f l i * Z (2 ^ l + b))) * zq_inv_R

theorem nttIdx_lt {m : Nat} (h : m < 256) : nttIdx m < 256 := by unfold nttIdx; omega

theorem PolyIs.has {r : Mem Int16} {f : Nat → Zq} {B : Int} (h : PolyIs r f B) : ∃ x, r.Has 0 256 x ∧ ∀ i, i < 256 → zq (x i) = f i ∧
    -B ≤ (x i).toInt ∧ (x i).toInt ≤ B := by
  have : ∀ i, ∃ x, i < 256 → r[i]? = some (some x) ∧ zq x = f i ∧ -B ≤ x.toInt ∧ x.toInt ≤ B := fun i => by
    by_cases hi : i < 256
    · obtain ⟨x, hx⟩ := h.coef i hi; exact ⟨x, fun _ => hx⟩
    · exact ⟨0, fun h => absurd h hi⟩
  choose x hx using this
  exact ⟨x, fun i hi => by rw [Nat.zero_add]; exact (hx i hi).1, fun i hi => (hx i hi).2⟩

theorem PolyIs.of_has {r : Mem Int16} {x : Nat → Int16} {f : Nat → Zq} {B : Int} (hs : r.size = 256) (hx : r.Has 0 256 x)
    (h : ∀ i, i < 256 → zq (x i) = f i ∧ -B ≤ (x i).toInt ∧ (x i).toInt ≤ B) : PolyIs r f B :=
  ⟨hs, fun i hi => ⟨x i, by have := hx i hi; rwa [Nat.zero_add] at this, h i hi⟩⟩

theorem ntt_st : ntt_avx.all (I.stIn [0]) = true := by decide +kernel

attribute [local irreducible] ntt_avx qcells qdata permCells cellsBeq headIs run in
theorem poly_ntt_exact {r : Mem Int16} {x : Nat → Int16} (hr : r.size = 256) (hx : r.Has 0 256 x) :
    Runs (poly_ntt r) (fun r' => r'.size = 256 ∧ r'.Has 0 256 (fun m => Int16.ofBitVec (bf (fun i => (x i).toBitVec) 7 (nttIdx m)))) := by
  have hp := poly_rel (ρ := bf fun i => (x i).toBitVec) (l := 0) (f := id) hr hx fun i _ => rfl
  have hq := qdata_rel (bf fun i => (x i).toBitVec)
  have hc := ntt_check
  unfold nttStart at hc
  unfold poly_ntt
  exact callPoly_perm (postNtt_eval _) (rests := [[]]) ntt_st hc hp ⟨hq, trivial⟩

theorem poly_ntt_runs {r : Mem Int16} {f : Nat → Zq} {B : Int} (h : PolyIs r f B) (hB : B ≤ 15288) :
    Runs (poly_ntt r) (fun r' => PolyIs r' (fun m => levI f 7 (nttIdx m)) (B + 17479)) := by
  obtain ⟨x, hx, hxf⟩ := PolyIs.has h
  refine Runs.mono (poly_ntt_exact h.size hx) ?_
  rintro r' ⟨hs, hh⟩
  refine PolyIs.of_has hs hh fun i hi => ?_
  rw [zq_ofBitVec, toInt_ofBitVec]
  have := bf_spec hB (x := fun i => (x i).toBitVec) hxf 7 (by omega) (nttIdx i) (nttIdx_lt hi)
  push_cast at this
  refine ⟨this.1, by linarith [this.2.1], by linarith [this.2.2]⟩

end Verif.Avx
