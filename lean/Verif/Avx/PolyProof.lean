import Verif.Avx.NttProof
import Verif.Avx.InvProof
import Verif.Avx.PolySym

/-! # Polynomial arithmetic of the AVX2 code -/

namespace Verif.Avx
open Verif.Spec Verif.Proof Verif.Model

/-- An element of the ring kept in the order of the AVX2 code. -/
def PolyV (r : Mem Int16) (f : Rq) (B : Int) : Prop := PolyIs r (fun m => ext f (nttIdx m)) B

theorem PolyV.mono {r : Mem Int16} {f : Rq} {B B' : Int} (h : PolyV r f B) (hB : B ≤ B') : PolyV r f B' := PolyIs.mono h hB

theorem genCells_get (g : Nat → Ex) : ∀ (n i j : Nat), (genCells g n i)[j]? = if j < n then some (some (g (i + j))) else none
  | 0, i, j => by simp [genCells]
  | n + 1, i, 0 => by simp [genCells]
  | n + 1, i, j + 1 => by
    rw [genCells, List.getElem?_cons_succ, genCells_get g n (i + 1) j, show i + 1 + j = i + (j + 1) from by omega]
    simp

theorem genCells_length (g : Nat → Ex) : ∀ (n i : Nat), (genCells g n i).length = n
  | 0, _ => rfl
  | n + 1, i => by rw [genCells, List.length_cons, genCells_length]

/-- A program on a polynomial whose symbolic result is given by a function. -/
theorem callPoly_gen {ρ : Nat → Nat → W} {post : Ex → Ex} (hp : ∀ e, (post e).eval ρ = e.eval ρ) {w : List Nat} {p : List I}
    {o0 : Obj Ex} {objs0 : List (Obj Ex)} {g : Nat → Ex} (hw : p.all (I.stIn w) = true)
    (hrun : headIs (run (Ex.sem post) p ⟨noRegs, o0 :: objs0⟩) (fun cs => cellsBeq cs (genCells g 256 0)) = true)
    {r : Mem Int16} {objs : List (Obj W)} {rests : List (List (Option W))} (h0 : ObRel (ER ρ) o0 (polyObj r) []) (hs : OsRel (ER ρ) rests objs0 objs) :
    Runs (callPoly w p r objs) (fun r' => r'.size = 256 ∧ r'.Has 0 256 (fun m => Int16.ofBitVec ((g m).eval ρ))) := by
  refine Runs.mono (callPoly_runs hp hw hrun h0 hs) ?_
  rintro r' ⟨cs, hf, hsz, hg⟩
  have := cellsBeq_eq _ _ hf
  subst this
  refine ⟨by rw [hsz, genCells_length], fun i hi => ?_⟩
  rw [Nat.zero_add]
  have := hg i (g (0 + i)) (by rw [genCells_get, if_pos hi])
  rw [Nat.zero_add] at this
  exact this

/-! ## Values, from the symbolic runs -/

attribute [local irreducible] reduce_avx qcells qdata permCells genCells cellsBeq headIs run in
theorem poly_reduce_exact {r : Mem Int16} {x : Nat → Int16} (hr : r.size = 256) (hx : r.Has 0 256 x) :
    Runs (poly_reduce r) (fun r' => r'.size = 256 ∧ r'.Has 0 256 (fun m => Int16.ofBitVec (redW (x m).toBitVec))) := by
  have hp := poly_rel (ρ := fun _ i => (x i).toBitVec) (l := 0) (f := id) hr hx fun i _ => rfl
  have hq := qdata_rel (fun _ i => (x i).toBitVec)
  have hc := reduce_check
  unfold polyCells qObj at hc
  unfold poly_reduce
  have := callPoly_gen (ρ := fun _ i => (x i).toBitVec) (fun _ => rfl) (rests := [[]]) (objs := [tabObj qdata]) reduce_st hc hp ⟨hq, trivial⟩
  simpa only [Ex.eval] using this

attribute [local irreducible] tomont_avx qcells qdata permCells genCells cellsBeq headIs run in
theorem poly_tomont_exact {r : Mem Int16} {x : Nat → Int16} (hr : r.size = 256) (hx : r.Has 0 256 x) :
    Runs (poly_tomont r) (fun r' => r'.size = 256 ∧ r'.Has 0 256 (fun m => Int16.ofBitVec (fqW (x m).toBitVec 1353#16))) := by
  have hp := poly_rel (ρ := fun _ i => (x i).toBitVec) (l := 0) (f := id) hr hx fun i _ => rfl
  have hq := qdata_rel (fun _ i => (x i).toBitVec)
  have hc := tomont_check
  unfold polyCells qObj at hc
  unfold poly_tomont
  have := callPoly_gen (ρ := fun _ i => (x i).toBitVec) (fun _ => rfl) (rests := [[]]) (objs := [tabObj qdata]) tomont_st hc hp ⟨hq, trivial⟩
  simpa only [Ex.eval] using this

attribute [local irreducible] nttunpack_avx qcells qdata permCells genCells cellsBeq headIs run in
theorem poly_nttunpack_exact {r : Mem Int16} {x : Nat → Int16} (hr : r.size = 256) (hx : r.Has 0 256 x) :
    Runs (poly_nttunpack r) (fun r' => r'.size = 256 ∧ r'.Has 0 256 (fun m => x (nttIdx m))) := by
  have hp := poly_rel (ρ := fun _ i => (x i).toBitVec) (l := 0) (f := id) hr hx fun i _ => rfl
  have hq := qdata_rel (fun _ i => (x i).toBitVec)
  have hc := nttunpack_check
  unfold polyCells qObj at hc
  unfold poly_nttunpack
  exact callPoly_perm (fun _ => rfl) (rests := [[]]) nttunpack_st hc hp ⟨hq, trivial⟩

attribute [local irreducible] poly_add_prog permCells genCells cellsBeq headIs run in
theorem poly_add_exact {r b : Mem Int16} {x y : Nat → Int16} (hr : r.size = 256) (hx : r.Has 0 256 x) (hb : b.size = 256) (hy : b.Has 0 256 y) :
    Runs (poly_add r b) (fun r' => r'.size = 256 ∧ r'.Has 0 256 (fun m => Int16.ofBitVec ((x m).toBitVec + (y m).toBitVec))) := by
  have hp := poly_rel (ρ := fun l i => if l = 0 then (x i).toBitVec else (y i).toBitVec) (l := 0) (f := id) hr hx fun i _ => rfl
  have hp' := poly_rel (ρ := fun l i => if l = 0 then (x i).toBitVec else (y i).toBitVec) (l := 1) (f := id) hb hy fun i _ => rfl
  have hc := add_check
  unfold polyCells at hc
  unfold poly_add
  exact callPoly_gen (fun _ => rfl) (rests := [[]]) add_st hc hp ⟨hp', trivial⟩

attribute [local irreducible] poly_sub_prog permCells genCells cellsBeq headIs run in
theorem poly_sub_exact {r a : Mem Int16} {x y : Nat → Int16} (hr : r.size = 256) (hx : r.Has 0 256 x) (ha : a.size = 256) (hy : a.Has 0 256 y) :
    Runs (poly_sub r a) (fun r' => r'.size = 256 ∧ r'.Has 0 256 (fun m => Int16.ofBitVec ((y m).toBitVec - (x m).toBitVec))) := by
  have hp := poly_rel (ρ := fun l i => if l = 0 then (x i).toBitVec else (y i).toBitVec) (l := 0) (f := id) hr hx fun i _ => rfl
  have hp' := poly_rel (ρ := fun l i => if l = 0 then (x i).toBitVec else (y i).toBitVec) (l := 1) (f := id) ha hy fun i _ => rfl
  have hc := sub_check
  unfold polyCells at hc
  unfold poly_sub
  exact callPoly_gen (fun _ => rfl) (rests := [[]]) sub_st hc hp ⟨hp', trivial⟩

theorem none_rel {ρ : Nat → Nat → W} (n : Nat) : ObRel (ER ρ) ⟨true, true, List.replicate n none⟩ (stackObj n) [] := by
  refine ⟨rfl, rfl, ?_⟩
  show CRel (ER ρ) [] (List.replicate n none) (List.replicate n none)
  induction n with
  | zero => rfl
  | succ n ih => exact ⟨_, _, rfl, trivial, ih⟩

attribute [local irreducible] basemul_avx mulEx qcells qdata permCells genCells cellsBeq headIs run in
theorem poly_basemul_exact {r a b : Mem Int16} {x y : Nat → Int16} (hr : r.size = 256) (ha : a.size = 256) (hx : a.Has 0 256 (fun m => x (nttIdx m)))
    (hb : b.size = 256) (hy : b.Has 0 256 (fun m => y (nttIdx m))) :
    Runs (poly_basemul_montgomery r a b) (fun r' => r'.size = 256 ∧
      r'.Has 0 256 (fun m => Int16.ofBitVec ((mulEx (nttIdx m)).eval fun l i => if l = 0 then (x i).toBitVec else (y i).toBitVec))) := by
  have h0 := poly_rel_any (ρ := fun l i => if l = 0 then (x i).toBitVec else (y i).toBitVec) hr
  have h1 := poly_rel (ρ := fun l i => if l = 0 then (x i).toBitVec else (y i).toBitVec) (l := 0) (f := nttIdx) ha hx fun i _ => rfl
  have h2 := poly_rel (ρ := fun l i => if l = 0 then (x i).toBitVec else (y i).toBitVec) (l := 1) (f := nttIdx) hb hy fun i _ => rfl
  have hq := qdata_rel (fun l i => if l = 0 then (x i).toBitVec else (y i).toBitVec)
  have h4 := none_rel (ρ := fun l i => if l = 0 then (x i).toBitVec else (y i).toBitVec) 16
  have hc := basemul_check
  unfold mulStart at hc
  unfold poly_basemul_montgomery
  exact callPoly_gen (fun _ => rfl) (rests := [[], [], [], []]) basemul_st hc h0 ⟨h1, h2, hq, h4, trivial⟩

/-! ## In terms of the ring -/

theorem poly_ntt_R {r : Mem Int16} {f : Rq} {B : Int} (h : PolyR r f B) (hB : B ≤ 15288) :
    Runs (poly_ntt r) (fun r' => PolyV r' (NTT f) (B + 17479)) :=
  Runs.mono (poly_ntt_runs h hB) fun _ h' => h'.congr fun m hm => by rw [levI_ntt f _ (nttIdx_lt hm), ext_lt]

/-- Any input words are allowed. -/
theorem poly_invntt_R {r : Mem Int16} {g : Rq} {B : Int} (h : PolyV r g B) :
    Runs (poly_invntt_tomont r) (fun r' => PolyR r' (fun i => 65536 * NTTInv g i) 14870) := by
  have h1 : PolyIs r (fun m => levI (ext (NTTInv g)) 7 (nttIdx m)) B := h.congr fun m hm => by
    rw [levI_ntt _ _ (nttIdx_lt hm), ntt_nttInv, ext_lt g (nttIdx_lt hm)]
  exact Runs.mono (poly_invntt_runs h1) fun _ h' => h'.toR fun i hi => by rw [ext_lt _ hi]

theorem poly_nttunpack_R {r : Mem Int16} {f : Rq} {B : Int} (h : PolyR r f B) : Runs (poly_nttunpack r) (fun r' => PolyV r' f B) := by
  obtain ⟨x, hx, hxf⟩ := PolyIs.has h
  refine Runs.mono (poly_nttunpack_exact h.size hx) ?_
  rintro r' ⟨hs, hh⟩
  exact PolyIs.of_has hs hh fun i hi => hxf _ (nttIdx_lt hi)

theorem poly_tomont_runs {r : Mem Int16} {f : Nat → Zq} {B : Int} (h : PolyIs r f B) :
    Runs (poly_tomont r) (fun r' => PolyIs r' (fun m => 65536 * f m) 2341) := by
  obtain ⟨x, hx, hxf⟩ := PolyIs.has h
  refine Runs.mono (poly_tomont_exact h.size hx) ?_
  rintro r' ⟨hs, hh⟩
  refine PolyIs.of_has hs hh fun i hi => ?_
  rw [zq_ofBitVec, toInt_ofBitVec, fqW_zw, show zw 1353#16 = 1353 from by decide, show zw (x i).toBitVec = f i from (hxf i hi).1]
  have hb := w_bounds (x i).toBitVec
  have := fqW_bound (a := (x i).toBitVec) (b := 1353#16) (A := 32768) (B := 1353) ⟨by omega, by omega⟩ (by decide)
  refine ⟨?_, le_trans (by norm_num) this.1, le_trans this.2 (by norm_num)⟩
  have h9 : (169 : Zq) * 1353 = 65536 := by decide
  linear_combination f i * h9

/-- Coefficients in 0..q. -/
structure PolyQ (r : Mem Int16) (f : Nat → Zq) : Prop where
  size : r.size = 256
  coef : ∀ i, i < 256 → ∃ x : Int16, r[i]? = some (some x) ∧ zq x = f i ∧ 0 ≤ x.toInt ∧ x.toInt ≤ 3329

theorem PolyQ.is {r : Mem Int16} {f : Nat → Zq} (h : PolyQ r f) : PolyIs r f 3329 :=
  ⟨h.size, fun i hi => by obtain ⟨x, h1, h2, h3, h4⟩ := h.coef i hi; exact ⟨x, h1, h2, by omega, h4⟩⟩

theorem PolyQ.has {r : Mem Int16} {f : Nat → Zq} (h : PolyQ r f) : ∃ x, r.Has 0 256 x ∧ ∀ i, i < 256 → zq (x i) = f i ∧
    0 ≤ (x i).toInt ∧ (x i).toInt ≤ 3329 := by
  have : ∀ i, ∃ x, i < 256 → r[i]? = some (some x) ∧ zq x = f i ∧ 0 ≤ x.toInt ∧ x.toInt ≤ 3329 := fun i => by
    by_cases hi : i < 256
    · obtain ⟨x, hx⟩ := h.coef i hi; exact ⟨x, fun _ => hx⟩
    · exact ⟨0, fun h => absurd h hi⟩
  choose x hx using this
  exact ⟨x, fun i hi => by rw [Nat.zero_add]; exact (hx i hi).1, fun i hi => (hx i hi).2⟩

theorem poly_reduce_runs {r : Mem Int16} {f : Nat → Zq} {B : Int} (h : PolyIs r f B) : Runs (poly_reduce r) (fun r' => PolyQ r' f) := by
  obtain ⟨x, hx, hxf⟩ := PolyIs.has h
  refine Runs.mono (poly_reduce_exact h.size hx) ?_
  rintro r' ⟨hs, hh⟩
  refine ⟨hs, fun i hi => ⟨_, by have := hh i hi; rwa [Nat.zero_add] at this, ?_⟩⟩
  rw [zq_ofBitVec, toInt_ofBitVec]
  obtain ⟨h1, h2⟩ := redW_spec (x i).toBitVec
  exact ⟨h1.trans (hxf i hi).1, h2⟩

theorem poly_add_runs {r b : Mem Int16} {f g : Nat → Zq} {A B : Int} (hr : PolyIs r f A) (hb : PolyIs b g B) (hAB : A + B ≤ 32767) :
    Runs (poly_add r b) (fun r' => PolyIs r' (fun i => f i + g i) (A + B)) := by
  obtain ⟨x, hx, hxf⟩ := PolyIs.has hr
  obtain ⟨y, hy, hyg⟩ := PolyIs.has hb
  refine Runs.mono (poly_add_exact hr.size hx hb.size hy) ?_
  rintro r' ⟨hs, hh⟩
  refine PolyIs.of_has hs hh fun i hi => ?_
  obtain ⟨h1, h2, h3⟩ := hxf i hi
  obtain ⟨h4, h5, h6⟩ := hyg i hi
  have e : ((x i).toBitVec + (y i).toBitVec).toInt = (x i).toInt + (y i).toInt :=
    toInt_addW (a := (x i).toBitVec) (b := (y i).toBitVec) (by change -32768 ≤ (x i).toInt + (y i).toInt; omega)
      (by change (x i).toInt + (y i).toInt ≤ 32767; omega)
  rw [zq_ofBitVec, toInt_ofBitVec]
  unfold zw
  rw [e]
  refine ⟨?_, by omega, by omega⟩
  push_cast
  rw [← h1, ← h4]; rfl

theorem poly_sub_runs {r a : Mem Int16} {f g : Nat → Zq} {A B : Int} (hr : PolyIs r f A) (ha : PolyIs a g B) (hAB : A + B ≤ 32767) :
    Runs (poly_sub r a) (fun r' => PolyIs r' (fun i => g i - f i) (A + B)) := by
  obtain ⟨x, hx, hxf⟩ := PolyIs.has hr
  obtain ⟨y, hy, hyg⟩ := PolyIs.has ha
  refine Runs.mono (poly_sub_exact hr.size hx ha.size hy) ?_
  rintro r' ⟨hs, hh⟩
  refine PolyIs.of_has hs hh fun i hi => ?_
  obtain ⟨h1, h2, h3⟩ := hxf i hi
  obtain ⟨h4, h5, h6⟩ := hyg i hi
  have e : ((y i).toBitVec - (x i).toBitVec).toInt = (y i).toInt - (x i).toInt :=
    toInt_subW (a := (y i).toBitVec) (b := (x i).toBitVec) (by change -32768 ≤ (y i).toInt - (x i).toInt; omega)
      (by change (y i).toInt - (x i).toInt ≤ 32767; omega)
  rw [zq_ofBitVec, toInt_ofBitVec]
  unfold zw
  rw [e]
  refine ⟨?_, by omega, by omega⟩
  push_cast
  rw [← h1, ← h4]; rfl

/-! ## Multiplication -/

theorem zw_add {a b : W} (h1 : -32768 ≤ a.toInt + b.toInt) (h2 : a.toInt + b.toInt ≤ 32767) : zw (a + b) = zw a + zw b := by
  unfold zw; rw [toInt_addW h1 h2]; push_cast; rfl

theorem zw_sub {a b : W} (h1 : -32768 ≤ a.toInt - b.toInt) (h2 : a.toInt - b.toInt ≤ 32767) : zw (a - b) = zw a - zw b := by
  unfold zw; rw [toInt_subW h1 h2]; push_cast; rfl

theorem mulEx_spec {x y : Nat → W} {f g : Rq} {A B M : Int}
    (hx : ∀ i (hi : i < 256), zw (x i) = f ⟨i, hi⟩ ∧ -A ≤ (x i).toInt ∧ (x i).toInt ≤ A)
    (hy : ∀ i (hi : i < 256), zw (y i) = g ⟨i, hi⟩ ∧ -B ≤ (y i).toInt ∧ (y i).toInt ≤ B)
    (hp : ∀ i j, i < 256 → j < 256 → -M ≤ (fqW (x i) (y j)).toInt ∧ (fqW (x i) (y j)).toInt ≤ M)
    (hM1 : 1708 ≤ M) (hM2 : M ≤ 16383) (i : Nat) (hi : i < 256) :
    zw ((mulEx i).eval fun l i => if l = 0 then x i else y i) = 169 * MultiplyNTTs f g ⟨i, hi⟩ ∧
    -(2 * M) ≤ ((mulEx i).eval fun l i => if l = 0 then x i else y i).toInt ∧
    ((mulEx i).eval fun l i => if l = 0 then x i else y i).toInt ≤ 2 * M := by
  have hz : ∀ i j k, i < 256 → j < 256 → k < 64 →
      -M ≤ (fqW (fqW (x i) (y j)) (BitVec.ofNat 16 (zetaN (64 + k)))).toInt ∧
      (fqW (fqW (x i) (y j)) (BitVec.ofNat 16 (zetaN (64 + k)))).toInt ≤ M := fun i j k hi hj hk => by
    have := fqW_bound (hp i j hi hj) (zeta_zw (k := 64 + k) (by omega)).2
    omega
  unfold mulEx
  split
  · rename_i h4
    obtain ⟨k, rfl⟩ : ∃ k, i = 4 * k := ⟨i / 4, by omega⟩
    simp only [Ex.eval, Op.eval, Option.getD_some, if_true, Nat.one_ne_zero, if_false]
    rw [show 4 * k / 4 = k from by omega]
    have b1 := hp (4 * k) (4 * k) hi hi
    have b2 := hz (4 * k + 1) (4 * k + 1) k (by omega) (by omega) (by omega)
    have e0 : (BitVec.ofNat 16 0 - fqW (x (4 * k)) (y (4 * k))).toInt = (0 : Int) - (fqW (x (4 * k)) (y (4 * k))).toInt :=
      toInt_subW (a := BitVec.ofNat 16 0) (by simp; omega) (by simp; omega)
    rw [zw_sub (by rw [e0]; omega) (by rw [e0]; omega), zw_sub (by simp; omega) (by simp; omega), toInt_subW (by rw [e0]; omega) (by rw [e0]; omega), e0]
    refine ⟨?_, by omega, by omega⟩
    have := mulNTT_even f g (2 * k) (by omega)
    rw [root_even k (by omega)] at this
    simp only [← Nat.mul_assoc, Nat.reduceMul] at this
    rw [this, fqW_zw, fqW_zw, fqW_zw, (hx _ hi).1, (hy _ hi).1, (hx (4 * k + 1) (by omega)).1, (hy (4 * k + 1) (by omega)).1,
      (zeta_zw (k := 64 + k) (by omega)).1, show zw (BitVec.ofNat 16 0) = 0 from by decide]
    linear_combination (169 * f ⟨4 * k + 1, by omega⟩ * g ⟨4 * k + 1, by omega⟩ * Z (64 + k)) * zq_inv_R
  split
  · rename_i h4
    obtain ⟨k, rfl⟩ : ∃ k, i = 4 * k + 2 := ⟨i / 4, by omega⟩
    simp only [Ex.eval, Op.eval, Option.getD_some, if_true, Nat.one_ne_zero, if_false]
    rw [show (4 * k + 2) / 4 = k from by omega]
    have b1 := hp (4 * k + 2) (4 * k + 2) hi hi
    have b2 := hz (4 * k + 2 + 1) (4 * k + 2 + 1) k (by omega) (by omega) (by omega)
    rw [zw_sub (by omega) (by omega), toInt_subW (by omega) (by omega)]
    refine ⟨?_, by omega, by omega⟩
    have := mulNTT_even f g (2 * k + 1) (by omega)
    rw [root_odd k (by omega)] at this
    simp only [Nat.mul_add, ← Nat.mul_assoc, Nat.reduceMul] at this
    rw [this, fqW_zw, fqW_zw, fqW_zw, (hx _ hi).1, (hy _ hi).1, (hx (4 * k + 2 + 1) (by omega)).1, (hy (4 * k + 2 + 1) (by omega)).1,
      (zeta_zw (k := 64 + k) (by omega)).1]
    linear_combination (-169 * f ⟨4 * k + 2 + 1, by omega⟩ * g ⟨4 * k + 2 + 1, by omega⟩ * Z (64 + k)) * zq_inv_R
  · obtain ⟨k, rfl⟩ : ∃ k, i = 2 * k + 1 := ⟨i / 2, by omega⟩
    simp only [Ex.eval, Op.eval, Option.getD_some, if_true, Nat.one_ne_zero, if_false, Nat.add_sub_cancel]
    have b1 := hp (2 * k) (2 * k + 1) (by omega) hi
    have b2 := hp (2 * k + 1) (2 * k) hi (by omega)
    rw [zw_add (by omega) (by omega), toInt_addW (by omega) (by omega)]
    refine ⟨?_, by omega, by omega⟩
    rw [mulNTT_odd f g k (by omega), fqW_zw, fqW_zw, (hx _ hi).1, (hy _ hi).1, (hx (2 * k) (by omega)).1, (hy (2 * k) (by omega)).1]
    ring

/-- One factor of absolute value below q. -/
theorem fqW_q {a b : W} (ha : -3328 ≤ a.toInt ∧ a.toInt ≤ 3328) : -3328 ≤ (fqW a b).toInt ∧ (fqW a b).toInt ≤ 3328 := by
  have hb := w_bounds b
  have := fqW_bound (a := a) (b := b) (A := 3328) (B := 32768) ha ⟨by omega, by omega⟩
  omega

theorem fqW_comm (a b : W) : fqW a b = fqW b a := by
  unfold fqW mulhiW
  rw [Int.mul_comm, show a * 62209 * b = b * 62209 * a from by ring]

/-- The core of `poly_basemul_R` with the bound of the single products given. -/
theorem poly_basemul_core {r a b : Mem Int16} {f g : Rq} {A B M : Int} (hr : r.size = 256) (ha : PolyV a f A) (hb : PolyV b g B)
    (hp : ∀ x y : W, -A ≤ x.toInt ∧ x.toInt ≤ A → -B ≤ y.toInt ∧ y.toInt ≤ B → -M ≤ (fqW x y).toInt ∧ (fqW x y).toInt ≤ M)
    (hM1 : 1708 ≤ M) (hM2 : M ≤ 16383) :
    Runs (poly_basemul_montgomery r a b) (fun r' => PolyV r' (fun i => 169 * MultiplyNTTs f g i) (2 * M)) := by
  obtain ⟨x, hx, hxf⟩ := PolyIs.has ha
  obtain ⟨y, hy, hyg⟩ := PolyIs.has hb
  have hx' : a.Has 0 256 (fun m => x (nttMem (nttIdx m))) := fun i hi => by dsimp only; rw [nttMem_nttIdx hi]; exact hx i hi
  have hy' : b.Has 0 256 (fun m => y (nttMem (nttIdx m))) := fun i hi => by dsimp only; rw [nttMem_nttIdx hi]; exact hy i hi
  refine Runs.mono (poly_basemul_exact (x := fun i => x (nttMem i)) (y := fun i => y (nttMem i)) hr ha.size hx' hb.size hy') ?_
  rintro r' ⟨hs, hh⟩
  refine PolyIs.of_has hs hh fun i hi => ?_
  rw [zq_ofBitVec, toInt_ofBitVec, ext_lt _ (nttIdx_lt hi)]
  have hxx : ∀ j (hj : j < 256), zw (x (nttMem j)).toBitVec = f ⟨j, hj⟩ ∧ -A ≤ (x (nttMem j)).toInt ∧ (x (nttMem j)).toInt ≤ A := by
    intro j hj
    have := hxf (nttMem j) (nttMem_lt hj)
    rw [nttIdx_nttMem hj, ext_lt f hj] at this
    exact this
  have hyy : ∀ j (hj : j < 256), zw (y (nttMem j)).toBitVec = g ⟨j, hj⟩ ∧ -B ≤ (y (nttMem j)).toInt ∧ (y (nttMem j)).toInt ≤ B := by
    intro j hj
    have := hyg (nttMem j) (nttMem_lt hj)
    rw [nttIdx_nttMem hj, ext_lt g hj] at this
    exact this
  exact mulEx_spec (x := fun i => (x (nttMem i)).toBitVec) (y := fun i => (y (nttMem i)).toBitVec) hxx hyy
    (fun i j hi hj => hp _ _ (hxx i hi).2 (hyy j hj).2) hM1 hM2 (nttIdx i) (nttIdx_lt hi)

theorem poly_basemul_R {r a b : Mem Int16} {f g : Rq} {A B M : Int} (hr : r.size = 256) (ha : PolyV a f A) (hb : PolyV b g B)
    (hM : (A * B + 3329 * 32768) / 65536 ≤ M) (hM1 : 1708 ≤ M) (hM2 : M ≤ 16383) :
    Runs (poly_basemul_montgomery r a b) (fun r' => PolyV r' (fun i => 169 * MultiplyNTTs f g i) (2 * M)) :=
  poly_basemul_core hr ha hb (fun x y hx hy => by have := fqW_bound hx hy; omega) hM1 hM2

/-- One factor of absolute value below q, the other arbitrary: the bound of the comment in avx2/poly.c:427-434. -/
theorem poly_basemul_q {r a b : Mem Int16} {f g : Rq} {A B : Int} (hr : r.size = 256) (ha : PolyV a f A) (hb : PolyV b g B) (h : A ≤ 3328 ∨ B ≤ 3328) :
    Runs (poly_basemul_montgomery r a b) (fun r' => PolyV r' (fun i => 169 * MultiplyNTTs f g i) 6656) :=
  poly_basemul_core (M := 3328) hr ha hb (fun x y hx hy => by
    rcases h with h | h
    · exact fqW_q ⟨by omega, by omega⟩
    · rw [fqW_comm]; exact fqW_q ⟨by omega, by omega⟩) (by norm_num) (by norm_num)

/-- Input bounded by q: the bound of the comment in avx2/poly.c:387-396. -/
theorem poly_ntt_Rq {r : Mem Int16} {f : Rq} (h : PolyR r f 3329) : Runs (poly_ntt r) (fun r' => PolyV r' (NTT f) 16118) :=
  Runs.mono (poly_ntt_tight h) fun _ h' => h'.congr fun m hm => by rw [levI_ntt f _ (nttIdx_lt hm), ext_lt]

end Verif.Avx
