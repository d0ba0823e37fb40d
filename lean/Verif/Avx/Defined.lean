import Verif.Avx.Mono
import Verif.Avx.ShapeCall
import Verif.Avx.Poly
import Verif.Avx.Pack

/-! # Calls on arguments of which only the initialisation is known -/

namespace Verif.Avx

theorem cle_get {D : Type} {l l' : List (Option D)} (h : CLe l l') {i : Nat} {a : D} (hi : l[i]? = some (some a)) : l'[i]? = some (some a) := by
  induction h generalizing i with
  | nil => simp at hi
  | none y _ ih =>
    cases i with
    | zero => simp at hi
    | succ i => simpa using ih (by simpa using hi)
  | some b _ ih =>
    cases i with
    | zero => simpa using hi
    | succ i => simpa using ih (by simpa using hi)

theorem cle_none {D : Type} : ∀ (n : Nat) (l : List (Option D)), n ≤ l.length → CLe (List.replicate n none) l
  | 0, _, _ => .nil _
  | _ + 1, [], h => absurd h (by simp)
  | n + 1, y :: l, h => .none y (cle_none n l (by simpa using h))

theorem cle_some : ∀ (n : Nat) (l : List (Option Unit)), (∀ i, i < n → l[i]? = some (some ())) → CLe (List.replicate n (some ())) l
  | 0, _, _ => .nil _
  | n + 1, [], h => by have := h 0 (by omega); simp at this
  | n + 1, y :: l, h => by
    have h0 := h 0 (by omega)
    simp only [List.getElem?_cons_zero, Option.some.injEq] at h0
    subst h0
    exact .some () (cle_some n l fun i hi => by simpa using h (i + 1) (by omega))

/-- The `n` elements from offset `off` on are initialised. -/
def InitAt {α : Type} (m : Mem α) (off n : Nat) : Prop := ∀ i, i < n → ∃ v, m[off + i]? = some (some v)

theorem msk_at {α : Type} (m : Mem α) (i : Nat) : (msk m)[i]? = m[i]?.map (Option.map fun _ => ()) := by simp [msk]

theorem msk_drop_cle {α : Type} {m : Mem α} {off n : Nat} (h : InitAt m off n) : CLe (List.replicate n (some ())) ((msk m).drop off) := by
  refine cle_some n _ fun i hi => ?_
  obtain ⟨v, hv⟩ := h i hi
  rw [List.getElem?_drop, msk_at, hv]
  rfl

theorem msk_cle {α : Type} {m : Mem α} {n : Nat} (h : InitAt m 0 n) : CLe (List.replicate n (some ())) (msk m) := by
  have := msk_drop_cle h
  rwa [List.drop_zero] at this

theorem msk_init {α : Type} {m : Mem α} {i : Nat} (h : (msk m)[i]? = some (some ())) : ∃ v, m[i]? = some (some v) := by
  rw [msk_at] at h
  cases hm : m[i]? with
  | none => rw [hm] at h; cases h
  | some o =>
    cases o with
    | none => rw [hm] at h; cases h
    | some v => exact ⟨v, rfl⟩

theorem msk_len {α : Type} (m : Mem α) : (msk m).length = m.size := by simp [msk]

/-- Calls on objects of the same shapes have the same outcome, up to the values in the result. -/
theorem call_same (w : List Nat) (p : List I) {objs objs' : List (Obj W)} (h : objs.map Obj.shape = objs'.map Obj.shape) :
    (∃ u, call w p objs = .ub u ∧ call w p objs' = .ub u) ∨
    ∃ o o', call w p objs = .ok o (p.flatMap I.leak) ∧ call w p objs' = .ok o' (p.flatMap I.leak) ∧ o.shape = o'.shape := by
  have h1 : run shapeSem p ⟨noRegs, objs.map Obj.shape⟩ = (run evalW p ⟨noRegs, objs⟩).map (VS.map fun _ => ()) := run_map shape_hom p ⟨noRegs, objs⟩
  have h2 : run shapeSem p ⟨noRegs, objs'.map Obj.shape⟩ = (run evalW p ⟨noRegs, objs'⟩).map (VS.map fun _ => ()) := run_map shape_hom p ⟨noRegs, objs'⟩
  rw [h, h2] at h1
  unfold call
  split
  · cases e1 : run evalW p ⟨noRegs, objs⟩ <;> cases e2 : run evalW p ⟨noRegs, objs'⟩ <;> rw [e1, e2] at h1
    · simp only [Except.map, Except.error.injEq] at h1
      subst h1
      exact .inl ⟨_, rfl, rfl⟩
    · cases h1
    · cases h1
    · rename_i s s'
      rcases s with ⟨r, os⟩
      rcases s' with ⟨r', os'⟩
      simp only [Except.map, Except.ok.injEq, VS.map, VS.mk.injEq] at h1
      rcases os with _ | ⟨o, os⟩ <;> rcases os' with _ | ⟨o', os'⟩
      · exact .inl ⟨_, rfl, rfl⟩
      · cases h1.2
      · cases h1.2
      · exact .inr ⟨o, o', rfl, rfl, (List.cons.inj h1.2).1.symm⟩
  · exact .inl ⟨_, rfl, rfl⟩

/-! ## The programs on the smallest shapes -/

def U (n : Nat) : List (Option Unit) := List.replicate n (some ())
def N (n : Nat) : List (Option Unit) := List.replicate n none
def Q : Obj Unit := (tabObj qdata).shape
def P : Obj Unit := ⟨true, true, U 256⟩
def B (al : Bool) (n : Nat) : Obj Unit := ⟨false, al, U n⟩

/-- Is the outcome the result `r`? -/
def gives (c : Except UB (List (Option Unit))) (r : List (Option Unit)) : Bool :=
  match c with
  | .ok x => x == r
  | .error _ => false

theorem gives_ok {c : Except UB (List (Option Unit))} {r : List (Option Unit)} (h : gives c r = true) : c = .ok r := by
  unfold gives at h
  split at h
  · rw [eq_of_beq h]
  · cases h

/-- A call that writes all of a polynomial. -/
theorem callPoly_defined {w : List Nat} {p : List I} {r : Mem Int16} {objs : List (Obj W)} {c0 : List (Option Unit)} {os : List (Obj Unit)} (hw : p.all (I.stIn w) = true)
    (hr : r.size = 256) (hg : gives (shapeRun p (⟨true, true, c0⟩ :: os)) (U 256) = true) (hc : CLe c0 (msk r)) (hos : OsLe os (objs.map Obj.shape)) :
    Runs (callPoly w p r objs) (fun r' => r'.size = 256 ∧ InitAt r' 0 256) := by
  have h := gives_ok hg
  obtain ⟨cs, h', hle⟩ := shapeRun_mono (os := ⟨true, true, c0⟩ :: os) (os' := ⟨true, true, msk r⟩ :: objs.map Obj.shape) (.cons ⟨rfl, rfl, hc⟩ hos) h
  have hl : cs.length = (msk r).length := shapeRun_length h'
  refine (callPoly_shape hw h').mono fun r' e => ?_
  have hs : r'.size = 256 := by rw [← msk_len, e, hl, msk_len, hr]
  refine ⟨hs, fun i hi => ?_⟩
  rw [Nat.zero_add]
  refine msk_init ?_
  rw [e]
  exact cle_get hle (by rw [U, List.getElem?_replicate, if_pos hi])

/-- A call that writes `n` bytes. -/
theorem callBytes_defined {w : List Nat} {p : List I} {r : Mem UInt8} {off n k : Nat} {objs : List (Obj W)} {os : List (Obj Unit)} (hw : p.all (I.stIn w) = true)
    (hr : off + k ≤ r.size) (hg : gives (shapeRun p (⟨false, false, N k⟩ :: os)) (U n ++ N (k - n)) = true) (hos : OsLe os (objs.map Obj.shape)) :
    Runs (callBytes w p false r off objs) (fun r' => r'.size = r.size ∧ InitAt r' off n) := by
  have h := gives_ok hg
  have hk : CLe (List.replicate k none) ((msk r).drop off) := cle_none k _ (by rw [List.length_drop, msk_len]; omega)
  obtain ⟨cs, h', hle⟩ := shapeRun_mono (os := ⟨false, false, List.replicate k none⟩ :: os) (os' := ⟨false, false, (msk r).drop off⟩ :: objs.map Obj.shape) (.cons ⟨rfl, rfl, hk⟩ hos) h
  have hl : cs.length = ((msk r).drop off).length := shapeRun_length h'
  rw [List.length_drop, msk_len] at hl
  refine (callBytes_shape hw (by omega) h').mono fun r' e => ?_
  have ht : ((msk r).take off).length = off := by rw [List.length_take, msk_len]; omega
  have hs : r'.size = r.size := by rw [← msk_len, e, List.length_append, ht, hl]; omega
  refine ⟨hs, fun i hi => ?_⟩
  refine msk_init ?_
  rw [e, List.getElem?_append_right (by omega), ht, Nat.add_sub_cancel_left]
  refine cle_get hle ?_
  rw [List.getElem?_append_left (by simpa [U] using hi), U, List.getElem?_replicate, if_pos hi]

theorem ole_poly {a : Mem Int16} (h : InitAt a 0 256) : OLe P (polyObj a).shape := by
  rw [polyObj_shape]
  exact ⟨rfl, rfl, msk_cle h⟩

theorem ole_bytes {al : Bool} {a : Mem UInt8} {off n : Nat} (h : InitAt a off n) : OLe (B al n) (bytesObj al a off).shape := by
  rw [bytesObj_shape]
  exact ⟨rfl, rfl, msk_drop_cle h⟩

theorem ntt_defd : ntt_avx.all (I.stIn [0]) = true ∧ gives (shapeRun ntt_avx (⟨true, true, U 256⟩ :: [Q])) (U 256) = true := by decide +kernel
theorem inv_defd : invntt_avx.all (I.stIn [0]) = true ∧ gives (shapeRun invntt_avx (⟨true, true, U 256⟩ :: [Q])) (U 256) = true := by decide +kernel
theorem nttunpack_defd : nttunpack_avx.all (I.stIn [0]) = true ∧ gives (shapeRun nttunpack_avx (⟨true, true, U 256⟩ :: [Q])) (U 256) = true := by decide +kernel
theorem tomont_defd : tomont_avx.all (I.stIn [0]) = true ∧ gives (shapeRun tomont_avx (⟨true, true, U 256⟩ :: [Q])) (U 256) = true := by decide +kernel
theorem reduce_defd : reduce_avx.all (I.stIn [0]) = true ∧ gives (shapeRun reduce_avx (⟨true, true, U 256⟩ :: [Q])) (U 256) = true := by decide +kernel
theorem add_defd : (poly_add_prog 0 1).all (I.stIn [0]) = true ∧ gives (shapeRun (poly_add_prog 0 1) (⟨true, true, U 256⟩ :: [P])) (U 256) = true := by decide +kernel
theorem sub_defd : (poly_sub_prog 1 0).all (I.stIn [0]) = true ∧ gives (shapeRun (poly_sub_prog 1 0) (⟨true, true, U 256⟩ :: [P])) (U 256) = true := by decide +kernel
theorem basemul_defd : basemul_avx.all (I.stIn [0, 4]) = true ∧ gives (shapeRun basemul_avx (⟨true, true, N 256⟩ :: [P, P, Q, (stackObj 16).shape])) (U 256) = true := by decide +kernel
theorem dec160_defd : poly_decompress_160.all (I.stIn [0]) = true ∧ gives (shapeRun poly_decompress_160 (⟨true, true, N 256⟩ :: [B false 160, Q])) (U 256) = true := by decide +kernel
theorem dec128_defd : poly_decompress_128.all (I.stIn [0]) = true ∧ gives (shapeRun poly_decompress_128 (⟨true, true, N 256⟩ :: [B false 128, Q])) (U 256) = true := by decide +kernel
theorem frombytes_defd : nttfrombytes_avx.all (I.stIn [0]) = true ∧ gives (shapeRun nttfrombytes_avx (⟨true, true, N 256⟩ :: [B false 384, Q])) (U 256) = true := by decide +kernel
theorem frommsg_defd : poly_frommsg_prog.all (I.stIn [0]) = true ∧ gives (shapeRun poly_frommsg_prog (⟨true, true, N 256⟩ :: [B false 32, Q])) (U 256) = true := by decide +kernel
theorem dec10_defd : poly_decompress10_prog.all (I.stIn [0]) = true ∧ gives (shapeRun poly_decompress10_prog (⟨true, true, N 256⟩ :: [B false 332, Q])) (U 256) = true := by decide +kernel
theorem dec11_defd : poly_decompress11_prog.all (I.stIn [0]) = true ∧ gives (shapeRun poly_decompress11_prog (⟨true, true, N 256⟩ :: [B false 362, Q])) (U 256) = true := by decide +kernel
theorem cbd2_defd : cbd2_prog.all (I.stIn [0]) = true ∧ gives (shapeRun cbd2_prog (⟨true, true, N 256⟩ :: [B true 128, Q])) (U 256) = true := by decide +kernel
theorem cbd3_defd : cbd3_prog.all (I.stIn [0]) = true ∧ gives (shapeRun cbd3_prog (⟨true, true, N 256⟩ :: [B true 200, Q])) (U 256) = true := by decide +kernel
theorem c160_defd : poly_compress_160.all (I.stIn [0]) = true ∧ gives (shapeRun poly_compress_160 (⟨false, false, N 160⟩ :: [P, Q])) (U 160 ++ N (160 - 160)) = true := by decide +kernel
theorem c128_defd : poly_compress_128.all (I.stIn [0]) = true ∧ gives (shapeRun poly_compress_128 (⟨false, false, N 128⟩ :: [P, Q])) (U 128 ++ N (128 - 128)) = true := by decide +kernel
theorem tobytes_defd : ntttobytes_avx.all (I.stIn [0]) = true ∧ gives (shapeRun ntttobytes_avx (⟨false, false, N 384⟩ :: [P, Q])) (U 384 ++ N (384 - 384)) = true := by decide +kernel
theorem tomsg_defd : poly_tomsg_prog.all (I.stIn [0]) = true ∧ gives (shapeRun poly_tomsg_prog (⟨false, false, N 32⟩ :: [P, Q])) (U 32 ++ N (32 - 32)) = true := by decide +kernel
theorem c10_defd : poly_compress10_prog.all (I.stIn [0]) = true ∧ gives (shapeRun poly_compress10_prog (⟨false, false, N 320⟩ :: [P, Q])) (U 320 ++ N (320 - 320)) = true := by decide +kernel
theorem c11_defd : poly_compress11_prog.all (I.stIn [0]) = true ∧ gives (shapeRun poly_compress11_prog (⟨false, false, N 354⟩ :: [P, Q])) (U 354 ++ N (354 - 354)) = true := by decide +kernel

end Verif.Avx
