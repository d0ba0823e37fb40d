import Verif.Avx.Defined
import Verif.Avx.Poly
import Verif.Avx.Pack
import Verif.Avx.GatherOob

set_option autoImplicit false

/-!
# C68: when the AVX2 vector code is defined

The vector code has no undefined behaviour that depends on data. Two calls whose arguments agree on which elements are initialised behave in the same way:
both are undefined, in the same way, or both return, after the same memory accesses and with the same elements of the result initialised. And each of the polynomial functions
returns, with its whole result initialised, on every argument that is initialised where the function reads it, whatever the values in it: the bounds on the coefficients that the
other theorems assume are needed for the results to be right, not for the code to be defined.
-/

namespace Verif.Props
open Verif.Model Verif.Avx

attribute [local irreducible] ntt_avx invntt_avx nttunpack_avx tomont_avx reduce_avx poly_add_prog poly_sub_prog basemul_avx Avx.poly_decompress_160 Avx.poly_decompress_128 nttfrombytes_avx
  poly_frommsg_prog poly_decompress10_prog poly_decompress11_prog cbd2_prog cbd3_prog Avx.poly_compress_160 Avx.poly_compress_128 ntttobytes_avx poly_tomsg_prog poly_compress10_prog
  poly_compress11_prog qdata

/-- Two objects of the same kind with the same elements initialised. -/
def SameInit (o o' : Obj W) : Prop :=
  o.wide = o'.wide ∧ o.al = o'.al ∧ o.cells.length = o'.cells.length ∧ ∀ i : Nat, (∃ v, o.cells[i]? = some (some v)) ↔ ∃ v, o'.cells[i]? = some (some v)

/-- The outcomes of two runs are the same but for the values in the result. -/
def SameOutcome (c c' : C (Obj W)) : Prop :=
  (∃ u, c = .ub u ∧ c' = .ub u) ∨ ∃ o o' t, c = .ok o t ∧ c' = .ok o' t ∧ SameInit o o'

theorem sameInit_shape {o o' : Obj W} : SameInit o o' ↔ o.shape = o'.shape := by
  rcases o with ⟨w, al, c⟩
  rcases o' with ⟨w', al', c'⟩
  have hg : ∀ (l : List (Option W)) (i : Nat), (∃ v, l[i]? = some (some v)) ↔ (l.map (Option.map fun _ => ()))[i]? = some (some ()) := fun l i => by
    rw [List.getElem?_map]
    rcases l[i]? with _ | _ | v <;> simp
  have hn : ∀ (l : List (Option W)) (i : Nat), ¬ (∃ v, l[i]? = some (some v)) → i < l.length → (l.map (Option.map fun _ => ()))[i]? = some none := fun l i h hi => by
    rw [List.getElem?_map]
    rw [List.getElem?_eq_getElem hi] at h ⊢
    cases e : l[i] with
    | none => rfl
    | some v => exact absurd ⟨v, by rw [e]⟩ h
  simp only [SameInit, Obj.shape, Obj.map, Obj.mk.injEq]
  constructor
  · rintro ⟨rfl, rfl, hl, h⟩
    refine ⟨rfl, rfl, List.ext_getElem? fun i => ?_⟩
    by_cases hi : i < c.length
    · by_cases hc : ∃ v, c[i]? = some (some v)
      · rw [(hg c i).1 hc, (hg c' i).1 ((h i).1 hc)]
      · rw [hn c i hc hi, hn c' i (fun h' => hc ((h i).2 h')) (by omega)]
    · rw [List.getElem?_eq_none (by simp; omega), List.getElem?_eq_none (by simp; omega)]
  · rintro ⟨rfl, rfl, h⟩
    refine ⟨rfl, rfl, by simpa using congrArg List.length h, fun i => ?_⟩
    rw [hg, hg, h]

/-- **C68.** Whether a vector program is defined, and what memory it accesses, does not depend on the values it computes with. -/
theorem C68_data_independent (w : List Nat) (p : List I) (objs objs' : List (Obj W)) (h : List.Forall₂ SameInit objs objs') : SameOutcome (call w p objs) (call w p objs') := by
  have hs : objs.map Obj.shape = objs'.map Obj.shape := by
    induction h with
    | nil => rfl
    | cons h _ ih => rw [List.map_cons, List.map_cons, sameInit_shape.1 h, ih]
  rcases call_same w p hs with ⟨u, e1, e2⟩ | ⟨o, o', e1, e2, e⟩
  · exact .inl ⟨u, e1, e2⟩
  · exact .inr ⟨o, o', _, e1, e2, sameInit_shape.2 e⟩

/-- All 256 coefficients are initialised. -/
def Filled (a : Mem Int16) : Prop := a.size = 256 ∧ ∀ i, i < 256 → ∃ v, a[i]? = some (some v)

/-- The `n` bytes from offset `off` on are initialised. -/
def FilledAt (a : Mem UInt8) (off n : Nat) : Prop := ∀ i, i < n → ∃ v, a[off + i]? = some (some v)

theorem filled {a : Mem Int16} (h : a.size = 256 ∧ InitAt a 0 256) : Filled a := ⟨h.1, fun i hi => by have := h.2 i hi; rwa [Nat.zero_add] at this⟩

theorem Filled.init {a : Mem Int16} (h : Filled a) : InitAt a 0 256 := fun i hi => by rw [Nat.zero_add]; exact h.2 i hi

/-- **C68.** The transforms and reductions in place return on all coefficients. -/
theorem C68_inplace (a : Mem Int16) (ha : Filled a) :
    Runs (Avx.poly_ntt a) Filled ∧ Runs (Avx.poly_invntt_tomont a) Filled ∧ Runs (Avx.poly_nttunpack a) Filled ∧ Runs (Avx.poly_tomont a) Filled ∧
    Runs (Avx.poly_reduce a) Filled := by
  unfold Avx.poly_ntt Avx.poly_invntt_tomont Avx.poly_nttunpack Avx.poly_tomont Avx.poly_reduce
  have ho : OsLe [Q] ([tabObj qdata].map Obj.shape) := .cons (.refl _) .nil
  exact ⟨(callPoly_defined ntt_defd.1 ha.1 ntt_defd.2 (msk_cle ha.init) ho).mono fun _ => filled,
    (callPoly_defined inv_defd.1 ha.1 inv_defd.2 (msk_cle ha.init) ho).mono fun _ => filled,
    (callPoly_defined nttunpack_defd.1 ha.1 nttunpack_defd.2 (msk_cle ha.init) ho).mono fun _ => filled,
    (callPoly_defined tomont_defd.1 ha.1 tomont_defd.2 (msk_cle ha.init) ho).mono fun _ => filled,
    (callPoly_defined reduce_defd.1 ha.1 reduce_defd.2 (msk_cle ha.init) ho).mono fun _ => filled⟩

/-- **C68.** Sum, difference and product. -/
theorem C68_arith (r a b : Mem Int16) (hr : r.size = 256) (ha : Filled a) (hb : Filled b) :
    Runs (Avx.poly_add a b) Filled ∧ Runs (Avx.poly_sub a b) Filled ∧ Runs (Avx.poly_basemul_montgomery r a b) Filled := by
  unfold Avx.poly_add Avx.poly_sub Avx.poly_basemul_montgomery
  have ho : OsLe [P] ([polyObj b].map Obj.shape) := .cons (ole_poly hb.init) .nil
  have hm : OsLe [P, P, Q, (stackObj 16).shape] ([polyObj a, polyObj b, tabObj qdata, stackObj 16].map Obj.shape) :=
    .cons (ole_poly ha.init) (.cons (ole_poly hb.init) (.cons (.refl _) (.cons (.refl _) .nil)))
  exact ⟨(callPoly_defined add_defd.1 ha.1 add_defd.2 (msk_cle ha.init) ho).mono fun _ => filled,
    (callPoly_defined sub_defd.1 ha.1 sub_defd.2 (msk_cle ha.init) ho).mono fun _ => filled,
    (callPoly_defined basemul_defd.1 hr basemul_defd.2 (cle_none _ _ (by rw [msk_len, hr])) hm).mono fun _ => filled⟩

/-- **C68.** From coefficients to bytes: any coefficients, any destination with enough room. -/
theorem C68_pack (p : ParamSet) (r : Mem UInt8) (ro : Nat) (a : Mem Int16) (ha : Filled a) :
    (ro + KYBER_POLYCOMPRESSEDBYTES p ≤ r.size → Runs (Avx.poly_compress p r ro a) fun r' => r'.size = r.size ∧ FilledAt r' ro (KYBER_POLYCOMPRESSEDBYTES p)) ∧
    (ro + 384 ≤ r.size → Runs (Avx.poly_tobytes r ro a) fun r' => r'.size = r.size ∧ FilledAt r' ro 384) ∧
    (ro + 32 ≤ r.size → Runs (Avx.poly_tomsg r ro a) fun r' => r'.size = r.size ∧ FilledAt r' ro 32) ∧
    (ro + 320 ≤ r.size → Runs (Avx.poly_compress10 r ro a) fun r' => r'.size = r.size ∧ FilledAt r' ro 320) ∧
    (ro + 354 ≤ r.size → Runs (Avx.poly_compress11 r ro a) fun r' => r'.size = r.size ∧ FilledAt r' ro 352) := by
  have ho : OsLe [P, Q] ([polyObj a, tabObj qdata].map Obj.shape) := .cons (ole_poly ha.init) (.cons (.refl _) .nil)
  unfold Avx.poly_compress Avx.poly_tobytes Avx.poly_tomsg Avx.poly_compress10 Avx.poly_compress11
  refine ⟨fun h => ?_, fun h => callBytes_defined tobytes_defd.1 h tobytes_defd.2 ho, fun h => callBytes_defined tomsg_defd.1 h tomsg_defd.2 ho,
    fun h => callBytes_defined c10_defd.1 h c10_defd.2 ho, fun h => (callBytes_defined c11_defd.1 h c11_defd.2 ho).mono fun r' h' => ⟨h'.1, fun i hi => h'.2 i (by omega)⟩⟩
  cases p
  · exact callBytes_defined c128_defd.1 h c128_defd.2 ho
  · exact callBytes_defined c128_defd.1 h c128_defd.2 ho
  · exact callBytes_defined c160_defd.1 h c160_defd.2 ho

/-- **C68.** From bytes to coefficients: any bytes, any destination. -/
theorem C68_unpack (p : ParamSet) (r : Mem Int16) (a : Mem UInt8) (ao : Nat) (hr : r.size = 256) :
    (FilledAt a ao (KYBER_POLYCOMPRESSEDBYTES p) → Runs (Avx.poly_decompress p r a ao) Filled) ∧
    (FilledAt a ao 384 → Runs (Avx.poly_frombytes r a ao) Filled) ∧
    (FilledAt a ao 32 → Runs (Avx.poly_frommsg r a ao) Filled) ∧
    (FilledAt a ao 332 → Runs (Avx.poly_decompress10 r a ao) Filled) ∧
    (FilledAt a ao 362 → Runs (Avx.poly_decompress11 r a ao) Filled) ∧
    (FilledAt a 0 128 → Runs (Avx.cbd2 r a) Filled) ∧ (FilledAt a 0 200 → Runs (Avx.cbd3 r a) Filled) := by
  have hc : CLe (N 256) (msk r) := cle_none _ _ (by rw [msk_len, hr])
  have hz : ∀ {n}, 0 < n → FilledAt a ao n → ao ≤ a.size := fun {n} hn h => by
    obtain ⟨v, hv⟩ := h 0 hn
    by_contra hlt
    rw [Array.getElem?_eq_none (by omega)] at hv
    cases hv
  have ho : ∀ {al n o}, FilledAt a o n → OsLe [B al n, Q] ([bytesObj al a o, tabObj qdata].map Obj.shape) := fun h => .cons (ole_bytes h) (.cons (.refl _) .nil)
  unfold Avx.poly_decompress Avx.poly_frombytes Avx.poly_frommsg Avx.poly_decompress10 Avx.poly_decompress11 Avx.cbd2 Avx.cbd3
  refine ⟨fun h => ?_, fun h => ?_, fun h => ?_, fun h => ?_, fun h => ?_, fun h => ?_, fun h => ?_⟩
  · rw [if_pos (hz (by cases p <;> decide) h)]
    cases p
    · exact (callPoly_defined dec128_defd.1 hr dec128_defd.2 hc (ho h)).mono fun _ => filled
    · exact (callPoly_defined dec128_defd.1 hr dec128_defd.2 hc (ho h)).mono fun _ => filled
    · exact (callPoly_defined dec160_defd.1 hr dec160_defd.2 hc (ho h)).mono fun _ => filled
  · rw [if_pos (hz (by decide) h)]
    exact (callPoly_defined frombytes_defd.1 hr frombytes_defd.2 hc (ho h)).mono fun _ => filled
  · rw [if_pos (hz (by decide) h)]
    exact (callPoly_defined frommsg_defd.1 hr frommsg_defd.2 hc (ho h)).mono fun _ => filled
  · rw [if_pos (hz (by decide) h)]
    exact (callPoly_defined dec10_defd.1 hr dec10_defd.2 hc (ho h)).mono fun _ => filled
  · rw [if_pos (hz (by decide) h)]
    exact (callPoly_defined dec11_defd.1 hr dec11_defd.2 hc (ho h)).mono fun _ => filled
  · exact (callPoly_defined cbd2_defd.1 hr cbd2_defd.2 hc (ho h)).mono fun _ => filled
  · exact (callPoly_defined cbd3_defd.1 hr cbd3_defd.2 hc (ho h)).mono fun _ => filled

/-- Coefficients outside all the bounds under which the results are right. -/
def extreme : Mem Int16 := Mem.ofList (List.replicate 256 (-32768))

theorem extreme_filled : Filled extreme := by
  refine ⟨by decide +kernel, fun i hi => ⟨-32768, ?_⟩⟩
  have h : ∀ j : Fin 256, extreme[j.val]? = some (some (-32768)) := by decide +kernel
  exact h ⟨i, hi⟩

example : Runs (Avx.poly_ntt extreme) Filled := (C68_inplace extreme extreme_filled).1
example : Runs (Avx.poly_tobytes (Mem.uninit UInt8 384) 0 extreme) fun r => r.size = 384 ∧ FilledAt r 0 384 := by
  have h := (C68_pack .k3 (Mem.uninit UInt8 384) 0 extreme extreme_filled).2.1 (by rw [Mem.size_uninit])
  rwa [Mem.size_uninit] at h

theorem oneMissing_err : (match shapeRun ntt_avx [⟨true, true, none :: U 255⟩, Q] with | .error u => u == .uninit | _ => false) = true := by decide +kernel

/-- The condition is needed: one uninitialised coefficient makes the transform undefined. -/
theorem C68_needs_init (l : List Int16) (hl : l.length = 255) : Avx.poly_ntt (none :: l.map some).toArray = .ub .uninit := by
  have hm : msk (none :: l.map some).toArray = none :: U 255 := by
    have h : ∀ l : List Int16, (l.map some).map (Option.map fun _ => ()) = List.replicate l.length (some ()) := fun l => by
      induction l with
      | nil => rfl
      | cons a l ih => rw [List.map_cons, List.map_cons, ih]; rfl
    change none :: (l.map some).map (Option.map fun _ => ()) = _
    rw [h, hl, U]
  unfold Avx.poly_ntt
  refine callPoly_shape_ub (by exact ntt_defd.1) ?_
  rw [hm]
  have h := oneMissing_err
  change shapeRun ntt_avx [⟨true, true, none :: U 255⟩, Q] = _
  split at h
  · rename_i u e
    rw [e, eq_of_beq h]
  · cases h

/-- Two programs' arguments of the same shape and different values. -/
example : List.Forall₂ SameInit [polyObj extreme, tabObj qdata] [polyObj (Mem.ofList (List.replicate 256 17)), tabObj qdata] :=
  .cons (sameInit_shape.2 (by
    have e1 : msk extreme = U 256 := by decide +kernel
    have e2 : msk (Mem.ofList (List.replicate 256 (17 : Int16))) = U 256 := by decide +kernel
    rw [polyObj_shape, polyObj_shape, e1, e2])) (.cons (sameInit_shape.2 rfl) .nil)

end Verif.Props
