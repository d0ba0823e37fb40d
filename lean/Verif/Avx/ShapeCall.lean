import Verif.Avx.Shape
import Verif.C.Logic

/-! # Calls of vector programs: which cells are initialised -/

namespace Verif.Avx

/-- Which elements of an array are initialised. -/
def msk {α : Type} (r : Mem α) : List (Option Unit) := r.toList.map (Option.map fun _ => ())

theorem polyObj_shape (r : Mem Int16) : (polyObj r).shape = ⟨true, true, msk r⟩ := by
  simp [polyObj, Obj.shape, Obj.map, msk, Function.comp_def]

theorem bytesObj_shape (al : Bool) (r : Mem UInt8) (off : Nat) : (bytesObj al r off).shape = ⟨false, al, (msk r).drop off⟩ := by
  simp [bytesObj, Obj.shape, Obj.map, msk, Function.comp_def]

theorem msk_objPoly (o : Obj W) : msk (objPoly o) = o.cells.map (Option.map fun _ => ()) := by
  simp [objPoly, msk, Function.comp_def]

theorem msk_objBytes (r : Mem UInt8) (off : Nat) (o : Obj W) : msk (objBytes r off o) = (msk r).take off ++ o.cells.map (Option.map fun _ => ()) := by
  simp [objBytes, msk, Function.comp_def]

theorem call_shape_ok {w : List Nat} {p : List I} {objs : List (Obj W)} {cs : List (Option Unit)} (hw : p.all (I.stIn w) = true)
    (h : shapeRun p (objs.map Obj.shape) = .ok cs) : Runs (call w p objs) (fun o => o.cells.map (Option.map fun _ => ()) = cs) := by
  rcases call_shape hw objs with ⟨u, h', _⟩ | ⟨o, h', e⟩
  · rw [h] at h'; cases h'
  · rw [h] at h'
    cases h'
    rw [e]
    rfl

theorem call_shape_ub {w : List Nat} {p : List I} {objs : List (Obj W)} {u : UB} (hw : p.all (I.stIn w) = true)
    (h : shapeRun p (objs.map Obj.shape) = .error u) : call w p objs = .ub u := by
  rcases call_shape hw objs with ⟨u', h', e⟩ | ⟨o, h', e⟩
  · rw [h] at h'; cases h'; exact e
  · rw [h] at h'; cases h'

theorem callPoly_shape {w : List Nat} {p : List I} {r : Mem Int16} {objs : List (Obj W)} {cs : List (Option Unit)} (hw : p.all (I.stIn w) = true)
    (h : shapeRun p (⟨true, true, msk r⟩ :: objs.map Obj.shape) = .ok cs) : Runs (callPoly w p r objs) (fun r' => msk r' = cs) := by
  unfold callPoly
  rw [runs_bind]
  refine (call_shape_ok hw (cs := cs) (by rw [List.map_cons, polyObj_shape, h])).mono fun o ho => ?_
  rw [runs_pure, msk_objPoly, ho]

theorem callPoly_shape_ub {w : List Nat} {p : List I} {r : Mem Int16} {objs : List (Obj W)} {u : UB} (hw : p.all (I.stIn w) = true)
    (h : shapeRun p (⟨true, true, msk r⟩ :: objs.map Obj.shape) = .error u) : callPoly w p r objs = .ub u := by
  unfold callPoly
  rw [call_shape_ub hw (by rw [List.map_cons, polyObj_shape, h])]
  rfl

theorem callBytes_shape {w : List Nat} {p : List I} {al : Bool} {r : Mem UInt8} {off : Nat} {objs : List (Obj W)} {cs : List (Option Unit)} (hw : p.all (I.stIn w) = true) (ho : off ≤ r.size)
    (h : shapeRun p (⟨false, al, (msk r).drop off⟩ :: objs.map Obj.shape) = .ok cs) : Runs (callBytes w p al r off objs) (fun r' => msk r' = (msk r).take off ++ cs) := by
  unfold callBytes
  rw [if_pos ho, runs_bind]
  refine (call_shape_ok hw (cs := cs) (by rw [List.map_cons, bytesObj_shape, h])).mono fun o ho => ?_
  rw [runs_pure, msk_objBytes, ho]

end Verif.Avx
