import Verif.Avx.Vm
import Verif.Model.Params

/-!
# Calls of vector code from C

The C level of the AVX2 implementation uses the same objects as the reference model: arrays of `int16_t` and of bytes. A call of a vector
program converts them to objects of the vector machine, runs the program, and converts the written object back.

Polynomials are of type `poly`, a union with `__m256i` members (avx2/align.h:7-17, avx2/poly.h:8), so they start at a 32-byte boundary. For byte
arrays the parameter `al` says so.
-/

namespace Verif.Avx

/-- A polynomial as an object of the vector machine. -/
def polyObj (r : Mem Int16) : Obj W := ⟨true, true, r.toList.map (Option.map Int16.toBitVec)⟩
def objPoly (o : Obj W) : Mem Int16 := (o.cells.map (Option.map Int16.ofBitVec)).toArray

/-- The bytes of an array from offset `off` on, as an object of the vector machine. -/
def bytesObj (al : Bool) (r : Mem UInt8) (off : Nat) : Obj W :=
  ⟨false, al, (r.toList.drop off).map (Option.map fun x => x.toBitVec.setWidth 16)⟩
/-- Put the bytes of an object back into the array it came from. -/
def objBytes (r : Mem UInt8) (off : Nat) (o : Obj W) : Mem UInt8 :=
  (r.toList.take off ++ o.cells.map (Option.map fun w => UInt8.ofBitVec (w.setWidth 8))).toArray

/-- A constant table of words. -/
def tabObj (l : List Int) : Obj W := ⟨true, true, l.map fun x => some (BitVec.ofInt 16 x)⟩
/-- Uninitialised local memory of `n` words. -/
def stackObj (n : Nat) : Obj W := ⟨true, true, List.replicate n none⟩

/-- Does the instruction store only to the objects `w`? -/
def I.stIn (w : List Nat) : I → Bool
  | .st _ o _ _ _ => w.contains o
  | _ => true

/-- Run a program on objects of which those numbered `w` may be written (a store to another one, a `const` argument or table, is an error).
The result is object 0. The trace is the sequence of addresses accessed. -/
def call (w : List Nat) (p : List I) (objs : List (Obj W)) : C (Obj W) :=
  if p.all (I.stIn w) then
    match run evalW p ⟨noRegs, objs⟩ with
    | .ok ⟨_, o :: _⟩ => .ok o (p.flatMap I.leak)
    | .ok ⟨_, []⟩ => .ub .oob
    | .error u => .ub u
  else .ub .oob

/-- A program writing polynomial `r`, its object 0. -/
def callPoly (w : List Nat) (p : List I) (r : Mem Int16) (objs : List (Obj W)) : C (Mem Int16) := do
  let o ← call w p (polyObj r :: objs)
  pure (objPoly o)

/-- A program writing bytes of `r` from offset `off` on, its object 0. -/
def callBytes (w : List Nat) (p : List I) (al : Bool) (r : Mem UInt8) (off : Nat) (objs : List (Obj W)) : C (Mem UInt8) :=
  if off ≤ r.size then do
    let o ← call w p (bytesObj al r off :: objs)
    pure (objBytes r off o)
  else .ub .oob

end Verif.Avx
