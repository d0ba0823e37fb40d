import Verif.Avx.NttSym
import Verif.Avx.Intrin

/-! # Symbolic runs of fq.S, shuffle.S (nttunpack), basemul.S and of poly_add, poly_sub -/

namespace Verif.Avx

/-- Cells given by a function of the index. -/
def genCells (g : Nat → Ex) : (n i : Nat) → List (Option Ex)
  | 0, _ => []
  | n + 1, i => some (g i) :: genCells g n (i + 1)

def polyCells (l : Nat) : Obj Ex := ⟨true, true, permCells l id 256 0⟩
def qObj : Obj Ex := ⟨true, true, qcells⟩

theorem reduce_check : headIs (run (Ex.sem id) reduce_avx ⟨noRegs, [polyCells 0, qObj]⟩)
    (fun cs => cellsBeq cs (genCells (fun i => .red (.v 0 i)) 256 0)) = true := by decide +kernel

theorem tomont_check : headIs (run (Ex.sem id) tomont_avx ⟨noRegs, [polyCells 0, qObj]⟩)
    (fun cs => cellsBeq cs (genCells (fun i => .fv (.v 0 i) (.lit 1353)) 256 0)) = true := by decide +kernel

theorem nttunpack_check : headIs (run (Ex.sem id) nttunpack_avx ⟨noRegs, [polyCells 0, qObj]⟩)
    (fun cs => cellsBeq cs (permCells 0 nttIdx 256 0)) = true := by decide +kernel

/-- The value that `basemul` leaves for position `i` of the standard order. -/
def mulEx (i : Nat) : Ex :=
  if i % 4 = 0 then
    .b .sub (.fv (.fv (.v 0 (i + 1)) (.v 1 (i + 1))) (.lit (zetaN (64 + i / 4)))) (.b .sub (.lit 0) (.fv (.v 0 i) (.v 1 i)))
  else if i % 4 = 2 then
    .b .sub (.fv (.v 0 i) (.v 1 i)) (.fv (.fv (.v 0 (i + 1)) (.v 1 (i + 1))) (.lit (zetaN (64 + i / 4))))
  else
    .b .add (.fv (.v 0 (i - 1)) (.v 1 i)) (.fv (.v 0 i) (.v 1 (i - 1)))

def mulStart : VS Ex := ⟨noRegs, [⟨true, true, List.replicate 256 none⟩, ⟨true, true, permCells 0 nttIdx 256 0⟩,
  ⟨true, true, permCells 1 nttIdx 256 0⟩, ⟨true, true, qcells⟩, ⟨true, true, List.replicate 16 none⟩]⟩

theorem basemul_check : headIs (run (Ex.sem id) basemul_avx mulStart) (fun cs => cellsBeq cs (genCells (fun m => mulEx (nttIdx m)) 256 0)) = true := by
  decide +kernel

theorem add_check : headIs (run (Ex.sem id) (poly_add_prog 0 1) ⟨noRegs, [polyCells 0, polyCells 1]⟩)
    (fun cs => cellsBeq cs (genCells (fun i => .b .add (.v 0 i) (.v 1 i)) 256 0)) = true := by decide +kernel

theorem sub_check : headIs (run (Ex.sem id) (poly_sub_prog 1 0) ⟨noRegs, [polyCells 0, polyCells 1]⟩)
    (fun cs => cellsBeq cs (genCells (fun i => .b .sub (.v 1 i) (.v 0 i)) 256 0)) = true := by decide +kernel

theorem reduce_st : reduce_avx.all (I.stIn [0]) = true := by decide +kernel
theorem tomont_st : tomont_avx.all (I.stIn [0]) = true := by decide +kernel
theorem nttunpack_st : nttunpack_avx.all (I.stIn [0]) = true := by decide +kernel
theorem basemul_st : basemul_avx.all (I.stIn [0, 4]) = true := by decide +kernel
theorem add_st : (poly_add_prog 0 1).all (I.stIn [0]) = true := by decide +kernel
theorem sub_st : (poly_sub_prog 1 0).all (I.stIn [0]) = true := by decide +kernel

end Verif.Avx
