import Verif.Avx.NttSym

/-! # Symbolic run of invntt.S -/

namespace Verif.Avx

/-- Where the code applies a Barrett reduction to a sum: step `d` (1: multiplication by the factor, 2..8: layers), position `i`. -/
def redAt (d i : Nat) : Bool :=
  (Nat.beq d 4 && Nat.blt (i % 16) 2) || (Nat.beq d 6 && Nat.blt (i % 64) 8) || (Nat.beq d 8 && Nat.blt i 16)

/-- Values in the butterfly network of the inverse NTT. -/
def ibf (y : Nat → W) : Nat → Nat → W
  | 0, i => y i
  | 1, i => fqW (y i) 1441
  | d + 2, i =>
    if i / 2 ^ (d + 1) % 2 = 0 then
      if redAt (d + 2) i then redW (ibf y (d + 1) i + ibf y (d + 1) (i + 2 ^ (d + 1)))
      else ibf y (d + 1) i + ibf y (d + 1) (i + 2 ^ (d + 1))
    else
      fqW (ibf y (d + 1) i - ibf y (d + 1) (i - 2 ^ (d + 1))) (BitVec.ofNat 16 (zetaN (2 ^ (7 - d) - 1 - i / 2 ^ (d + 2))))

/-- Is `v d i`, `v d j` a pair of a layer? -/
def isIbf (d i d' j : Nat) : Bool :=
  Nat.beq d d' && Nat.ble 1 d && Nat.ble d 7 && Nat.beq j (i + 2 ^ d) && Nat.beq (i / 2 ^ d % 2) 0

def postInv : Ex → Ex
  | .fv (.v 0 i) (.lit 1441) => .v 1 i
  | .b .add (.v d i) (.v d' j) =>
    if isIbf d i d' j && !redAt (d + 1) i then .v (d + 1) i else .b .add (.v d i) (.v d' j)
  | .red (.b .add (.v d i) (.v d' j)) =>
    if isIbf d i d' j && redAt (d + 1) i then .v (d + 1) i else .red (.b .add (.v d i) (.v d' j))
  | .fv (.b .sub (.v d j) (.v d' i)) (.lit z) =>
    if isIbf d i d' j && Nat.beq z (zetaN (2 ^ (8 - d) - 1 - i / 2 ^ (d + 1))) then .v (d + 1) j else .fv (.b .sub (.v d j) (.v d' i)) (.lit z)
  | e => e

def invStart : VS Ex := ⟨noRegs, [⟨true, true, permCells 0 nttIdx 256 0⟩, ⟨true, true, qcells⟩]⟩

theorem inv_check : headIs (run (Ex.sem postInv) invntt_avx invStart) (fun cs => cellsBeq cs (permCells 8 id 256 0)) = true := by decide +kernel

theorem inv_st : invntt_avx.all (I.stIn [0]) = true := by decide +kernel

/-! ## Bounds -/

end Verif.Avx
