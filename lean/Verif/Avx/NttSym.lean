import Verif.Avx.Sym
import Verif.Avx.Asm
import Verif.Avx.Bridge
import Verif.Model.Ntt

/-! # Symbolic runs of ntt.S -/

namespace Verif.Avx

/-- The reference table of twiddle factors as natural numbers modulo 2^16. -/
def zetaN (k : Nat) : Nat := ((Model.zetasList.getD k 0).toInt % 65536).toNat

/-- Values in the butterfly network of the forward NTT. -/
def bf (x : Nat → W) : Nat → Nat → W
  | 0, i => x i
  | l + 1, i =>
    if i / 2 ^ (7 - l) % 2 = 0 then
      bf x l i + fqW (bf x l (i + 2 ^ (7 - l))) (BitVec.ofNat 16 (zetaN (2 ^ l + i / 2 ^ (8 - l))))
    else
      bf x l (i - 2 ^ (7 - l)) - fqW (bf x l i) (BitVec.ofNat 16 (zetaN (2 ^ l + i / 2 ^ (8 - l))))

/-- Is `v l i`, `v l j` a butterfly with factor `z`? -/
def isBf (l i l' j z : Nat) : Bool :=
  Nat.beq l l' && Nat.blt l 7 && Nat.beq j (i + 2 ^ (7 - l)) && Nat.beq (i / 2 ^ (7 - l) % 2) 0 && Nat.beq z (zetaN (2 ^ l + i / 2 ^ (8 - l)))

def postNtt : Ex → Ex
  | .b .add (.v l i) (.fv (.v l' j) (.lit z)) =>
    if isBf l i l' j z then .v (l + 1) i else .b .add (.v l i) (.fv (.v l' j) (.lit z))
  | .b .sub (.v l i) (.fv (.v l' j) (.lit z)) =>
    if isBf l i l' j z then .v (l + 1) j else .b .sub (.v l i) (.fv (.v l' j) (.lit z))
  | e => e

/-- Constants as symbolic cells. -/
def qcells : List (Option Ex) := qdata.map fun x => some (.lit (x % 65536).toNat)

/-- Position in the standard order of the NTT coefficient kept at memory index `m` by the AVX2 code. -/
def nttIdx (m : Nat) : Nat := 128 * (m / 128) + 8 * (m % 16) + m % 128 / 16

def permCells (l : Nat) (f : Nat → Nat) : (n i : Nat) → List (Option Ex)
  | 0, _ => []
  | n + 1, i => some (.v l (f i)) :: permCells l f n (i + 1)

def nttStart : VS Ex := ⟨noRegs, [⟨true, true, permCells 0 id 256 0⟩, ⟨true, true, qcells⟩]⟩

theorem ntt_check : headIs (run (Ex.sem postNtt) ntt_avx nttStart) (fun cs => cellsBeq cs (permCells 7 nttIdx 256 0)) = true := by decide +kernel

end Verif.Avx
