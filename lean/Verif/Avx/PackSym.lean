import Verif.Avx.BitsSound
import Verif.Avx.NttSym
import Verif.Avx.Intrin
import Verif.Avx.Bridge

/-! # Symbolic runs of the packing and unpacking code -/

namespace Verif.Avx

/-- The number of the first variable of an expression. -/
def leaf : Ex → Nat
  | .lit _ => 0
  | .v _ i => i
  | .u _ a => leaf a
  | .b _ (.lit _) c => leaf c
  | .b _ a _ => leaf a
  | .fv a _ => leaf a
  | .red a => leaf a

/-- Recognise the instances of the expression `T` at the variables of object 1, as words of `w` bits. -/
def nameT (T : Ex → Ex) (w : Nat) (e : Ex) : Option (Nat × Nat) :=
  if e.beq (T (.v 1 (leaf e))) then some (leaf e, w) else none

/-- Variables of object 1 as cells, numbered by `f`. -/
def varCells (f : Nat → Nat) : (n i : Nat) → List (Option V)
  | 0, _ => []
  | n + 1, i => some (.ex (.v 1 (f i))) :: varCells f n (i + 1)

def noCells : Nat → List (Option V)
  | 0 => []
  | n + 1 => none :: noCells n

def qV : Obj V := ⟨true, true, qdata.map fun x => some (.ex (.lit (x % 65536).toNat))⟩

/-- Objects: bytes written, polynomial read, constants. -/
def packObjs (n : Nat) : List (Obj V) := [⟨false, false, noCells n⟩, ⟨true, true, varCells id 256 0⟩, qV]
/-- Objects: polynomial written, bytes read, constants. -/
def unpackObjs (al : Bool) (n : Nat) : List (Obj V) := [⟨true, true, noCells 256⟩, ⟨false, al, varCells id n 0⟩, qV]

/-- The first `n` bits agree. -/
def bitsBeq : Nat → List Bit → List Bit → Bool
  | 0, _, _ => true
  | n + 1, as, bs => (hd as).beq (hd bs) && bitsBeq n (tl as) (tl bs)

/-- Cells from number `i` on: their bits are `f i`, `f (i+1)`, ... -/
def cellsBits (name : Ex → Option (Nat × Nat)) (num : Nat → Nat → Nat) (f : Nat → List Bit) : List (Option V) → Nat → Bool
  | [], _ => true
  | some v :: l, i =>
    match v.bits name num with
    | some bs => bitsBeq 16 bs (f i) && cellsBits name num f l (i + 1)
    | none => false
  | none :: _, _ => false

/-- Cells from number `i` on: rounded products of `f i` by `g i`, ... -/
def cellsMh (f : Nat → List Bit) (g : Nat → Nat) : List (Option V) → Nat → Bool
  | [], _ => true
  | some (.mh bs n) :: l, i => bitsBeq 16 bs (f i) && Nat.beq n (g i) && cellsMh f g l (i + 1)
  | _, _ => false

/-- Atoms that are never combined: each in a block of its own. -/
def numP (n k : Nat) : Nat := 6 * (16 * n + k)
/-- Atoms combined in groups of `g` consecutive bits of an array of bytes. -/
def numG (g n k : Nat) : Nat := 6 * ((8 * n + k) / g) + (8 * n + k) % g
/-- Bit `k` of word `n`. -/
def atomB (n k : Nat) : Bit := .atom (numP n k)

/-- Byte `m` of the packed words of `d` bits. -/
def packB (d m : Nat) : (n k : Nat) → List Bit
  | 0, _ => []
  | n + 1, k => atomB ((8 * m + k) / d) ((8 * m + k) % d) :: packB d m n (k + 1)

/-- `d` bits of an array of bytes from bit number `j` on. -/
def unpackB : (d j : Nat) → List Bit
  | 0, _ => []
  | d + 1, j => atomB (j / 8) (j % 8) :: unpackB d (j + 1)

def Tc4 (x : Ex) : Ex := .b .and (.b .mulhrs (.b .mulhi x (.lit 20159)) (.lit 512)) (.lit 15)
def Tc5 (x : Ex) : Ex := .b .and (.b .mulhrs (.b .mulhi x (.lit 20159)) (.lit 1024)) (.lit 31)
/-- Compression to 10 or 11 bits: the quotient by the reciprocal, corrected by one. -/
def Tc (off sh mask : Nat) (x : Ex) : Ex :=
  .b .and (.b .mulhrs (.b .sub (.b .mulhi (.u (.sll 3) x) (.lit 20159))
    (.u (.srl 15) (.b .andn (.b .mullo x (.lit 30200)) (.b .sub (.b .mullo x (.lit 30200)) (.b .add x (.lit off)))))) (.lit sh)) (.lit mask)
/-- Conditional subtraction of q. -/
def Tq (x : Ex) : Ex := .b .add (.b .sub x (.lit 3329)) (.b .and (.u (.sra 15) (.b .sub x (.lit 3329))) (.lit 3329))
/-- Negative iff the coefficient is nearer to q/2 than to 0. -/
def Tm (x : Ex) : Ex := .b .sub (.b .xor (.b .sub (.lit 1664) x) (.u (.sra 15) (.b .sub (.lit 1664) x))) (.lit 832)

def ntobytesObjs : List (Obj V) := [⟨false, false, noCells 384⟩, ⟨true, true, varCells nttIdx 256 0⟩, qV]

/-- Bit 15 of the words `8 m`, `8 m + 1`, ... -/
def signB (m : Nat) : (n k : Nat) → List Bit
  | 0, _ => []
  | n + 1, k => atomB (8 * m + k) 15 :: signB m n (k + 1)

/-- 1665 or 0, according to bit `k` of an array of bytes. -/
def hqB (k : Nat) : List Bit := zipB Bit.and 16 (List.replicate 16 (atomB (k / 8) (k % 8))) (litB 16 1665)

/-- Bit `k` of an array of bytes as a word. -/
def bitB (g k : Nat) : List Bit := [.atom (numG g (k / 8) (k % 8))]
def cbd2B (i : Nat) : List Bit :=
  subB 16 (addB 16 (.c false) (bitB 4 (4 * i)) (bitB 4 (4 * i + 1))) (addB 16 (.c false) (bitB 4 (4 * i + 2)) (bitB 4 (4 * i + 3)))
def cbd3B (i : Nat) : List Bit :=
  subB 16 (addB 16 (.c false) (addB 16 (.c false) (bitB 6 (6 * i)) (bitB 6 (6 * i + 1))) (bitB 6 (6 * i + 2)))
    (addB 16 (.c false) (addB 16 (.c false) (bitB 6 (6 * i + 3)) (bitB 6 (6 * i + 4))) (bitB 6 (6 * i + 5)))

def nameB : Ex → Option (Nat × Nat) := nameT id 8
def Tc10 : Ex → Ex := Tc 15 4096 1023
def Tc11 : Ex → Ex := Tc 36 8192 2047


end Verif.Avx
