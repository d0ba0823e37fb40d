import Verif.Avx.Vm
import Verif.Avx.Asm
import Verif.Model.Indcpa

/-! # avx2/rejsample.c: vectorised rejection sampling

The file has data-dependent loops, so it is not a straight-line program of `Vm`; it is written in the monad `C`, the vector instructions having the meaning
given by `lanes` of `Vm`. `BMI` is not defined (the `#define` is commented out, rejsample.c:8), so the table `idx` is used.

A store of eight words at `r + ctr` overwrites cells after the new value of `ctr` with values that the code does not use. -/

namespace Verif.Avx
open Verif.Model (Poly KYBER_Q KYBER_N XOF_BLOCKBYTES)

/-! avx2/rejsample.c:11-268 `idx`, in eight parts -/

def idxPart0 : List (List Int) :=
  [
   [-1,-1,-1,-1,-1,-1,-1,-1], [0,-1,-1,-1,-1,-1,-1,-1], [2,-1,-1,-1,-1,-1,-1,-1], [0,2,-1,-1,-1,-1,-1,-1],
   [4,-1,-1,-1,-1,-1,-1,-1], [0,4,-1,-1,-1,-1,-1,-1], [2,4,-1,-1,-1,-1,-1,-1], [0,2,4,-1,-1,-1,-1,-1],
   [6,-1,-1,-1,-1,-1,-1,-1], [0,6,-1,-1,-1,-1,-1,-1], [2,6,-1,-1,-1,-1,-1,-1], [0,2,6,-1,-1,-1,-1,-1],
   [4,6,-1,-1,-1,-1,-1,-1], [0,4,6,-1,-1,-1,-1,-1], [2,4,6,-1,-1,-1,-1,-1], [0,2,4,6,-1,-1,-1,-1],
   [8,-1,-1,-1,-1,-1,-1,-1], [0,8,-1,-1,-1,-1,-1,-1], [2,8,-1,-1,-1,-1,-1,-1], [0,2,8,-1,-1,-1,-1,-1],
   [4,8,-1,-1,-1,-1,-1,-1], [0,4,8,-1,-1,-1,-1,-1], [2,4,8,-1,-1,-1,-1,-1], [0,2,4,8,-1,-1,-1,-1],
   [6,8,-1,-1,-1,-1,-1,-1], [0,6,8,-1,-1,-1,-1,-1], [2,6,8,-1,-1,-1,-1,-1], [0,2,6,8,-1,-1,-1,-1],
   [4,6,8,-1,-1,-1,-1,-1], [0,4,6,8,-1,-1,-1,-1], [2,4,6,8,-1,-1,-1,-1], [0,2,4,6,8,-1,-1,-1]]

def idxPart1 : List (List Int) :=
  [
   [10,-1,-1,-1,-1,-1,-1,-1], [0,10,-1,-1,-1,-1,-1,-1], [2,10,-1,-1,-1,-1,-1,-1], [0,2,10,-1,-1,-1,-1,-1],
   [4,10,-1,-1,-1,-1,-1,-1], [0,4,10,-1,-1,-1,-1,-1], [2,4,10,-1,-1,-1,-1,-1], [0,2,4,10,-1,-1,-1,-1],
   [6,10,-1,-1,-1,-1,-1,-1], [0,6,10,-1,-1,-1,-1,-1], [2,6,10,-1,-1,-1,-1,-1], [0,2,6,10,-1,-1,-1,-1],
   [4,6,10,-1,-1,-1,-1,-1], [0,4,6,10,-1,-1,-1,-1], [2,4,6,10,-1,-1,-1,-1], [0,2,4,6,10,-1,-1,-1],
   [8,10,-1,-1,-1,-1,-1,-1], [0,8,10,-1,-1,-1,-1,-1], [2,8,10,-1,-1,-1,-1,-1], [0,2,8,10,-1,-1,-1,-1],
   [4,8,10,-1,-1,-1,-1,-1], [0,4,8,10,-1,-1,-1,-1], [2,4,8,10,-1,-1,-1,-1], [0,2,4,8,10,-1,-1,-1],
   [6,8,10,-1,-1,-1,-1,-1], [0,6,8,10,-1,-1,-1,-1], [2,6,8,10,-1,-1,-1,-1], [0,2,6,8,10,-1,-1,-1],
   [4,6,8,10,-1,-1,-1,-1], [0,4,6,8,10,-1,-1,-1], [2,4,6,8,10,-1,-1,-1], [0,2,4,6,8,10,-1,-1]]

def idxPart2 : List (List Int) :=
  [
   [12,-1,-1,-1,-1,-1,-1,-1], [0,12,-1,-1,-1,-1,-1,-1], [2,12,-1,-1,-1,-1,-1,-1], [0,2,12,-1,-1,-1,-1,-1],
   [4,12,-1,-1,-1,-1,-1,-1], [0,4,12,-1,-1,-1,-1,-1], [2,4,12,-1,-1,-1,-1,-1], [0,2,4,12,-1,-1,-1,-1],
   [6,12,-1,-1,-1,-1,-1,-1], [0,6,12,-1,-1,-1,-1,-1], [2,6,12,-1,-1,-1,-1,-1], [0,2,6,12,-1,-1,-1,-1],
   [4,6,12,-1,-1,-1,-1,-1], [0,4,6,12,-1,-1,-1,-1], [2,4,6,12,-1,-1,-1,-1], [0,2,4,6,12,-1,-1,-1],
   [8,12,-1,-1,-1,-1,-1,-1], [0,8,12,-1,-1,-1,-1,-1], [2,8,12,-1,-1,-1,-1,-1], [0,2,8,12,-1,-1,-1,-1],
   [4,8,12,-1,-1,-1,-1,-1], [0,4,8,12,-1,-1,-1,-1], [2,4,8,12,-1,-1,-1,-1], [0,2,4,8,12,-1,-1,-1],
   [6,8,12,-1,-1,-1,-1,-1], [0,6,8,12,-1,-1,-1,-1], [2,6,8,12,-1,-1,-1,-1], [0,2,6,8,12,-1,-1,-1],
   [4,6,8,12,-1,-1,-1,-1], [0,4,6,8,12,-1,-1,-1], [2,4,6,8,12,-1,-1,-1], [0,2,4,6,8,12,-1,-1]]

def idxPart3 : List (List Int) :=
  [
   [10,12,-1,-1,-1,-1,-1,-1], [0,10,12,-1,-1,-1,-1,-1], [2,10,12,-1,-1,-1,-1,-1], [0,2,10,12,-1,-1,-1,-1],
   [4,10,12,-1,-1,-1,-1,-1], [0,4,10,12,-1,-1,-1,-1], [2,4,10,12,-1,-1,-1,-1], [0,2,4,10,12,-1,-1,-1],
   [6,10,12,-1,-1,-1,-1,-1], [0,6,10,12,-1,-1,-1,-1], [2,6,10,12,-1,-1,-1,-1], [0,2,6,10,12,-1,-1,-1],
   [4,6,10,12,-1,-1,-1,-1], [0,4,6,10,12,-1,-1,-1], [2,4,6,10,12,-1,-1,-1], [0,2,4,6,10,12,-1,-1],
   [8,10,12,-1,-1,-1,-1,-1], [0,8,10,12,-1,-1,-1,-1], [2,8,10,12,-1,-1,-1,-1], [0,2,8,10,12,-1,-1,-1],
   [4,8,10,12,-1,-1,-1,-1], [0,4,8,10,12,-1,-1,-1], [2,4,8,10,12,-1,-1,-1], [0,2,4,8,10,12,-1,-1],
   [6,8,10,12,-1,-1,-1,-1], [0,6,8,10,12,-1,-1,-1], [2,6,8,10,12,-1,-1,-1], [0,2,6,8,10,12,-1,-1],
   [4,6,8,10,12,-1,-1,-1], [0,4,6,8,10,12,-1,-1], [2,4,6,8,10,12,-1,-1], [0,2,4,6,8,10,12,-1]]

def idxPart4 : List (List Int) :=
  [
   [14,-1,-1,-1,-1,-1,-1,-1], [0,14,-1,-1,-1,-1,-1,-1], [2,14,-1,-1,-1,-1,-1,-1], [0,2,14,-1,-1,-1,-1,-1],
   [4,14,-1,-1,-1,-1,-1,-1], [0,4,14,-1,-1,-1,-1,-1], [2,4,14,-1,-1,-1,-1,-1], [0,2,4,14,-1,-1,-1,-1],
   [6,14,-1,-1,-1,-1,-1,-1], [0,6,14,-1,-1,-1,-1,-1], [2,6,14,-1,-1,-1,-1,-1], [0,2,6,14,-1,-1,-1,-1],
   [4,6,14,-1,-1,-1,-1,-1], [0,4,6,14,-1,-1,-1,-1], [2,4,6,14,-1,-1,-1,-1], [0,2,4,6,14,-1,-1,-1],
   [8,14,-1,-1,-1,-1,-1,-1], [0,8,14,-1,-1,-1,-1,-1], [2,8,14,-1,-1,-1,-1,-1], [0,2,8,14,-1,-1,-1,-1],
   [4,8,14,-1,-1,-1,-1,-1], [0,4,8,14,-1,-1,-1,-1], [2,4,8,14,-1,-1,-1,-1], [0,2,4,8,14,-1,-1,-1],
   [6,8,14,-1,-1,-1,-1,-1], [0,6,8,14,-1,-1,-1,-1], [2,6,8,14,-1,-1,-1,-1], [0,2,6,8,14,-1,-1,-1],
   [4,6,8,14,-1,-1,-1,-1], [0,4,6,8,14,-1,-1,-1], [2,4,6,8,14,-1,-1,-1], [0,2,4,6,8,14,-1,-1]]

def idxPart5 : List (List Int) :=
  [
   [10,14,-1,-1,-1,-1,-1,-1], [0,10,14,-1,-1,-1,-1,-1], [2,10,14,-1,-1,-1,-1,-1], [0,2,10,14,-1,-1,-1,-1],
   [4,10,14,-1,-1,-1,-1,-1], [0,4,10,14,-1,-1,-1,-1], [2,4,10,14,-1,-1,-1,-1], [0,2,4,10,14,-1,-1,-1],
   [6,10,14,-1,-1,-1,-1,-1], [0,6,10,14,-1,-1,-1,-1], [2,6,10,14,-1,-1,-1,-1], [0,2,6,10,14,-1,-1,-1],
   [4,6,10,14,-1,-1,-1,-1], [0,4,6,10,14,-1,-1,-1], [2,4,6,10,14,-1,-1,-1], [0,2,4,6,10,14,-1,-1],
   [8,10,14,-1,-1,-1,-1,-1], [0,8,10,14,-1,-1,-1,-1], [2,8,10,14,-1,-1,-1,-1], [0,2,8,10,14,-1,-1,-1],
   [4,8,10,14,-1,-1,-1,-1], [0,4,8,10,14,-1,-1,-1], [2,4,8,10,14,-1,-1,-1], [0,2,4,8,10,14,-1,-1],
   [6,8,10,14,-1,-1,-1,-1], [0,6,8,10,14,-1,-1,-1], [2,6,8,10,14,-1,-1,-1], [0,2,6,8,10,14,-1,-1],
   [4,6,8,10,14,-1,-1,-1], [0,4,6,8,10,14,-1,-1], [2,4,6,8,10,14,-1,-1], [0,2,4,6,8,10,14,-1]]

def idxPart6 : List (List Int) :=
  [
   [12,14,-1,-1,-1,-1,-1,-1], [0,12,14,-1,-1,-1,-1,-1], [2,12,14,-1,-1,-1,-1,-1], [0,2,12,14,-1,-1,-1,-1],
   [4,12,14,-1,-1,-1,-1,-1], [0,4,12,14,-1,-1,-1,-1], [2,4,12,14,-1,-1,-1,-1], [0,2,4,12,14,-1,-1,-1],
   [6,12,14,-1,-1,-1,-1,-1], [0,6,12,14,-1,-1,-1,-1], [2,6,12,14,-1,-1,-1,-1], [0,2,6,12,14,-1,-1,-1],
   [4,6,12,14,-1,-1,-1,-1], [0,4,6,12,14,-1,-1,-1], [2,4,6,12,14,-1,-1,-1], [0,2,4,6,12,14,-1,-1],
   [8,12,14,-1,-1,-1,-1,-1], [0,8,12,14,-1,-1,-1,-1], [2,8,12,14,-1,-1,-1,-1], [0,2,8,12,14,-1,-1,-1],
   [4,8,12,14,-1,-1,-1,-1], [0,4,8,12,14,-1,-1,-1], [2,4,8,12,14,-1,-1,-1], [0,2,4,8,12,14,-1,-1],
   [6,8,12,14,-1,-1,-1,-1], [0,6,8,12,14,-1,-1,-1], [2,6,8,12,14,-1,-1,-1], [0,2,6,8,12,14,-1,-1],
   [4,6,8,12,14,-1,-1,-1], [0,4,6,8,12,14,-1,-1], [2,4,6,8,12,14,-1,-1], [0,2,4,6,8,12,14,-1]]

def idxPart7 : List (List Int) :=
  [
   [10,12,14,-1,-1,-1,-1,-1], [0,10,12,14,-1,-1,-1,-1], [2,10,12,14,-1,-1,-1,-1], [0,2,10,12,14,-1,-1,-1],
   [4,10,12,14,-1,-1,-1,-1], [0,4,10,12,14,-1,-1,-1], [2,4,10,12,14,-1,-1,-1], [0,2,4,10,12,14,-1,-1],
   [6,10,12,14,-1,-1,-1,-1], [0,6,10,12,14,-1,-1,-1], [2,6,10,12,14,-1,-1,-1], [0,2,6,10,12,14,-1,-1],
   [4,6,10,12,14,-1,-1,-1], [0,4,6,10,12,14,-1,-1], [2,4,6,10,12,14,-1,-1], [0,2,4,6,10,12,14,-1],
   [8,10,12,14,-1,-1,-1,-1], [0,8,10,12,14,-1,-1,-1], [2,8,10,12,14,-1,-1,-1], [0,2,8,10,12,14,-1,-1],
   [4,8,10,12,14,-1,-1,-1], [0,4,8,10,12,14,-1,-1], [2,4,8,10,12,14,-1,-1], [0,2,4,8,10,12,14,-1],
   [6,8,10,12,14,-1,-1,-1], [0,6,8,10,12,14,-1,-1], [2,6,8,10,12,14,-1,-1], [0,2,6,8,10,12,14,-1],
   [4,6,8,10,12,14,-1,-1], [0,4,6,8,10,12,14,-1], [2,4,6,8,10,12,14,-1], [0,2,4,6,8,10,12,14]]
def idxTable : List (List Int) := idxPart0 ++ idxPart1 ++ idxPart2 ++ idxPart3 ++ idxPart4 ++ idxPart5 ++ idxPart6 ++ idxPart7

/-- The table as bytes: the initialiser -1 becomes 255. -/
def idxMem : Mem UInt8 := Mem.ofList (idxTable.flatten.map fun x => UInt8.ofNat (x % 256).toNat)

/-- A vector instruction between variables; `n` words. -/
def vop (f : Fn) (args : List (List W)) (n : Nat) : C (List W) :=
  match lanes evalW f args n 0 with
  | some l => .ok l []
  | none => .ub .narrow

/-- `_mm256_loadu_si256` (`n = 16`), `_mm_loadu_si128` (`n = 8`), the low part of `_mm_loadl_epi64` (`n = 4`): `n` words. -/
def loadWords (m : Mem UInt8) (o n : Nat) : C (List W) :=
  cfor 0 n [] fun i l => do
    let x ← rd m (o + 2 * i)
    let y ← rd m (o + 2 * i + 1)
    pure (l ++ [ofBytes x.toBitVec y.toBitVec])

/-- `_mm_storeu_si128` to an array of `int16_t`. -/
def storeWords (r : Mem Int16) (o : Nat) (l : List W) : C (Mem Int16) :=
  cfor 0 l.length r fun i r => wr r (o + i) (Int16.ofBitVec (l.getD i 0))

/-- `_mm_popcnt_u32` -/
def popcnt (x : Nat) : Nat := ((List.range 32).filter fun i => x.testBit i).length

/-- `_pext_u32`: the bits of `x` at the positions of the ones of the mask, packed. First argument: number of bits left. -/
def pext : Nat → Nat → Nat → Nat
  | 0, _, _ => 0
  | n + 1, x, m => if m % 2 = 1 then x % 2 + 2 * pext n (x / 2) (m / 2) else pext n (x / 2) (m / 2)

/-- avx2/rejsample.h:8-9 -/
def REJ_UNIFORM_AVX_NBLOCKS : Nat := (12 * KYBER_N / 8 * (1 <<< 12) / KYBER_Q + XOF_BLOCKBYTES) / XOF_BLOCKBYTES
def REJ_UNIFORM_AVX_BUFLEN : Nat := REJ_UNIFORM_AVX_NBLOCKS * XOF_BLOCKBYTES

/-- rejsample.c:282-285. `_mm256_set_epi8` lists the bytes from the most significant one. -/
def bound : List W := ((qdata.drop _16XQ).take 16).map fun x => BitVec.ofInt 16 x
def ones : List W := List.replicate 16 (ofBytes 1 1)
def mask12 : List W := List.replicate 16 0xFFF
def bytesWords : List Nat → List W
  | a :: b :: l => ofBytes (BitVec.ofNat 8 a) (BitVec.ofNat 8 b) :: bytesWords l
  | _ => []
def idx8 : List W := bytesWords
  [15,14,14,13,12,11,11,10,
    9, 8, 8, 7, 6, 5, 5, 4,
   11,10,10, 9, 8, 7, 7, 6,
    5, 4, 4, 3, 2, 1, 1, 0].reverse

/-- `_mm_loadl_epi64((__m128i *)&idx[g])`: the upper eight bytes are zero. -/
def idxRow (g : Nat) : C (List W) := do
  let l ← loadWords idxMem (8 * g) 4
  pure (l ++ [0, 0, 0, 0])

/-- rejsample.c:294-305, for one of `f0`, `f1`: load at `pos`, spread to words, mask. -/
def words16 (buf : Mem UInt8) (pos : Nat) : C (List W) := do
  let f ← loadWords buf pos 16
  let f ← vop (.permq 0x94) [f] 16
  let f ← vop .pshufb [f, idx8] 16
  let g ← vop (.lw (.srl 4)) [f] 16
  let f ← vop (.blendw 0xAA) [f, g] 16
  vop (.lw .and) [f, mask12] 16

/-- rejsample.c:339-345, for one of `(f0, g0)`, `(f1, g1)`. -/
def select16 (f g : List W) : C (List W) := do
  let g' ← vop (.lw .add8) [g, ones] 16
  let g ← vop .unpcklbw [g, g'] 16
  vop .pshufb [f, g] 16

/-- rejsample.c:294-354, the body of the first loop. The instructions on `f0` and on `f1` are independent and are listed one group after the other. -/
def rejBody32 (r : Poly) (ctr pos : Nat) (buf : Mem UInt8) : C (Poly × Nat × Nat) := do
  let f0 ← words16 buf pos
  let f1 ← words16 buf (pos + 24)
  let pos := pos + 48
  let g0 ← vop (.lw .cmpgt) [bound, f0] 16
  let g1 ← vop (.lw .cmpgt) [bound, f1] 16
  let g0 ← vop .packsswb [g0, g1] 16
  let m ← vop .pmovmskb [g0] 2
  let good := (cat32 (m.getD 0 0) (m.getD 1 0)).toNat
  let t0 ← idxRow ((good >>> 0) &&& 0xFF)
  let t1 ← idxRow ((good >>> 8) &&& 0xFF)
  let t2 ← idxRow ((good >>> 16) &&& 0xFF)
  let g0 ← vop (.perm2i128 0x20) [t0, t2] 16
  let t3 ← idxRow ((good >>> 24) &&& 0xFF)
  let g1 ← vop (.perm2i128 0x20) [t1, t3] 16
  let f0 ← select16 f0 g0
  let f1 ← select16 f1 g1
  let r ← storeWords r ctr (← vop .lowhalf [f0] 8)
  let ctr := ctr + popcnt ((good >>> 0) &&& 0xFF)
  let r ← storeWords r ctr (← vop .highhalf [f0] 8)
  let ctr := ctr + popcnt ((good >>> 16) &&& 0xFF)
  let r ← storeWords r ctr (← vop .lowhalf [f1] 8)
  let ctr := ctr + popcnt ((good >>> 8) &&& 0xFF)
  let r ← storeWords r ctr (← vop .highhalf [f1] 8)
  let ctr := ctr + popcnt ((good >>> 24) &&& 0xFF)
  pure (r, ctr, pos)

/-- rejsample.c:358-383, the body of the second loop. -/
def rejBody8 (r : Poly) (ctr pos : Nat) (buf : Mem UInt8) : C (Poly × Nat × Nat) := do
  let f ← loadWords buf pos 8
  let f ← vop .pshufb [f, idx8.take 8] 8
  let t ← vop (.lw (.srl 4)) [f] 8
  let f ← vop (.blendw 0xAA) [f, t] 8
  let f ← vop (.lw .and) [f, mask12.take 8] 8
  let pos := pos + 12
  let t ← vop (.lw .cmpgt) [bound.take 8, f] 8
  let m ← vop .pmovmskb [t] 1
  let good := pext 32 (m.getD 0 0).toNat 0x5555
  let pilo ← idxRow good
  let pihi ← vop (.lw .add8) [pilo, ones.take 8] 8
  let pilo ← vop .unpcklbw [pilo, pihi] 8
  let f ← vop .pshufb [f, pilo] 8
  let r ← storeWords r ctr f
  pure (r, ctr + popcnt good, pos)

/-- rejsample.c:387-394, the body of the third loop. -/
def rejBody1 (r : Poly) (ctr pos : Nat) (buf : Mem UInt8) : C (Poly × Nat × Nat) := do
  let val0 := UInt16.ofNat ((((← rd buf (pos + 0)).toNat >>> 0) ||| ((← rd buf (pos + 1)).toNat <<< 8)) &&& 0xFFF)
  let val1 := UInt16.ofNat (((← rd buf (pos + 1)).toNat >>> 4) ||| ((← rd buf (pos + 2)).toNat <<< 4))
  let pos := pos + 3
  let (r, ctr) ← cif (decide (val0.toNat < KYBER_Q))
    (do let r ← wr r ctr (i16 val0.toNat); pure (r, ctr + 1))
    (pure (r, ctr))
  let (r, ctr) ← cif (decide (val1.toNat < KYBER_Q) && decide (ctr < KYBER_N))
    (do let r ← wr r ctr (i16 val1.toNat); pure (r, ctr + 1))
    (pure (r, ctr))
  pure (r, ctr, pos)

/-- avx2/rejsample.c:274-398 `rej_uniform_avx`. Loop state `(r, ctr, pos)`; each iteration advances `pos`, so the numbers of tests suffice. -/
def rej_uniform_avx (r : Poly) (buf : Mem UInt8) : C (Poly × Nat) := do
  let s ← cwhile (REJ_UNIFORM_AVX_BUFLEN + 1)
    (fun (s : Poly × Nat × Nat) => decide (s.2.1 ≤ KYBER_N - 32) && decide (s.2.2 ≤ REJ_UNIFORM_AVX_BUFLEN - 56))
    (fun (r, ctr, pos) => rejBody32 r ctr pos buf)
    (r, 0, 0)
  let s ← cwhile (REJ_UNIFORM_AVX_BUFLEN + 1)
    (fun (s : Poly × Nat × Nat) => decide (s.2.1 ≤ KYBER_N - 8) && decide (s.2.2 ≤ REJ_UNIFORM_AVX_BUFLEN - 16))
    (fun (r, ctr, pos) => rejBody8 r ctr pos buf)
    s
  let s ← cwhile (REJ_UNIFORM_AVX_BUFLEN + 1)
    (fun (s : Poly × Nat × Nat) => decide (s.2.1 < KYBER_N) && decide (s.2.2 ≤ REJ_UNIFORM_AVX_BUFLEN - 3))
    (fun (r, ctr, pos) => rejBody1 r ctr pos buf)
    s
  pure (s.1, s.2.1)

end Verif.Avx
