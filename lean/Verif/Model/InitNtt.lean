import Verif.Model.Ntt

/-! # Model of the comment of ref/ntt.c:6-37: the code that generates the table of zetas -/

namespace Verif.Model

/-- ref/reduce.h:7 `MONT` -/
def MONT : Int := -1044

/-- ref/ntt.c:8 `KYBER_ROOT_OF_UNITY` -/
def KYBER_ROOT_OF_UNITY : Int := 17

/-- ref/ntt.c:10-19 `tree` -/
def treeList : List UInt8 := [0, 64, 32, 96, 16, 80, 48, 112, 8, 72, 40, 104, 24, 88, 56, 120,
  4, 68, 36, 100, 20, 84, 52, 116, 12, 76, 44, 108, 28, 92, 60, 124,
  2, 66, 34, 98, 18, 82, 50, 114, 10, 74, 42, 106, 26, 90, 58, 122,
  6, 70, 38, 102, 22, 86, 54, 118, 14, 78, 46, 110, 30, 94, 62, 126,
  1, 65, 33, 97, 17, 81, 49, 113, 9, 73, 41, 105, 25, 89, 57, 121,
  5, 69, 37, 101, 21, 85, 53, 117, 13, 77, 45, 109, 29, 93, 61, 125,
  3, 67, 35, 99, 19, 83, 51, 115, 11, 75, 43, 107, 27, 91, 59, 123,
  7, 71, 39, 103, 23, 87, 55, 119, 15, 79, 47, 111, 31, 95, 63, 127]

/-- ref/ntt.c:21-36 `init_ntt`, writing to the object `zetas` (which the comment must take as not `const`). `MONT*KYBER_ROOT_OF_UNITY % KYBER_Q` is a constant; `MONT` expands to `-1044` without
parentheses, which makes no difference here: the remainder truncates towards zero either way. `-KYBER_Q/2` is `(-3329)/2`, truncated towards zero. -/
@[irreducible] def init_ntt (zetas : Mem Int16) : C (Mem Int16) := do
  let tmp := Mem.uninit Int16 128
  let tmp ← wr tmp 0 (i16 MONT)
  let tmp ← cfor 1 128 tmp fun i tmp => do
    let x ← rd tmp (i - 1)
    wr tmp i (← fqmul x (i16 ((MONT * KYBER_ROOT_OF_UNITY).tmod KYBER_Q)))
  cfor 0 128 zetas fun i zetas => do
    let t ← rd (Mem.ofList treeList) i
    let zetas ← wr zetas i (← rd tmp t.toNat)
    let z ← rd zetas i
    let zetas ← cif (decide (z.toInt > (KYBER_Q / 2 : Nat))) (do
      let z ← rd zetas i
      wr zetas i (← i16c (← isub z.toInt KYBER_Q))) (pure zetas)
    let z ← rd zetas i
    cif (decide (z.toInt < (-(KYBER_Q : Int)).tdiv 2)) (do
      let z ← rd zetas i
      wr zetas i (← i16c (← iadd z.toInt KYBER_Q))) (pure zetas)

end Verif.Model
