import Verif.Spec.Fips203
import Verif.Spec.Drbg

/-! # Specification: the known-answer files of NIST for ML-KEM, and the reading of such files

Files are byte lists. -/

namespace Verif.Spec

/-- The bytes of an ASCII text. -/
def asciiBytes (s : String) : List UInt8 := s.toList.map fun c => UInt8.ofNat c.toNat

/-- The upper-case hexadecimal digits of a byte string. -/
def hexUpper (l : List UInt8) : List UInt8 :=
  l.flatMap fun b => [(asciiBytes "0123456789ABCDEF").getD (b.toNat / 16) 0, (asciiBytes "0123456789ABCDEF").getD (b.toNat % 16) 0]

def hexField (name : String) (l : List UInt8) : List UInt8 := asciiBytes name ++ hexUpper l ++ asciiBytes "\n"

/-- What follows the first place where `m` occurs in `f`. -/
def afterFirst (m : List UInt8) : List UInt8 → Option (List UInt8)
  | [] => if m = [] then some [] else none
  | c :: f => if m.isPrefixOf (c :: f) then some ((c :: f).drop m.length) else afterFirst m f

/-- The value of a hexadecimal digit (of either case). -/
def hexDigitVal (c : UInt8) : Option Nat :=
  let i := (asciiBytes "0123456789abcdef").idxOf c
  let j := (asciiBytes "0123456789ABCDEF").idxOf c
  if i < 16 then some i else if j < 16 then some j else none

/-- The first run of hexadecimal digits on the rest of the line, and what follows the byte that ends it. -/
def hexRun (f : List UInt8) : List UInt8 × List UInt8 :=
  let f := f.dropWhile fun c => (hexDigitVal c).isNone && c ≠ 10
  let ds := f.takeWhile fun c => (hexDigitVal c).isSome
  (ds, (f.drop ds.length).drop 1)

/-- The number with the given hexadecimal digits. -/
def hexNumber (ds : List UInt8) : Nat := ds.foldl (fun a c => 16 * a + (hexDigitVal c).getD 0) 0

/-! ## The files -/

variable (aes : List UInt8 → List UInt8 → List UInt8)

/-- The seeds of `n` records: successive requests of 48 bytes. -/
def katSeeds : Nat → DrbgState → List (List UInt8)
  | 0, _ => []
  | n + 1, s => (CTR_DRBG_Generate aes 48 s).1 :: katSeeds n (CTR_DRBG_Generate aes 48 s).2

/-- The generator after the entropy input `e`. -/
def katStart (e : List UInt8) : DrbgState := CTR_DRBG_Instantiate aes e (List.replicate 48 0)

/-- The request file: records numbered from `i` on. -/
def katRequests : Nat → List (List UInt8) → List UInt8
  | _, [] => []
  | i, seed :: seeds => asciiBytes ("count = " ++ toString i ++ "\n") ++ hexField "seed = " seed ++ asciiBytes "pk =\nsk =\nct =\nss =\n\n" ++ katRequests (i + 1) seeds

/-- The records of the response file; then what is printed and the return value. -/
def katResponses (P : Params) (N : Nat) : Nat → List (List UInt8) → Option (List UInt8 × List UInt8 × Int)
  | _, [] => some ([], [], 0)
  | i, seed :: seeds => do
    let (dz, s) := CTR_DRBG_Generate aes 64 (katStart aes seed)
    let (m, _) := CTR_DRBG_Generate aes 32 s
    let (ek, dk) ← KeyGen_internal P N (dz.take 32) (dz.drop 32)
    let (K, c) ← Encaps_internal P N ek m
    let K' ← Decaps_internal P N dk c
    let record := asciiBytes ("count = " ++ toString i ++ "\n") ++ hexField "seed = " seed ++ hexField "pk = " ek ++ hexField "sk = " dk ++ hexField "ct = " c ++ hexField "ss = " K ++ asciiBytes "\n"
    if K' = K then do
      let (rsp, out, ret) ← katResponses P N (i + 1) seeds
      some (record ++ rsp, out, ret)
    else some (record, asciiBytes "crypto_kem_dec returned bad 'ss' value\n", -4)

end Verif.Spec
