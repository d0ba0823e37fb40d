import Verif.Spec.Ring
import Mathlib.Algebra.Order.Round
import Mathlib.Data.Rat.Floor

/-! # Specification: conversions and compression (FIPS 203, section 4.2)

Written from the standard, independent of the code. Bit strings are functions from positions to bits. -/

namespace Verif.Spec

/-- The number with the bits `b 0, ..., b (n-1)`, least significant first. -/
def bitsVal (n : Nat) (b : Nat → Bool) : Nat := ∑ j ∈ Finset.range n, (b j).toNat * 2 ^ j

/-- BitsToBytes (algorithm 3): `n` bytes from `8n` bits. -/
def BitsToBytes (n : Nat) (b : Nat → Bool) : List UInt8 :=
  (List.range n).map fun i => UInt8.ofNat (bitsVal 8 fun j => b (8 * i + j))

/-- BytesToBits (algorithm 4): bit `k` of a byte string is bit `k mod 8` of byte `k / 8`. -/
def BytesToBits (B : List UInt8) (k : Nat) : Bool := (B.getD (k / 8) 0).toNat / 2 ^ (k % 8) % 2 == 1

/-- ByteEncode_d (algorithm 5): bit `i d + j` of the result is bit `j` of `F i`. -/
def ByteEncode (d : Nat) (F : Fin 256 → Nat) : List UInt8 :=
  BitsToBytes (32 * d) fun k => (if h : k / d < 256 then F ⟨k / d, h⟩ else 0) / 2 ^ (k % d) % 2 == 1

/-- ByteDecode_d (algorithm 6) for d < 12: integer `i` has the bits `i d, ..., i d + d - 1`. For d = 12 the result is additionally taken
modulo q, which `ByteDecode12` does. -/
def ByteDecode (d : Nat) (B : List UInt8) : Fin 256 → Nat := fun i => bitsVal d fun j => BytesToBits B (i.val * d + j)

/-- ByteEncode_12 on ring elements. -/
def ByteEncode12 (f : Rq) : List UInt8 := ByteEncode 12 fun i => (f i).val

/-- ByteDecode_12: the 12-bit integers modulo q. -/
def ByteDecode12 (B : List UInt8) : Rq := fun i => ((ByteDecode 12 B i : Nat) : Zq)

/-- Compress_d (equation 4.7): round((2^d / q) x) mod 2^d, ties rounded up. -/
def Compress (d : Nat) (x : Zq) : Nat := (round ((2 ^ d : ℚ) / 3329 * (x.val : ℚ)) % 2 ^ d).toNat

/-- Decompress_d (equation 4.8): round((q / 2^d) y), ties rounded up. -/
def Decompress (d : Nat) (y : Nat) : Zq := ((round ((3329 : ℚ) / 2 ^ d * (y : ℚ)) : Int) : Zq)

/-- SamplePolyCBD_η (algorithm 8) applied to a byte string of length 64η. -/
def SamplePolyCBD (η : Nat) (B : List UInt8) : Rq := fun i =>
  (∑ j ∈ Finset.range η, ((BytesToBits B (2 * i.val * η + j)).toNat : Zq)) -
    ∑ j ∈ Finset.range η, ((BytesToBits B (2 * i.val * η + η + j)).toNat : Zq)

end Verif.Spec
