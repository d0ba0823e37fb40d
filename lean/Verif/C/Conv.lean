import Verif.C.Basic

/-! # Conversions between C integer types

Conversions to an unsigned type are modulo 2^w (C11 6.3.1.3p2). Conversions to `int16_t` of a value that
does not fit are implementation-defined; gcc and clang reduce modulo 2^16, which is what `Int16.ofInt` does.
Promotion to `int` is `.toInt` for `Int16` and `.toNat` for unsigned types. -/

namespace Verif

/-- `(uint8_t)x` -/
def u8 (x : Int) : UInt8 := UInt8.ofNat (x % 256).toNat
/-- `(uint16_t)x` -/
def u16 (x : Int) : UInt16 := UInt16.ofNat (x % 65536).toNat
/-- `(uint32_t)x` -/
def u32 (x : Int) : UInt32 := UInt32.ofNat (x % 4294967296).toNat
/-- `(int16_t)x` -/
def i16 (x : Int) : Int16 := Int16.ofInt x
/-- Store of an `int` sum or difference into an `int16_t` where the code relies on the value fitting. -/
def i16c (x : Int) : C Int16 := if -32768 ≤ x ∧ x ≤ 32767 then pure (i16 x) else .ub .narrow

end Verif
