import Verif.C.Conv

/-! # Model of ref/verify.c -/

namespace Verif.Model

/-- ref/verify.c:16-25 `verify`. `-(uint64_t)r >> 63` is unsigned 64-bit arithmetic, converted to `int`. -/
def verify (a : Mem UInt8) (ao : Nat) (b : Mem UInt8) (bo : Nat) (len : Nat) : C Int := do
  let r ← cfor 0 len (0 : UInt8) fun i r => do
    let x ← rd a (ao + i)
    let y ← rd b (bo + i)
    pure (r ||| (x ^^^ y))
  pure (((-(r.toUInt64)) >>> 63).toNat : Int)

/-- ref/verify.c:40-57 `cmov`. The empty `__asm__` barrier has no effect on values. -/
def cmov (r : Mem UInt8) (ro : Nat) (x : Mem UInt8) (xo : Nat) (len : Nat) (b : UInt8) :
    C (Mem UInt8) := do
  let b := -b
  cfor 0 len r fun i r => do
    let ri ← rd r (ro + i)
    let xi ← rd x (xo + i)
    wr r (ro + i) (ri ^^^ (b &&& (ri ^^^ xi)))

/-- ref/verify.c:71-75 `cmov_int16`: `r` points to offset `o`. `b = -b` is computed in `int` and converted to `uint16_t`;
`*r ^ v` and the other bit operations are on promoted `int`s and the result is converted to `int16_t`. -/
def cmov_int16 (r : Mem Int16) (o : Nat) (v : Int16) (b : UInt16) : C (Mem Int16) := do
  let b := u16 (-(b.toNat : Int))
  let x ← rd r o
  wr r o (i16 (ixor x.toInt (iand (b.toNat : Int) (ixor x.toInt v.toInt))))

end Verif.Model
