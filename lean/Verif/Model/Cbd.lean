import Verif.C.Conv
import Verif.Model.Params

/-! # Model of ref/cbd.c -/

namespace Verif.Model

/-- A `poly` (ref/poly.h:11-13): 256 coefficients. -/
abbrev Poly := Mem Int16

/-- ref/cbd.c:15-23 `load32_littleendian`. -/
def load32_littleendian (x : Mem UInt8) (o : Nat) : C UInt32 := do
  let r := (← rd x (o + 0)).toUInt32
  let r := r ||| ((← rd x (o + 1)).toUInt32 <<< 8)
  let r := r ||| ((← rd x (o + 2)).toUInt32 <<< 16)
  let r := r ||| ((← rd x (o + 3)).toUInt32 <<< 24)
  pure r

/-- ref/cbd.c:37-44 `load24_littleendian`. -/
def load24_littleendian (x : Mem UInt8) (o : Nat) : C UInt32 := do
  let r := (← rd x (o + 0)).toUInt32
  let r := r ||| ((← rd x (o + 1)).toUInt32 <<< 8)
  let r := r ||| ((← rd x (o + 2)).toUInt32 <<< 16)
  pure r

/-- ref/cbd.c:58-75 `cbd2`. -/
def cbd2 (r : Poly) (buf : Mem UInt8) : C Poly :=
  cfor 0 (KYBER_N / 8) r fun i r => do
    let t ← load32_littleendian buf (4 * i)
    let d := t &&& 0x55555555
    let d := d + ((t >>> 1) &&& 0x55555555)
    cfor 0 8 r fun j r => do
      let a : Int16 := i16 ((d >>> (UInt32.ofNat (4 * j + 0))) &&& 0x3).toNat
      let b : Int16 := i16 ((d >>> (UInt32.ofNat (4 * j + 2))) &&& 0x3).toNat
      let e ← isub a.toInt b.toInt
      wr r (8 * i + j) (i16 e)

/-- ref/cbd.c:89-107 `cbd3`. -/
def cbd3 (r : Poly) (buf : Mem UInt8) : C Poly :=
  cfor 0 (KYBER_N / 4) r fun i r => do
    let t ← load24_littleendian buf (3 * i)
    let d := t &&& 0x00249249
    let d := d + ((t >>> 1) &&& 0x00249249)
    let d := d + ((t >>> 2) &&& 0x00249249)
    cfor 0 4 r fun j r => do
      let a : Int16 := i16 ((d >>> (UInt32.ofNat (6 * j + 0))) &&& 0x7).toNat
      let b : Int16 := i16 ((d >>> (UInt32.ofNat (6 * j + 3))) &&& 0x7).toNat
      let e ← isub a.toInt b.toInt
      wr r (4 * i + j) (i16 e)

/-- ref/cbd.c:110-119 `poly_cbd_eta1`: preprocessor selection by `KYBER_ETA1`. -/
def poly_cbd_eta1 (p : ParamSet) (r : Poly) (buf : Mem UInt8) : C Poly :=
  if KYBER_ETA1 p = 2 then cbd2 r buf else cbd3 r buf

/-- ref/cbd.c:121-128 `poly_cbd_eta2` (`KYBER_ETA2 == 2`). -/
def poly_cbd_eta2 (r : Poly) (buf : Mem UInt8) : C Poly := cbd2 r buf

end Verif.Model
