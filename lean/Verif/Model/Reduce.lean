import Verif.C.Conv
import Verif.Model.Params

/-! # Model of ref/reduce.c and ref/reduce.h -/

namespace Verif.Model

/-- ref/reduce.h:8 `QINV` -/
def QINV : Int := -3327

/-- ref/reduce.c:16-23 `montgomery_reduce`. `a` is an `int32_t`. -/
def montgomery_reduce (a : Int) : C Int16 := do
  let t ← imul (i16 a).toInt QINV
  let t := i16 t
  let m ← imul t.toInt KYBER_Q
  let d ← isub a m
  let t := i16 (ishr d 16)
  pure t

/-- ref/reduce.c:35-42 `barrett_reduce`. -/
def barrett_reduce (a : Int16) : C Int16 := do
  let v : Int16 := i16 (((1 <<< 26) + KYBER_Q / 2) / KYBER_Q : Nat)
  let m ← imul v.toInt a.toInt
  let s ← iadd m (1 <<< 25 : Nat)
  let t := i16 (ishr s 26)
  let t ← imul t.toInt KYBER_Q
  let t := i16 t
  let d ← isub a.toInt t.toInt
  pure (i16 d)

end Verif.Model
