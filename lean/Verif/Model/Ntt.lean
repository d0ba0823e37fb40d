import Verif.Model.Reduce

/-! # Model of ref/ntt.c -/

namespace Verif.Model

/-- ref/ntt.c:39-56 `zetas`. -/
def zetasList : List Int16 := [
  -1044,  -758,  -359, -1517,  1493,  1422,   287,   202,
   -171,   622,  1577,   182,   962, -1202, -1474,  1468,
    573, -1325,   264,   383,  -829,  1458, -1602,  -130,
   -681,  1017,   732,   608, -1542,   411,  -205, -1571,
   1223,   652,  -552,  1015, -1293,  1491,  -282, -1544,
    516,    -8,  -320,  -666, -1618, -1162,   126,  1469,
   -853,   -90,  -271,   830,   107, -1421,  -247,  -951,
   -398,   961, -1508,  -725,   448, -1065,   677, -1275,
  -1103,   430,   555,   843, -1251,   871,  1550,   105,
    422,   587,   177,  -235,  -291,  -460,  1574,  1653,
   -246,   778,  1159,  -147,  -777,  1483,  -602,  1119,
  -1590,   644,  -872,   349,   418,   329,  -156,   -75,
    817,  1097,   603,   610,  1322, -1285, -1465,   384,
  -1215,  -136,  1218, -1335,  -874,   220, -1187, -1659,
  -1185, -1530, -1278,   794, -1510,  -854,  -870,   478,
   -108,  -308,   996,   991,   958, -1460,  1522,  1628]

/-- ref/ntt.c:39 the table as a memory object. -/
@[irreducible] def zetas : Mem Int16 := Mem.ofList zetasList

/-- ref/ntt.c:68-70 `fqmul`. -/
def fqmul (a b : Int16) : C Int16 := do
  let m ← imul a.toInt b.toInt
  montgomery_reduce m

/-- ref/ntt.c:80-95 `ntt`. Loop variables: `len`/`k` in the outer loop, `start` in the middle one; after the inner loop
`j = start + len`, so `start = j + len`. The fuel of the loops is never exhausted (proved). -/
def ntt (r : Mem Int16) : C (Mem Int16) := do
  let s ← cwhile 8 (fun (s : Mem Int16 × Nat × Nat) => decide (s.2.2 ≥ 2)) (fun s => do
      let len := s.2.2
      let s' ← cwhile 129 (fun (s : Mem Int16 × Nat × Nat) => decide (s.2.2 < 256)) (fun s => do
          let start := s.2.2
          let zeta ← rd zetas s.2.1
          let r ← cfor start (start + len) s.1 fun j r => do
            let x ← rd r (j + len)
            let t ← fqmul zeta x
            let y ← rd r j
            let d ← isub y.toInt t.toInt
            let r ← wr r (j + len) (← i16c d)
            let y ← rd r j
            let e ← iadd y.toInt t.toInt
            wr r j (← i16c e)
          pure (r, s.2.1 + 1, (start + len) + len)) (s.1, s.2.1, 0)
      pure (s'.1, s'.2.1, len >>> 1)) (r, 1, 128)
  pure s.1

/-- ref/ntt.c:106-126 `invntt`. `k` is an unsigned counter running from 127 down to 0 (after the last use it wraps in C, where the
model's natural-number subtraction stays at 0; the value is not used any more). -/
def invntt (r : Mem Int16) : C (Mem Int16) := do
  let f : Int16 := 1441
  let s ← cwhile 8 (fun (s : Mem Int16 × Nat × Nat) => decide (s.2.2 ≤ 128)) (fun s => do
      let len := s.2.2
      let s' ← cwhile 129 (fun (s : Mem Int16 × Nat × Nat) => decide (s.2.2 < 256)) (fun s => do
          let start := s.2.2
          let zeta ← rd zetas s.2.1
          let r ← cfor start (start + len) s.1 fun j r => do
            let t ← rd r j
            let x ← rd r (j + len)
            let e ← iadd t.toInt x.toInt
            let b ← barrett_reduce (← i16c e)
            let r ← wr r j b
            let x ← rd r (j + len)
            let d ← isub x.toInt t.toInt
            let r ← wr r (j + len) (← i16c d)
            let x ← rd r (j + len)
            let y ← fqmul zeta x
            wr r (j + len) y
          pure (r, s.2.1 - 1, (start + len) + len)) (s.1, s.2.1, 0)
      pure (s'.1, s'.2.1, len <<< 1)) (r, 127, 2)
  cfor 0 256 s.1 fun j r => do
    let x ← rd r j
    let y ← fqmul x f
    wr r j y

/-- ref/ntt.c:139-146 `basemul`: `r`, `a`, `b` point to offset `o` of their objects. -/
def basemul (r : Mem Int16) (a b : Mem Int16) (o : Nat) (zeta : Int16) : C (Mem Int16) := do
  let r ← wr r (o + 0) (← fqmul (← rd a (o + 1)) (← rd b (o + 1)))
  let r ← wr r (o + 0) (← fqmul (← rd r (o + 0)) zeta)
  let t ← fqmul (← rd a (o + 0)) (← rd b (o + 0))
  let e ← iadd (← rd r (o + 0)).toInt t.toInt
  let r ← wr r (o + 0) (← i16c e)
  let r ← wr r (o + 1) (← fqmul (← rd a (o + 0)) (← rd b (o + 1)))
  let t ← fqmul (← rd a (o + 1)) (← rd b (o + 0))
  let e ← iadd (← rd r (o + 1)).toInt t.toInt
  wr r (o + 1) (← i16c e)

end Verif.Model
