import Verif.Avx.Call
import Verif.Avx.Intrin
import Verif.Avx.Polyvec
import Verif.C.Conv

/-! # avx2/poly.c, polyvec.c, cbd.c, verify.c: encoding, compression, sampling, comparison

The programs of `Verif.Avx.Intrin` and `Verif.Avx.Asm` with their arguments. An array of bytes is passed with the offset at which the function starts to
use it; the object of the vector machine is the rest of the array. The table `qdata` is passed to all of them as object 2. -/

namespace Verif.Avx
open Verif.Model (ParamSet KYBER_K Polyvec KYBER_POLYBYTES KYBER_ETA1)

/-- avx2/poly.c:26-61 (K = 2, 3), 86-121 (K = 4), selected by `KYBER_POLYCOMPRESSEDBYTES`. -/
@[irreducible] def poly_compress (p : ParamSet) (r : Mem UInt8) (ro : Nat) (a : Mem Int16) : C (Mem UInt8) :=
  match p with
  | .k4 => callBytes [0] poly_compress_160 false r ro [polyObj a, tabObj qdata]
  | _ => callBytes [0] poly_compress_128 false r ro [polyObj a, tabObj qdata]

/-- avx2/poly.c:63-83 (K = 2, 3), 123-148 (K = 4). -/
@[irreducible] def poly_decompress (p : ParamSet) (r : Mem Int16) (a : Mem UInt8) (ao : Nat) : C (Mem Int16) :=
  if ao ≤ a.size then
    match p with
    | .k4 => callPoly [0] poly_decompress_160 r [bytesObj false a ao, tabObj qdata]
    | _ => callPoly [0] poly_decompress_128 r [bytesObj false a ao, tabObj qdata]
  else .ub .oob

/-- avx2/poly.c:166-169 -/
@[irreducible] def poly_tobytes (r : Mem UInt8) (ro : Nat) (a : Mem Int16) : C (Mem UInt8) :=
  callBytes [0] ntttobytes_avx false r ro [polyObj a, tabObj qdata]

/-- avx2/poly.c:181-184 -/
@[irreducible] def poly_frombytes (r : Mem Int16) (a : Mem UInt8) (ao : Nat) : C (Mem Int16) :=
  if ao ≤ a.size then callPoly [0] nttfrombytes_avx r [bytesObj false a ao, tabObj qdata] else .ub .oob

/-- avx2/poly.c:194-237 -/
@[irreducible] def poly_frommsg (r : Mem Int16) (msg : Mem UInt8) (mo : Nat) : C (Mem Int16) :=
  if mo ≤ msg.size then callPoly [0] poly_frommsg_prog r [bytesObj false msg mo, tabObj qdata] else .ub .oob

/-- avx2/poly.c:250-274 -/
@[irreducible] def poly_tomsg (msg : Mem UInt8) (mo : Nat) (a : Mem Int16) : C (Mem UInt8) :=
  callBytes [0] poly_tomsg_prog false msg mo [polyObj a, tabObj qdata]

/-- avx2/polyvec.c:11-48 -/
@[irreducible] def poly_compress10 (r : Mem UInt8) (ro : Nat) (a : Mem Int16) : C (Mem UInt8) :=
  callBytes [0] poly_compress10_prog false r ro [polyObj a, tabObj qdata]

/-- avx2/polyvec.c:50-72 -/
@[irreducible] def poly_decompress10 (r : Mem Int16) (a : Mem UInt8) (ao : Nat) : C (Mem Int16) :=
  if ao ≤ a.size then callPoly [0] poly_decompress10_prog r [bytesObj false a ao, tabObj qdata] else .ub .oob

/-- avx2/polyvec.c:75-116 -/
@[irreducible] def poly_compress11 (r : Mem UInt8) (ro : Nat) (a : Mem Int16) : C (Mem UInt8) :=
  callBytes [0] poly_compress11_prog false r ro [polyObj a, tabObj qdata]

/-- avx2/polyvec.c:118-144 -/
@[irreducible] def poly_decompress11 (r : Mem Int16) (a : Mem UInt8) (ao : Nat) : C (Mem Int16) :=
  if ao ≤ a.size then callPoly [0] poly_decompress11_prog r [bytesObj false a ao, tabObj qdata] else .ub .oob

/-- avx2/polyvec.c:157-168, selected by `KYBER_POLYVECCOMPRESSEDBYTES`. -/
def polyvec_compress (p : ParamSet) (r : Mem UInt8) (ro : Nat) (a : Polyvec) : C (Mem UInt8) :=
  match p with
  | .k4 => cfor 0 (KYBER_K p) r fun i r => do poly_compress11 r (ro + 352 * i) (← at' a i)
  | _ => cfor 0 (KYBER_K p) r fun i r => do poly_compress10 r (ro + 320 * i) (← at' a i)

/-- avx2/polyvec.c:180-191 -/
def polyvec_decompress (p : ParamSet) (r : Polyvec) (a : Mem UInt8) (ao : Nat) : C Polyvec :=
  match p with
  | .k4 => cfor 0 (KYBER_K p) r fun i r => do put' r i (← poly_decompress11 (← at' r i) a (ao + 352 * i))
  | _ => cfor 0 (KYBER_K p) r fun i r => do put' r i (← poly_decompress10 (← at' r i) a (ao + 320 * i))

/-- avx2/polyvec.c:202-207 -/
def polyvec_tobytes (p : ParamSet) (r : Mem UInt8) (ro : Nat) (a : Polyvec) : C (Mem UInt8) :=
  cfor 0 (KYBER_K p) r fun i r => do poly_tobytes r (ro + i * KYBER_POLYBYTES) (← at' a i)

/-- avx2/polyvec.c:219-224 -/
def polyvec_frombytes (p : ParamSet) (r : Polyvec) (a : Mem UInt8) (ao : Nat) : C Polyvec :=
  cfor 0 (KYBER_K p) r fun i r => do put' r i (← poly_frombytes (← at' r i) a (ao + i * KYBER_POLYBYTES))

/-- avx2/cbd.c:16-58. The buffer is an array of `__m256i`, so aligned. -/
@[irreducible] def cbd2 (r : Mem Int16) (buf : Mem UInt8) : C (Mem Int16) := callPoly [0] cbd2_prog r [bytesObj true buf 0, tabObj qdata]

/-- avx2/cbd.c:72-122 -/
@[irreducible] def cbd3 (r : Mem Int16) (buf : Mem UInt8) : C (Mem Int16) := callPoly [0] cbd3_prog r [bytesObj true buf 0, tabObj qdata]

/-- avx2/cbd.c:126-135: preprocessor selection by `KYBER_ETA1`. -/
def poly_cbd_eta1 (p : ParamSet) (r : Mem Int16) (buf : Mem UInt8) : C (Mem Int16) :=
  if KYBER_ETA1 p = 2 then cbd2 r buf else cbd3 r buf

/-- avx2/cbd.c:137-144 (`KYBER_ETA2 == 2`). -/
def poly_cbd_eta2 (r : Mem Int16) (buf : Mem UInt8) : C (Mem Int16) := cbd2 r buf

/-- `_mm256_loadu_si256` at offset `o`: 32 bytes. -/
def loadu (m : Mem UInt8) (o : Nat) : C (List UInt8) :=
  cfor 0 32 [] fun i l => do pure (l ++ [← rd m (o + i)])

/-- `_mm256_storeu_si256` at offset `o`. -/
def storeu (m : Mem UInt8) (o : Nat) (v : List UInt8) : C (Mem UInt8) :=
  cfor 0 32 m fun i m => do wr m (o + i) (← at' v.toArray i)

/-- avx2/verify.c:17-40. `_mm256_testz_si256(h,h)` is 1 iff all bits of `h` are zero; `(-r) >> 63` is on `uint64_t`. -/
def verify (a : Mem UInt8) (ao : Nat) (b : Mem UInt8) (bo : Nat) (len : Nat) : C Int := do
  let h ← cfor 0 (len / 32) (List.replicate 32 (0 : UInt8)) fun i h => do
    let f ← loadu a (ao + 32 * i)
    let g ← loadu b (bo + 32 * i)
    let f := List.zipWith (· ^^^ ·) f g
    pure (List.zipWith (· ||| ·) h f)
  let r : UInt64 := 1 - (if h.all (· == 0) then 1 else 0)
  let i := len / 32
  let r ← cfor 0 (len - 32 * i) r fun j r => do
    let x ← rd a (ao + 32 * i + j)
    let y ← rd b (bo + 32 * i + j)
    pure (r ||| (x ^^^ y).toUInt64)
  pure (((-r) >>> 63).toNat : Int)

/-- Byte `k` of the 64-bit word `x`. -/
def byteOf64 (x : UInt64) (k : Nat) : UInt8 := (x >>> UInt64.ofNat (8 * k)).toUInt8

/-- avx2/verify.c:55-83. `_mm256_blendv_epi8` takes a byte of its second argument where the highest bit of the byte of the mask is set. The empty
`__asm__` barrier has no effect on values. In line 82, `-b & (x[i] ^ r[i])` is on promoted `int`s, converted to `uint8_t` by the assignment. -/
def cmov (r : Mem UInt8) (ro : Nat) (x : Mem UInt8) (xo : Nat) (len : Nat) (b : UInt8) : C (Mem UInt8) := do
  let bvec := (List.range 32).map fun k => byteOf64 (-(b.toUInt64)) (k % 8)
  let r ← cfor 0 (len / 32) r fun i r => do
    let rvec ← loadu r (ro + 32 * i)
    let xvec ← loadu x (xo + 32 * i)
    let rvec := List.zipWith (fun rx m => if 128 ≤ m.toNat then rx.2 else rx.1) (List.zip rvec xvec) bvec
    storeu r (ro + 32 * i) rvec
  let i := len / 32
  cfor 0 (len - 32 * i) r fun j r => do
    let rj ← rd r (ro + 32 * i + j)
    let xj ← rd x (xo + 32 * i + j)
    wr r (ro + 32 * i + j) (u8 (ixor (rj.toNat : Int) (iand (-(b.toNat : Int)) (ixor (xj.toNat : Int) (rj.toNat : Int)))))

end Verif.Avx
