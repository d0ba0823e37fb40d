import Verif.Model.Ntt
import Verif.Model.Cbd
import Verif.Model.Symmetric
import Verif.Model.Verify

/-! # Model of ref/poly.c

`t << k` on promoted bytes and 16-bit unsigned values (k ≤ 11) cannot overflow `int`; such expressions are written on natural
numbers and then converted to the destination type. -/

namespace Verif.Model

/-- ref/poly.c:32 (and 52): `u += (u >> 15) & KYBER_Q` on `int16_t u`. -/
def caddq (u : Int16) : C Int16 := do
  let e ← iadd u.toInt (iand (ishr u.toInt 15) KYBER_Q)
  i16c e

/-- ref/poly.c:132 (and 134; polyvec.c:26, 56): `t += ((int16_t)t >> 15) & KYBER_Q` on `uint16_t t`. -/
def caddq16 (t : UInt16) : C UInt16 := do
  let e ← iadd t.toNat (iand (ishr t.toInt16.toInt 15) KYBER_Q)
  pure (u16 e)

/-- ref/poly.c:27-46 `poly_compress` for `KYBER_POLYCOMPRESSEDBYTES == 128`. `r += 4` is offset `4*i`. -/
def poly_compress_128 (r : Mem UInt8) (ro : Nat) (a : Poly) : C (Mem UInt8) := do
  let s ← cfor 0 (KYBER_N / 8) (r, Mem.uninit UInt8 8) fun i (r, t) => do
    let t ← cfor 0 8 t fun j t => do
      let u ← rd a (8 * i + j)
      let u ← caddq u
      let d0 := u32 (← ishl u.toInt 4)
      let d0 := d0 + 1665
      let d0 := d0 * 80635
      let d0 := d0 >>> 28
      wr t j (d0 &&& 0xf).toUInt8
    let o := ro + 4 * i
    let r ← wr r (o + 0) (UInt8.ofNat ((← rd t 0).toNat ||| ((← rd t 1).toNat <<< 4)))
    let r ← wr r (o + 1) (UInt8.ofNat ((← rd t 2).toNat ||| ((← rd t 3).toNat <<< 4)))
    let r ← wr r (o + 2) (UInt8.ofNat ((← rd t 4).toNat ||| ((← rd t 5).toNat <<< 4)))
    let r ← wr r (o + 3) (UInt8.ofNat ((← rd t 6).toNat ||| ((← rd t 7).toNat <<< 4)))
    pure (r, t)
  pure s.1

/-- ref/poly.c:48-67 `poly_compress` for `KYBER_POLYCOMPRESSEDBYTES == 160`. `r += 5` is offset `5*i`. -/
def poly_compress_160 (r : Mem UInt8) (ro : Nat) (a : Poly) : C (Mem UInt8) := do
  let s ← cfor 0 (KYBER_N / 8) (r, Mem.uninit UInt8 8) fun i (r, t) => do
    let t ← cfor 0 8 t fun j t => do
      let u ← rd a (8 * i + j)
      let u ← caddq u
      let d0 := u32 (← ishl u.toInt 5)
      let d0 := d0 + 1664
      let d0 := d0 * 40318
      let d0 := d0 >>> 27
      wr t j (d0 &&& 0x1f).toUInt8
    let o := ro + 5 * i
    let r ← wr r (o + 0) (UInt8.ofNat (((← rd t 0).toNat >>> 0) ||| ((← rd t 1).toNat <<< 5)))
    let r ← wr r (o + 1) (UInt8.ofNat (((← rd t 1).toNat >>> 3) ||| ((← rd t 2).toNat <<< 2) |||
      ((← rd t 3).toNat <<< 7)))
    let r ← wr r (o + 2) (UInt8.ofNat (((← rd t 3).toNat >>> 1) ||| ((← rd t 4).toNat <<< 4)))
    let r ← wr r (o + 3) (UInt8.ofNat (((← rd t 4).toNat >>> 4) ||| ((← rd t 5).toNat <<< 1) |||
      ((← rd t 6).toNat <<< 6)))
    let r ← wr r (o + 4) (UInt8.ofNat (((← rd t 6).toNat >>> 2) ||| ((← rd t 7).toNat <<< 3)))
    pure (r, t)
  pure s.1

/-- ref/poly.c:19-71 `poly_compress`: preprocessor selection. -/
def poly_compress (p : ParamSet) (r : Mem UInt8) (ro : Nat) (a : Poly) : C (Mem UInt8) :=
  if KYBER_POLYCOMPRESSEDBYTES p = 128 then poly_compress_128 r ro a else poly_compress_160 r ro a

/-- ref/poly.c:87-92 `poly_decompress` for 128 bytes. `a += 1` is offset `i`. -/
def poly_decompress_128 (r : Poly) (a : Mem UInt8) (ao : Nat) : C Poly :=
  cfor 0 (KYBER_N / 2) r fun i r => do
    let x ← rd a (ao + i)
    let r ← wr r (2 * i + 0) (i16 ((((x.toNat &&& 15) * KYBER_Q + 8) >>> 4 : Nat)))
    let x ← rd a (ao + i)
    wr r (2 * i + 1) (i16 ((((x.toNat >>> 4) * KYBER_Q + 8) >>> 4 : Nat)))

/-- ref/poly.c:94-109 `poly_decompress` for 160 bytes. `a += 5` is offset `5*i`. -/
def poly_decompress_160 (r : Poly) (a : Mem UInt8) (ao : Nat) : C Poly := do
  let s ← cfor 0 (KYBER_N / 8) (r, Mem.uninit UInt8 8) fun i (r, t) => do
    let o := ao + 5 * i
    let t ← wr t 0 (UInt8.ofNat ((← rd a (o + 0)).toNat >>> 0))
    let t ← wr t 1 (UInt8.ofNat (((← rd a (o + 0)).toNat >>> 5) ||| ((← rd a (o + 1)).toNat <<< 3)))
    let t ← wr t 2 (UInt8.ofNat ((← rd a (o + 1)).toNat >>> 2))
    let t ← wr t 3 (UInt8.ofNat (((← rd a (o + 1)).toNat >>> 7) ||| ((← rd a (o + 2)).toNat <<< 1)))
    let t ← wr t 4 (UInt8.ofNat (((← rd a (o + 2)).toNat >>> 4) ||| ((← rd a (o + 3)).toNat <<< 4)))
    let t ← wr t 5 (UInt8.ofNat ((← rd a (o + 3)).toNat >>> 1))
    let t ← wr t 6 (UInt8.ofNat (((← rd a (o + 3)).toNat >>> 6) ||| ((← rd a (o + 4)).toNat <<< 2)))
    let t ← wr t 7 (UInt8.ofNat ((← rd a (o + 4)).toNat >>> 3))
    let r ← cfor 0 8 r fun j r => do
      let x ← rd t j
      wr r (8 * i + j) (i16 (((UInt32.ofNat (x.toNat &&& 31) * 3329 + 16) >>> 5).toNat))
    pure (r, t)
  pure s.1

/-- ref/poly.c:83-113 `poly_decompress`: preprocessor selection. -/
def poly_decompress (p : ParamSet) (r : Poly) (a : Mem UInt8) (ao : Nat) : C Poly :=
  if KYBER_POLYCOMPRESSEDBYTES p = 128 then poly_decompress_128 r a ao else poly_decompress_160 r a ao

/-- ref/poly.c:124-139 `poly_tobytes`. -/
def poly_tobytes (r : Mem UInt8) (ro : Nat) (a : Poly) : C (Mem UInt8) :=
  cfor 0 (KYBER_N / 2) r fun i r => do
    let t0 := u16 (← rd a (2 * i)).toInt
    let t0 ← caddq16 t0
    let t1 := u16 (← rd a (2 * i + 1)).toInt
    let t1 ← caddq16 t1
    let r ← wr r (ro + 3 * i + 0) (UInt8.ofNat (t0.toNat >>> 0))
    let r ← wr r (ro + 3 * i + 1) (UInt8.ofNat ((t0.toNat >>> 8) ||| (t1.toNat <<< 4)))
    wr r (ro + 3 * i + 2) (UInt8.ofNat (t1.toNat >>> 4))

/-- ref/poly.c:151-158 `poly_frombytes`. -/
def poly_frombytes (r : Poly) (a : Mem UInt8) (ao : Nat) : C Poly :=
  cfor 0 (KYBER_N / 2) r fun i r => do
    let r ← wr r (2 * i) (i16 ((((← rd a (ao + 3 * i + 0)).toNat >>> 0) |||
      ((← rd a (ao + 3 * i + 1)).toNat <<< 8)) &&& 0xFFF : Nat))
    wr r (2 * i + 1) (i16 ((((← rd a (ao + 3 * i + 1)).toNat >>> 4) |||
      ((← rd a (ao + 3 * i + 2)).toNat <<< 4)) &&& 0xFFF : Nat))

/-- ref/poly.c:168-182 `poly_frommsg`. -/
def poly_frommsg (r : Poly) (msg : Mem UInt8) (mo : Nat) : C Poly :=
  cfor 0 (KYBER_N / 8) r fun i r =>
    cfor 0 8 r fun j r => do
      let r ← wr r (8 * i + j) 0
      let m ← rd msg (mo + i)
      cmov_int16 r (8 * i + j) (i16 (((KYBER_Q + 1) / 2 : Nat))) (u16 ((m.toNat >>> j) &&& 1 : Nat))

/-- ref/poly.c:192-211 `poly_tomsg`. -/
def poly_tomsg (msg : Mem UInt8) (mo : Nat) (a : Poly) : C (Mem UInt8) :=
  cfor 0 (KYBER_N / 8) msg fun i msg => do
    let msg ← wr msg (mo + i) 0
    cfor 0 8 msg fun j msg => do
      let t := u32 (← rd a (8 * i + j)).toInt
      let t := t <<< 1
      let t := t + 1665
      let t := t * 80635
      let t := t >>> 28
      let t := t &&& 1
      let m ← rd msg (mo + i)
      wr msg (mo + i) (m.toUInt32 ||| (t <<< (UInt32.ofNat j))).toUInt8

/-- ref/poly.c:225-230 `poly_getnoise_eta1`. -/
def poly_getnoise_eta1 (p : ParamSet) (r : Poly) (seed : Mem UInt8) (so : Nat) (nonce : UInt8) :
    C Poly := do
  let n := KYBER_ETA1 p * KYBER_N / 4
  let buf ← prf (Mem.uninit UInt8 n) 0 n seed so nonce
  poly_cbd_eta1 p r buf

/-- ref/poly.c:244-249 `poly_getnoise_eta2`. -/
def poly_getnoise_eta2 (r : Poly) (seed : Mem UInt8) (so : Nat) (nonce : UInt8) : C Poly := do
  let n := KYBER_ETA2 * KYBER_N / 4
  let buf ← prf (Mem.uninit UInt8 n) 0 n seed so nonce
  poly_cbd_eta2 r buf

/-- ref/poly.c:323-328 `poly_reduce`. -/
def poly_reduce (r : Poly) : C Poly :=
  cfor 0 KYBER_N r fun i r => do
    wr r i (← barrett_reduce (← rd r i))

/-- ref/poly.c:261-265 `poly_ntt`. -/
def poly_ntt (r : Poly) : C Poly := do
  let r ← ntt r
  poly_reduce r

/-- ref/poly.c:276-279 `poly_invntt_tomont`. -/
def poly_invntt_tomont (r : Poly) : C Poly := invntt r

/-- ref/poly.c:290-297 `poly_basemul_montgomery`. -/
def poly_basemul_montgomery (r : Poly) (a b : Poly) : C Poly :=
  cfor 0 (KYBER_N / 4) r fun i r => do
    let r ← basemul r a b (4 * i) (← rd zetas (64 + i))
    let z ← ineg (← rd zetas (64 + i)).toInt
    basemul r a b (4 * i + 2) (← i16c z)

/-- ref/poly.c:307-313 `poly_tomont`. -/
def poly_tomont (r : Poly) : C Poly := do
  let f : Int16 := i16 (2 ^ 32 % KYBER_Q : Nat)
  cfor 0 KYBER_N r fun i r => do
    let m ← imul (← rd r i).toInt f.toInt
    wr r i (← montgomery_reduce m)

/-- ref/poly.c:339-344 `poly_add`. Each iteration reads its inputs before writing index `i`, so `r` may alias `a` or `b`. -/
def poly_add (r : Poly) (a b : Poly) : C Poly :=
  cfor 0 KYBER_N r fun i r => do
    let e ← iadd (← rd a i).toInt (← rd b i).toInt
    wr r i (← i16c e)

/-- ref/poly.c:355-360 `poly_sub`. -/
def poly_sub (r : Poly) (a b : Poly) : C Poly :=
  cfor 0 KYBER_N r fun i r => do
    let e ← isub (← rd a i).toInt (← rd b i).toInt
    wr r i (← i16c e)

end Verif.Model
