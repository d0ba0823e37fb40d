import Verif.Model.Poly

/-! # Model of ref/polyvec.c -/

namespace Verif.Model

/-- ref/polyvec.h:8-10 `polyvec`: an array of `KYBER_K` polynomials. -/
abbrev Polyvec := Array Poly

/-- A `poly` on the stack. -/
def Poly.uninit : Poly := Mem.uninit Int16 256
/-- A `polyvec` on the stack. -/
def Polyvec.uninit (p : ParamSet) : Polyvec := Array.replicate (KYBER_K p) Poly.uninit

/-- ref/polyvec.c:21-49 `polyvec_compress` for `KYBER_K * 352`. `r += 11` is offset `11*(32*i+j)`. -/
def polyvec_compress_352 (p : ParamSet) (r : Mem UInt8) (ro : Nat) (a : Polyvec) : C (Mem UInt8) := do
  let s ← cfor 0 (KYBER_K p) (r, Mem.uninit UInt16 8) fun i s =>
    cfor 0 (KYBER_N / 8) s fun j (r, t) => do
      let t ← cfor 0 8 t fun k t => do
        let ai ← at' a i
        let t ← wr t k (u16 (← rd ai (8 * j + k)).toInt)
        let t ← wr t k (← caddq16 (← rd t k))
        let d0 := (← rd t k).toUInt64
        let d0 := d0 <<< 11
        let d0 := d0 + 1664
        let d0 := d0 * 645084
        let d0 := d0 >>> 31
        wr t k (d0 &&& 0x7ff).toUInt16
      let o := ro + 11 * (KYBER_N / 8 * i + j)
      let r ← wr r (o + 0) (UInt8.ofNat ((← rd t 0).toNat >>> 0))
      let r ← wr r (o + 1) (UInt8.ofNat (((← rd t 0).toNat >>> 8) ||| ((← rd t 1).toNat <<< 3)))
      let r ← wr r (o + 2) (UInt8.ofNat (((← rd t 1).toNat >>> 5) ||| ((← rd t 2).toNat <<< 6)))
      let r ← wr r (o + 3) (UInt8.ofNat ((← rd t 2).toNat >>> 2))
      let r ← wr r (o + 4) (UInt8.ofNat (((← rd t 2).toNat >>> 10) ||| ((← rd t 3).toNat <<< 1)))
      let r ← wr r (o + 5) (UInt8.ofNat (((← rd t 3).toNat >>> 7) ||| ((← rd t 4).toNat <<< 4)))
      let r ← wr r (o + 6) (UInt8.ofNat (((← rd t 4).toNat >>> 4) ||| ((← rd t 5).toNat <<< 7)))
      let r ← wr r (o + 7) (UInt8.ofNat ((← rd t 5).toNat >>> 1))
      let r ← wr r (o + 8) (UInt8.ofNat (((← rd t 5).toNat >>> 9) ||| ((← rd t 6).toNat <<< 2)))
      let r ← wr r (o + 9) (UInt8.ofNat (((← rd t 6).toNat >>> 6) ||| ((← rd t 7).toNat <<< 5)))
      let r ← wr r (o + 10) (UInt8.ofNat ((← rd t 7).toNat >>> 3))
      pure (r, t)
  pure s.1

/-- ref/polyvec.c:51-73 `polyvec_compress` for `KYBER_K * 320`. `r += 5` is offset `5*(64*i+j)`. -/
def polyvec_compress_320 (p : ParamSet) (r : Mem UInt8) (ro : Nat) (a : Polyvec) : C (Mem UInt8) := do
  let s ← cfor 0 (KYBER_K p) (r, Mem.uninit UInt16 4) fun i s =>
    cfor 0 (KYBER_N / 4) s fun j (r, t) => do
      let t ← cfor 0 4 t fun k t => do
        let ai ← at' a i
        let t ← wr t k (u16 (← rd ai (4 * j + k)).toInt)
        let t ← wr t k (← caddq16 (← rd t k))
        let d0 := (← rd t k).toUInt64
        let d0 := d0 <<< 10
        let d0 := d0 + 1665
        let d0 := d0 * 1290167
        let d0 := d0 >>> 32
        wr t k (d0 &&& 0x3ff).toUInt16
      let o := ro + 5 * (KYBER_N / 4 * i + j)
      let r ← wr r (o + 0) (UInt8.ofNat ((← rd t 0).toNat >>> 0))
      let r ← wr r (o + 1) (UInt8.ofNat (((← rd t 0).toNat >>> 8) ||| ((← rd t 1).toNat <<< 2)))
      let r ← wr r (o + 2) (UInt8.ofNat (((← rd t 1).toNat >>> 6) ||| ((← rd t 2).toNat <<< 4)))
      let r ← wr r (o + 3) (UInt8.ofNat (((← rd t 2).toNat >>> 4) ||| ((← rd t 3).toNat <<< 6)))
      let r ← wr r (o + 4) (UInt8.ofNat ((← rd t 3).toNat >>> 2))
      pure (r, t)
  pure s.1

/-- ref/polyvec.c:15-77 `polyvec_compress`: preprocessor selection. -/
def polyvec_compress (p : ParamSet) (r : Mem UInt8) (ro : Nat) (a : Polyvec) : C (Mem UInt8) :=
  if KYBER_POLYVECCOMPRESSEDBYTES p = KYBER_K p * 352 then polyvec_compress_352 p r ro a
  else polyvec_compress_320 p r ro a

/-- ref/polyvec.c:94-110 `polyvec_decompress` for `KYBER_K * 352`. `a += 11` is offset `11*(32*i+j)`. -/
def polyvec_decompress_352 (p : ParamSet) (r : Polyvec) (a : Mem UInt8) (ao : Nat) : C Polyvec := do
  let s ← cfor 0 (KYBER_K p) (r, Mem.uninit UInt16 8) fun i s =>
    cfor 0 (KYBER_N / 8) s fun j (r, t) => do
      let o := ao + 11 * (KYBER_N / 8 * i + j)
      let t ← wr t 0 (UInt16.ofNat (((← rd a (o + 0)).toNat >>> 0) ||| ((← rd a (o + 1)).toNat <<< 8)))
      let t ← wr t 1 (UInt16.ofNat (((← rd a (o + 1)).toNat >>> 3) ||| ((← rd a (o + 2)).toNat <<< 5)))
      let t ← wr t 2 (UInt16.ofNat (((← rd a (o + 2)).toNat >>> 6) ||| ((← rd a (o + 3)).toNat <<< 2) |||
        ((← rd a (o + 4)).toNat <<< 10)))
      let t ← wr t 3 (UInt16.ofNat (((← rd a (o + 4)).toNat >>> 1) ||| ((← rd a (o + 5)).toNat <<< 7)))
      let t ← wr t 4 (UInt16.ofNat (((← rd a (o + 5)).toNat >>> 4) ||| ((← rd a (o + 6)).toNat <<< 4)))
      let t ← wr t 5 (UInt16.ofNat (((← rd a (o + 6)).toNat >>> 7) ||| ((← rd a (o + 7)).toNat <<< 1) |||
        ((← rd a (o + 8)).toNat <<< 9)))
      let t ← wr t 6 (UInt16.ofNat (((← rd a (o + 8)).toNat >>> 2) ||| ((← rd a (o + 9)).toNat <<< 6)))
      let t ← wr t 7 (UInt16.ofNat (((← rd a (o + 9)).toNat >>> 5) ||| ((← rd a (o + 10)).toNat <<< 3)))
      let r ← cfor 0 8 r fun k r => do
        let x ← rd t k
        let ri ← at' r i
        let ri ← wr ri (8 * j + k) (i16 (((UInt32.ofNat (x.toNat &&& 0x7FF) * 3329 + 1024) >>> 11).toNat))
        put' r i ri
      pure (r, t)
  pure s.1

/-- ref/polyvec.c:112-124 `polyvec_decompress` for `KYBER_K * 320`. `a += 5` is offset `5*(64*i+j)`. -/
def polyvec_decompress_320 (p : ParamSet) (r : Polyvec) (a : Mem UInt8) (ao : Nat) : C Polyvec := do
  let s ← cfor 0 (KYBER_K p) (r, Mem.uninit UInt16 4) fun i s =>
    cfor 0 (KYBER_N / 4) s fun j (r, t) => do
      let o := ao + 5 * (KYBER_N / 4 * i + j)
      let t ← wr t 0 (UInt16.ofNat (((← rd a (o + 0)).toNat >>> 0) ||| ((← rd a (o + 1)).toNat <<< 8)))
      let t ← wr t 1 (UInt16.ofNat (((← rd a (o + 1)).toNat >>> 2) ||| ((← rd a (o + 2)).toNat <<< 6)))
      let t ← wr t 2 (UInt16.ofNat (((← rd a (o + 2)).toNat >>> 4) ||| ((← rd a (o + 3)).toNat <<< 4)))
      let t ← wr t 3 (UInt16.ofNat (((← rd a (o + 3)).toNat >>> 6) ||| ((← rd a (o + 4)).toNat <<< 2)))
      let r ← cfor 0 4 r fun k r => do
        let x ← rd t k
        let ri ← at' r i
        let ri ← wr ri (4 * j + k) (i16 (((UInt32.ofNat (x.toNat &&& 0x3FF) * 3329 + 512) >>> 10).toNat))
        put' r i ri
      pure (r, t)
  pure s.1

/-- ref/polyvec.c:89-128 `polyvec_decompress`: preprocessor selection. -/
def polyvec_decompress (p : ParamSet) (r : Polyvec) (a : Mem UInt8) (ao : Nat) : C Polyvec :=
  if KYBER_POLYVECCOMPRESSEDBYTES p = KYBER_K p * 352 then polyvec_decompress_352 p r a ao
  else polyvec_decompress_320 p r a ao

/-- ref/polyvec.c:139-144 `polyvec_tobytes`. -/
def polyvec_tobytes (p : ParamSet) (r : Mem UInt8) (ro : Nat) (a : Polyvec) : C (Mem UInt8) :=
  cfor 0 (KYBER_K p) r fun i r => do
    let ai ← at' a i
    poly_tobytes r (ro + i * KYBER_POLYBYTES) ai

/-- ref/polyvec.c:156-161 `polyvec_frombytes`. -/
def polyvec_frombytes (p : ParamSet) (r : Polyvec) (a : Mem UInt8) (ao : Nat) : C Polyvec :=
  cfor 0 (KYBER_K p) r fun i r => do
    let ri ← at' r i
    put' r i (← poly_frombytes ri a (ao + i * KYBER_POLYBYTES))

/-- ref/polyvec.c:170-175 `polyvec_ntt`. -/
def polyvec_ntt (p : ParamSet) (r : Polyvec) : C Polyvec :=
  cfor 0 (KYBER_K p) r fun i r => do
    put' r i (← poly_ntt (← at' r i))

/-- ref/polyvec.c:185-190 `polyvec_invntt_tomont`. -/
def polyvec_invntt_tomont (p : ParamSet) (r : Polyvec) : C Polyvec :=
  cfor 0 (KYBER_K p) r fun i r => do
    put' r i (← poly_invntt_tomont (← at' r i))

/-- ref/polyvec.c:202-214 `polyvec_basemul_acc_montgomery`. -/
def polyvec_basemul_acc_montgomery (p : ParamSet) (r : Poly) (a b : Polyvec) : C Poly := do
  let r ← poly_basemul_montgomery r (← at' a 0) (← at' b 0)
  let (r, _) ← cfor 1 (KYBER_K p) (r, Poly.uninit) fun i (r, t) => do
    let t ← poly_basemul_montgomery t (← at' a i) (← at' b i)
    let r ← poly_add r r t
    pure (r, t)
  poly_reduce r

/-- ref/polyvec.c:225-230 `polyvec_reduce`. -/
def polyvec_reduce (p : ParamSet) (r : Polyvec) : C Polyvec :=
  cfor 0 (KYBER_K p) r fun i r => do
    put' r i (← poly_reduce (← at' r i))

/-- ref/polyvec.c:241-246 `polyvec_add`. The code calls it with `r` equal to `a`; each iteration only touches element `i`. -/
def polyvec_add (p : ParamSet) (r : Polyvec) (a b : Polyvec) : C Polyvec :=
  cfor 0 (KYBER_K p) r fun i r => do
    put' r i (← poly_add (← at' r i) (← at' a i) (← at' b i))

end Verif.Model
