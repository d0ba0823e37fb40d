import Verif.C.Basic

/-! # Model of ref/nistkat/rng.c and rng.h

AES-256 (OpenSSL) is external: a parameter `aes` from key and block to block. The OpenSSL calls are taken to succeed; if one fails the code aborts. `unsigned long` has 64 bits.
The global `DRBG_ctx` is passed and returned. -/

namespace Verif.Model

abbrev Cipher := List UInt8 → List UInt8 → List UInt8

/-- rng.h:13-16 -/
def RNG_SUCCESS : Int := 0
def RNG_BAD_MAXLEN : Int := -1
def RNG_BAD_OUTBUF : Int := -2
def RNG_BAD_REQ_LEN : Int := -3

/-- rng.h:18-24 `AES_XOF_struct` -/
structure AES_XOF where
  buffer : Mem UInt8
  buffer_pos : Int
  length_remaining : Nat
  key : Mem UInt8
  ctr : Mem UInt8

/-- rng.h:26-30 `AES256_CTR_DRBG_struct` -/
structure DRBG where
  Key : Mem UInt8
  V : Mem UInt8
  reseed_counter : Int

/-- The `n` bytes at `m + o`, read by an external function. -/
def rdBytes (m : Mem UInt8) (o n : Nat) : C (List UInt8) :=
  cfor 0 n [] fun i l => do
    let x ← rd m (o + i)
    pure (l ++ [x])

/-- `memset(m + o, v, n)` -/
def memset (m : Mem UInt8) (o : Nat) (v : UInt8) (n : Nat) : C (Mem UInt8) :=
  cfor 0 n m fun i m => wr m (o + i) v

/-- rng.c:115-136 `AES256_ECB`, writing to `buffer + bo`. -/
def AES256_ECB (aes : Cipher) (key ctr buffer : Mem UInt8) (bo : Nat) : C (Mem UInt8) := do
  let k ← rdBytes key 0 32
  let c ← rdBytes ctr 0 16
  cfor 0 16 buffer fun i buffer => wr buffer (bo + i) ((aes k c).getD i 0)

/-- The loops that increment a counter, rng.c:89-97, 163-170 and 197-204: `for(j = lo + n - 1; j >= lo; j--)`, left by `break`. Recursion on the number of bytes left. -/
def incrBE (m : Mem UInt8) (lo : Nat) : Nat → C (Mem UInt8)
  | 0 => do C.leak (.br false); pure m
  | j + 1 => do
    C.leak (.br true)
    let x ← rd m (lo + j)
    cif (x == 0xff)
      (do
        let m ← wr m (lo + j) 0x00
        incrBE m lo j)
      (wr m (lo + j) (x + 1))

/-- rng.c:146-148 and 208-210: `if (d) for (int i=0; i<48; i++) t[i] ^= d[i]`. -/
def xorOpt (t : Mem UInt8) (d : Option (Mem UInt8)) : C (Mem UInt8) := do
  C.leak (.br d.isSome)
  match d with
  | none => pure t
  | some d => cfor 0 48 t fun i t => do
    let x ← rd t i
    let y ← rd d i
    wr t i (x ^^^ y)

/-- rng.c:188-213 `AES256_CTR_DRBG_Update`; `none` is a null pointer. Returns `(Key, V)`. -/
def AES256_CTR_DRBG_Update (aes : Cipher) (provided : Option (Mem UInt8)) (Key V : Mem UInt8) : C (Mem UInt8 × Mem UInt8) := do
  let (temp, V) ← cfor 0 3 (Mem.uninit UInt8 48, V) fun i (temp, V) => do
    let V ← incrBE V 0 16
    let temp ← AES256_ECB aes Key V temp (16 * i)
    pure (temp, V)
  let temp ← xorOpt temp provided
  let Key ← memcpy Key 0 temp 0 32
  let V ← memcpy V 0 temp 32 16
  pure (Key, V)

/-- rng.c:138-153 `randombytes_init`. (`security_strength` is not used.) -/
def randombytes_init (aes : Cipher) (g : DRBG) (entropy : Mem UInt8) (personalization : Option (Mem UInt8)) : C DRBG := do
  let seed ← memcpy (Mem.uninit UInt8 48) 0 entropy 0 48
  let seed ← xorOpt seed personalization
  let Key ← memset g.Key 0 0x00 32
  let V ← memset g.V 0 0x00 16
  let (Key, V) ← AES256_CTR_DRBG_Update aes (some seed) Key V
  pure ⟨Key, V, 1⟩

/-- State of the loop of `randombytes`. -/
structure RbSt where
  x : Mem UInt8
  i : Int
  xlen : Nat
  V : Mem UInt8
  block : Mem UInt8

/-- rng.c:162-181, the body of the loop; the buffer is at `x + xo`. -/
def rbBody (aes : Cipher) (Key : Mem UInt8) (xo : Nat) (s : RbSt) : C RbSt := do
  let V ← incrBE s.V 0 16
  let block ← AES256_ECB aes Key V s.block 0
  cif (decide (s.xlen > 15))
    (do
      let x ← memcpy s.x (xo + s.i.toNat) block 0 16
      let i ← iadd s.i 16
      pure ⟨x, i, s.xlen - 16, V, block⟩)
    (do
      let x ← memcpy s.x (xo + s.i.toNat) block 0 s.xlen
      pure ⟨x, s.i, 0, V, block⟩)

/-- rng.c:155-186 `randombytes`. Returns the buffer, the return value and the state. -/
def drbg_randombytes (aes : Cipher) (g : DRBG) (x : Mem UInt8) (xo xlen : Nat) : C (Mem UInt8 × Int × DRBG) := do
  let s ← cwhile (xlen + 1) (fun s : RbSt => decide (0 < s.xlen)) (rbBody aes g.Key xo) ⟨x, 0, xlen, g.V, Mem.uninit UInt8 16⟩
  let (Key, V) ← AES256_CTR_DRBG_Update aes none g.Key s.V
  let r ← iadd g.reseed_counter 1
  pure (s.x, RNG_SUCCESS, ⟨Key, V, r⟩)

/-- rng.c:25-52 `seedexpander_init`. -/
def seedexpander_init (ctx : AES_XOF) (seed diversifier : Mem UInt8) (maxlen : Nat) : C (Int × AES_XOF) := do
  cif (decide (maxlen ≥ 0x100000000)) (pure (RNG_BAD_MAXLEN, ctx)) do
    let key ← memcpy ctx.key 0 seed 0 32
    let ctr ← memcpy ctx.ctr 0 diversifier 0 8
    let ctr ← wr ctr 11 (UInt8.ofNat (maxlen % 256))
    let m1 := maxlen >>> 8
    let ctr ← wr ctr 10 (UInt8.ofNat (m1 % 256))
    let m2 := m1 >>> 8
    let ctr ← wr ctr 9 (UInt8.ofNat (m2 % 256))
    let m3 := m2 >>> 8
    let ctr ← wr ctr 8 (UInt8.ofNat (m3 % 256))
    let ctr ← memset ctr 12 0x00 4
    let buffer ← memset ctx.buffer 0 0x00 16
    pure (RNG_SUCCESS, ⟨buffer, 16, maxlen, key, ctr⟩)

/-- `int` to `unsigned long`, and back. -/
def toULong (x : Int) : Nat := (x % 2 ^ 64).toNat
def toInt (x : Nat) : Int := (BitVec.ofNat 32 x).toInt

/-- State of the loop of `seedexpander`. -/
structure SeSt where
  x : Mem UInt8
  offset : Nat
  xlen : Nat
  ctx : AES_XOF
  returned : Bool

/-- rng.c:74-99, the body of the loop. -/
def seBody (aes : Cipher) (xo : Nat) (s : SeSt) : C SeSt := do
  let avail := toULong (← isub 16 s.ctx.buffer_pos)
  cif (decide (s.xlen ≤ avail))
    (do
      let x ← memcpy s.x (xo + s.offset) s.ctx.buffer s.ctx.buffer_pos.toNat s.xlen
      let pos := toInt ((toULong s.ctx.buffer_pos + s.xlen) % 2 ^ 64)
      pure { s with x := x, ctx := { s.ctx with buffer_pos := pos }, returned := true })
    (do
      let x ← memcpy s.x (xo + s.offset) s.ctx.buffer s.ctx.buffer_pos.toNat avail
      let xlen := s.xlen - avail
      let offset := (s.offset + avail) % 2 ^ 64
      let buffer ← AES256_ECB aes s.ctx.key s.ctx.ctr s.ctx.buffer 0
      let ctr ← incrBE s.ctx.ctr 12 4
      pure ⟨x, offset, xlen, { s.ctx with buffer := buffer, buffer_pos := 0, ctr := ctr }, false⟩)

/-- rng.c:60-102 `seedexpander`; `none` is a null pointer. -/
def seedexpander (aes : Cipher) (ctx : AES_XOF) (x : Option (Mem UInt8)) (xo xlen : Nat) : C (Int × AES_XOF × Option (Mem UInt8)) := do
  C.leak (.br x.isNone)
  match x with
  | none => pure (RNG_BAD_OUTBUF, ctx, none)
  | some x =>
    cif (decide (xlen ≥ ctx.length_remaining)) (pure (RNG_BAD_REQ_LEN, ctx, some x)) do
      let s ← cwhile (2 * xlen + 2) (fun s : SeSt => !s.returned && decide (0 < s.xlen)) (seBody aes xo)
        ⟨x, 0, xlen, { ctx with length_remaining := ctx.length_remaining - xlen }, false⟩
      pure (RNG_SUCCESS, s.ctx, some s.x)

end Verif.Model
