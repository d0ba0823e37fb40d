import Verif.Model.Drbg

/-! # Model of ref/nistkat/rng.c with the calls of OpenSSL that can fail

As Model/Drbg, but `AES256_ECB` makes the calls of OpenSSL one by one; they are external and may fail, and then `handleErrors` ends the program. What OpenSSL writes to the buffer before it fails is left out, since
the program ends, and so is `len`, which the code stores and does not use. -/

set_option autoImplicit false

namespace Verif.Model

/-- OpenSSL with a state `σ`; `Ctx` are the pointers to contexts. -/
structure Evp (σ Ctx : Type) where
  /-- EVP_CIPHER_CTX_new(): a context or a null pointer -/
  new : σ → Option Ctx × σ
  /-- EVP_EncryptInit_ex(ctx, EVP_aes_256_ecb(), NULL, key, NULL) -/
  init : Ctx → List UInt8 → σ → Int × σ
  /-- EVP_EncryptUpdate(ctx, buffer, &len, ctr, 16): the result and what is written to the buffer -/
  update : Ctx → List UInt8 → σ → (Int × List UInt8) × σ
  /-- EVP_CIPHER_CTX_free(ctx) -/
  free : Ctx → σ → σ

/-- Code that may end the program (`none`) and uses OpenSSL. -/
def Ab (σ α : Type) : Type := σ → C (Option α × σ)

instance {σ : Type} : Monad (Ab σ) where
  pure v s := pure (some v, s)
  bind m f s := C.bind (m s) fun
    | (some v, s) => f v s
    | (none, s) => pure (none, s)

variable {σ Ctx : Type}

/-- Code that does not use OpenSSL. -/
def Ab.lift {α : Type} (m : C α) : Ab σ α := fun s => C.bind m fun v => pure (some v, s)

/-- A call of OpenSSL. -/
def Ab.call {α : Type} (f : σ → α × σ) : Ab σ α := fun s => pure (some (f s).1, (f s).2)

/-- rng.c:105-109 `handleErrors`. -/
def handleErrors {α : Type} : Ab σ α := fun s => pure (none, s)

/-- `for` and `while` as `cfor` and `cwhile`. -/
def aforFrom {τ : Type} (body : Nat → τ → Ab σ τ) : (n i : Nat) → τ → Ab σ τ
  | 0, _, x => do Ab.lift (C.leak (.br false)); pure x
  | n + 1, i, x => do
    Ab.lift (C.leak (.br true))
    let x ← body i x
    aforFrom body n (i + 1) x

def afor {τ : Type} (lo hi : Nat) (x : τ) (body : Nat → τ → Ab σ τ) : Ab σ τ := aforFrom body (hi - lo) lo x

def awhile {τ : Type} (fuel : Nat) (cond : τ → Bool) (body : τ → Ab σ τ) (x : τ) : Ab σ τ :=
  match fuel with
  | 0 => fun _ => .diverge
  | fuel + 1 =>
    if cond x then do
      Ab.lift (C.leak (.br true))
      let x ← body x
      awhile fuel cond body x
    else do
      Ab.lift (C.leak (.br false))
      pure x

def aif {α : Type} (c : Bool) (a b : Ab σ α) : Ab σ α := do
  Ab.lift (C.leak (.br c))
  if c then a else b

/-- rng.c:115-136 `AES256_ECB`, writing to `buffer + bo`. -/
def evpECB (L : Evp σ Ctx) (key ctr buffer : Mem UInt8) (bo : Nat) : Ab σ (Mem UInt8) := do
  match ← Ab.call L.new with
  | none => handleErrors
  | some ctx =>
    let k ← Ab.lift (rdBytes key 0 32)
    let r ← Ab.call (L.init ctx k)
    if r ≠ 1 then handleErrors else
      let c ← Ab.lift (rdBytes ctr 0 16)
      let (r, out) ← Ab.call (L.update ctx c)
      if r ≠ 1 then handleErrors else
        let buffer ← Ab.lift (cfor 0 16 buffer fun i buffer => wr buffer (bo + i) (out.getD i 0))
        Ab.call fun s => ((), L.free ctx s)
        pure buffer

/-- rng.c:188-213 `AES256_CTR_DRBG_Update`. -/
def evpUpdate (L : Evp σ Ctx) (provided : Option (Mem UInt8)) (Key V : Mem UInt8) : Ab σ (Mem UInt8 × Mem UInt8) := do
  let (temp, V) ← afor 0 3 (Mem.uninit UInt8 48, V) fun i (temp, V) => do
    let V ← Ab.lift (incrBE V 0 16)
    let temp ← evpECB L Key V temp (16 * i)
    pure (temp, V)
  let temp ← Ab.lift (xorOpt temp provided)
  let Key ← Ab.lift (memcpy Key 0 temp 0 32)
  let V ← Ab.lift (memcpy V 0 temp 32 16)
  pure (Key, V)

/-- rng.c:138-153 `randombytes_init`. -/
def evpInit (L : Evp σ Ctx) (g : DRBG) (entropy : Mem UInt8) (personalization : Option (Mem UInt8)) : Ab σ DRBG := do
  let seed ← Ab.lift (memcpy (Mem.uninit UInt8 48) 0 entropy 0 48)
  let seed ← Ab.lift (xorOpt seed personalization)
  let Key ← Ab.lift (memset g.Key 0 0x00 32)
  let V ← Ab.lift (memset g.V 0 0x00 16)
  let (Key, V) ← evpUpdate L (some seed) Key V
  pure ⟨Key, V, 1⟩

/-- rng.c:162-181, the body of the loop. -/
def evpBody (L : Evp σ Ctx) (Key : Mem UInt8) (xo : Nat) (s : RbSt) : Ab σ RbSt := do
  let V ← Ab.lift (incrBE s.V 0 16)
  let block ← evpECB L Key V s.block 0
  aif (decide (s.xlen > 15))
    (do
      let x ← Ab.lift (memcpy s.x (xo + s.i.toNat) block 0 16)
      let i ← Ab.lift (iadd s.i 16)
      pure ⟨x, i, s.xlen - 16, V, block⟩)
    (do
      let x ← Ab.lift (memcpy s.x (xo + s.i.toNat) block 0 s.xlen)
      pure ⟨x, s.i, 0, V, block⟩)

/-- rng.c:155-186 `randombytes`. -/
def evpRandombytes (L : Evp σ Ctx) (g : DRBG) (x : Mem UInt8) (xo xlen : Nat) : Ab σ (Mem UInt8 × Int × DRBG) := do
  let s ← awhile (xlen + 1) (fun s : RbSt => decide (0 < s.xlen)) (evpBody L g.Key xo) ⟨x, 0, xlen, g.V, Mem.uninit UInt8 16⟩
  let (Key, V) ← evpUpdate L none g.Key s.V
  let r ← Ab.lift (iadd g.reseed_counter 1)
  pure (s.x, RNG_SUCCESS, ⟨Key, V, r⟩)

/-- rng.c:74-99, the body of the loop of `seedexpander`. -/
def evpSeBody (L : Evp σ Ctx) (xo : Nat) (s : SeSt) : Ab σ SeSt := do
  let avail := toULong (← Ab.lift (isub 16 s.ctx.buffer_pos))
  aif (decide (s.xlen ≤ avail))
    (do
      let x ← Ab.lift (memcpy s.x (xo + s.offset) s.ctx.buffer s.ctx.buffer_pos.toNat s.xlen)
      let pos := toInt ((toULong s.ctx.buffer_pos + s.xlen) % 2 ^ 64)
      pure { s with x := x, ctx := { s.ctx with buffer_pos := pos }, returned := true })
    (do
      let x ← Ab.lift (memcpy s.x (xo + s.offset) s.ctx.buffer s.ctx.buffer_pos.toNat avail)
      let xlen := s.xlen - avail
      let offset := (s.offset + avail) % 2 ^ 64
      let buffer ← evpECB L s.ctx.key s.ctx.ctr s.ctx.buffer 0
      let ctr ← Ab.lift (incrBE s.ctx.ctr 12 4)
      pure ⟨x, offset, xlen, { s.ctx with buffer := buffer, buffer_pos := 0, ctr := ctr }, false⟩)

/-- rng.c:60-102 `seedexpander`. -/
def evpSeedexpander (L : Evp σ Ctx) (ctx : AES_XOF) (x : Option (Mem UInt8)) (xo xlen : Nat) : Ab σ (Int × AES_XOF × Option (Mem UInt8)) := do
  Ab.lift (C.leak (.br x.isNone))
  match x with
  | none => pure (RNG_BAD_OUTBUF, ctx, none)
  | some x =>
    aif (decide (xlen ≥ ctx.length_remaining)) (pure (RNG_BAD_REQ_LEN, ctx, some x)) do
      let s ← awhile (2 * xlen + 2) (fun s : SeSt => !s.returned && decide (0 < s.xlen)) (evpSeBody L xo)
        ⟨x, 0, xlen, { ctx with length_remaining := ctx.length_remaining - xlen }, false⟩
      pure (RNG_SUCCESS, s.ctx, some s.x)

end Verif.Model
