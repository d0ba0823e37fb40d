import Verif.C.Conv
import Verif.Model.Keccak

/-! # Model of ref/fips202.c (sponge part) and ref/fips202.h

`size_t` sums are taken modulo 2^64 where the code adds a length to a position. Pointer increments (`in++`, `out += r`) are
offsets carried in the loop state. -/

namespace Verif.Model

/-- ref/fips202.h:7-10 -/
def SHAKE128_RATE : Nat := 168
def SHAKE256_RATE : Nat := 136
def SHA3_256_RATE : Nat := 136
def SHA3_512_RATE : Nat := 72

/-- `(uint64_t)x << 8*k` for a byte `x` and `k < 8`. -/
def byteAt (x : UInt8) (k : Nat) : UInt64 := x.toUInt64 <<< (UInt64.ofNat (8 * k))

/-- `(uint8_t)(u >> 8*k)` for `k < 8`. -/
def byteOf (u : UInt64) (k : Nat) : UInt8 := (u >>> (UInt64.ofNat (8 * k))).toUInt8

/-- ref/fips202.c:22-30 `load64`. -/
def load64 (x : Mem UInt8) (o : Nat) : C UInt64 :=
  cfor 0 8 (0 : UInt64) fun i r => do
    let b ← rd x (o + i)
    pure (r ||| byteAt b i)

/-- ref/fips202.c:40-45 `store64`. -/
def store64 (x : Mem UInt8) (o : Nat) (u : UInt64) : C (Mem UInt8) :=
  cfor 0 8 x fun i x => wr x (o + i) (byteOf u i)

/-- ref/fips202.c:353-358 `keccak_init`. -/
def keccak_init (s : Mem UInt64) : C (Mem UInt64) :=
  cfor 0 25 s fun i s => wr s i 0

/-- The statement `s[i/8] ^= (uint64_t)b << 8*(i%8)` (ref/fips202.c:383, 390, 407, 481, 483). -/
def xorByte (s : Mem UInt64) (i : Nat) (b : UInt8) : C (Mem UInt64) := do
  let x ← rd s (i / 8)
  wr s (i / 8) (x ^^^ byteAt b (i % 8))

/-- ref/fips202.c:373-393 `keccak_absorb`. Loop state: `(s, pos, offset of in, inlen)`. The subtraction `r-pos` is exact for
`pos ≤ r`, which every caller satisfies. -/
def keccak_absorb (s : Mem UInt64) (pos r : Nat) (inp : Mem UInt8) (io inlen : Nat) :
    C (Mem UInt64 × Nat) := do
  let st ← cwhile (inlen + 2)
    (fun (st : Mem UInt64 × Nat × Nat × Nat) => decide ((st.2.1 + st.2.2.2) % 2 ^ 64 ≥ r))
    (fun (s, pos, io, inlen) => do
      let s ← cfor pos r s fun i s => do
        let b ← rd inp (io + (i - pos))
        xorByte s i b
      let io := io + (r - pos)
      let inlen := inlen - (r - pos)
      let s ← KeccakF1600_StatePermute s
      pure (s, 0, io, inlen))
    (s, pos, io, inlen)
  let (s, pos, io, inlen) := st
  let s ← cfor pos (pos + inlen) s fun i s => do
    let b ← rd inp (io + (i - pos))
    xorByte s i b
  pure (s, pos + inlen)

/-- ref/fips202.c:405-409 `keccak_finalize`. -/
def keccak_finalize (s : Mem UInt64) (pos r : Nat) (p : UInt8) : C (Mem UInt64) := do
  let s ← xorByte s pos p
  let x ← rd s (r / 8 - 1)
  wr s (r / 8 - 1) (x ^^^ ((1 : UInt64) <<< 63))

/-- ref/fips202.c:426-446 `keccak_squeeze`. Loop state: `(out, offset of out, outlen, s, pos)`. The inner loop condition
`i < r && i < pos+outlen` is run as `i < min r (pos+outlen)`. Returns the updated output, state and position. -/
def keccak_squeeze (out : Mem UInt8) (oo outlen : Nat) (s : Mem UInt64) (pos r : Nat) :
    C (Mem UInt8 × Mem UInt64 × Nat) := do
  let st ← cwhile (outlen + 2)
    (fun (st : Mem UInt8 × Nat × Nat × Mem UInt64 × Nat) => decide (st.2.2.1 ≠ 0))
    (fun (out, oo, outlen, s, pos) => do
      let (s, pos) ← cif (decide (pos = r))
        (do let s ← KeccakF1600_StatePermute s; pure (s, 0))
        (pure (s, pos))
      let hi := min r ((pos + outlen) % 2 ^ 64)
      let out ← cfor pos hi out fun i out => do
        let x ← rd s (i / 8)
        wr out (oo + (i - pos)) (byteOf x (i % 8))
      let i := max pos hi
      pure (out, oo + (i - pos), outlen - (i - pos), s, i))
    (out, oo, outlen, s, pos)
  pure (st.1, st.2.2.2.1, st.2.2.2.2)

/-- ref/fips202.c:461-485 `keccak_absorb_once`. Loop state: `(s, offset of in, inlen)`. -/
def keccak_absorb_once (s : Mem UInt64) (r : Nat) (inp : Mem UInt8) (io inlen : Nat) (p : UInt8) :
    C (Mem UInt64) := do
  let s ← cfor 0 25 s fun i s => wr s i 0
  let st ← cwhile (inlen + 1)
    (fun (st : Mem UInt64 × Nat × Nat) => decide (st.2.2 ≥ r))
    (fun (s, io, inlen) => do
      let s ← cfor 0 (r / 8) s fun i s => do
        let w ← load64 inp (io + 8 * i)
        let x ← rd s i
        wr s i (x ^^^ w)
      let s ← KeccakF1600_StatePermute s
      pure (s, io + r, inlen - r))
    (s, io, inlen)
  let (s, io, inlen) := st
  let s ← cfor 0 inlen s fun i s => do
    let b ← rd inp (io + i)
    xorByte s i b
  let s ← xorByte s inlen p
  let x ← rd s ((r - 1) / 8)
  wr s ((r - 1) / 8) (x ^^^ ((1 : UInt64) <<< 63))

/-- ref/fips202.c:500-514 `keccak_squeezeblocks`. Loop state: `(out, offset of out, nblocks, s)`. -/
def keccak_squeezeblocks (out : Mem UInt8) (oo nblocks : Nat) (s : Mem UInt64) (r : Nat) :
    C (Mem UInt8 × Mem UInt64) := do
  let st ← cwhile (nblocks + 1)
    (fun (st : Mem UInt8 × Nat × Nat × Mem UInt64) => decide (st.2.2.1 ≠ 0))
    (fun (out, oo, nblocks, s) => do
      let s ← KeccakF1600_StatePermute s
      let out ← cfor 0 (r / 8) out fun i out => do
        let x ← rd s i
        store64 out (oo + 8 * i) x
      pure (out, oo + r, nblocks - 1, s))
    (out, oo, nblocks, s)
  pure (st.1, st.2.2.2)

/-- ref/fips202.h:14-17 `keccak_state`: 25 lanes and a position. -/
structure KeccakState where
  s : Mem UInt64
  pos : Option Nat

/-- A `keccak_state` on the stack, contents indeterminate. -/
def KeccakState.uninit : KeccakState := ⟨Mem.uninit UInt64 25, none⟩

/-- Read of `state->pos`. -/
def KeccakState.getPos (st : KeccakState) : C Nat :=
  match st.pos with
  | none => .ub .uninit
  | some p => pure p

/-- ref/fips202.c:523-527, 610-614 `shake128_init`, `shake256_init` (identical bodies). -/
def shake128_init (st : KeccakState) : C KeccakState := do
  let s ← keccak_init st.s
  pure ⟨s, some 0⟩

def shake256_init (st : KeccakState) : C KeccakState := do
  let s ← keccak_init st.s
  pure ⟨s, some 0⟩

/-- ref/fips202.c:538-541 `shake128_absorb`. -/
def shake128_absorb (st : KeccakState) (inp : Mem UInt8) (io inlen : Nat) : C KeccakState := do
  let (s, pos) ← keccak_absorb st.s (← st.getPos) SHAKE128_RATE inp io inlen
  pure ⟨s, some pos⟩

/-- ref/fips202.c:550-554 `shake128_finalize`. -/
def shake128_finalize (st : KeccakState) : C KeccakState := do
  let s ← keccak_finalize st.s (← st.getPos) SHAKE128_RATE 0x1F
  pure ⟨s, some SHAKE128_RATE⟩

/-- ref/fips202.c:566-569 `shake128_squeeze`. -/
def shake128_squeeze (out : Mem UInt8) (oo outlen : Nat) (st : KeccakState) :
    C (Mem UInt8 × KeccakState) := do
  let (out, s, pos) ← keccak_squeeze out oo outlen st.s (← st.getPos) SHAKE128_RATE
  pure (out, ⟨s, some pos⟩)

/-- ref/fips202.c:580-584 `shake128_absorb_once`. -/
def shake128_absorb_once (st : KeccakState) (inp : Mem UInt8) (io inlen : Nat) : C KeccakState := do
  let s ← keccak_absorb_once st.s SHAKE128_RATE inp io inlen 0x1F
  pure ⟨s, some SHAKE128_RATE⟩

/-- ref/fips202.c:598-601 `shake128_squeezeblocks`. -/
def shake128_squeezeblocks (out : Mem UInt8) (oo nblocks : Nat) (st : KeccakState) :
    C (Mem UInt8 × KeccakState) := do
  let (out, s) ← keccak_squeezeblocks out oo nblocks st.s SHAKE128_RATE
  pure (out, ⟨s, st.pos⟩)

/-- ref/fips202.c:625-628 `shake256_absorb`. -/
def shake256_absorb (st : KeccakState) (inp : Mem UInt8) (io inlen : Nat) : C KeccakState := do
  let (s, pos) ← keccak_absorb st.s (← st.getPos) SHAKE256_RATE inp io inlen
  pure ⟨s, some pos⟩

/-- ref/fips202.c:637-641 `shake256_finalize`. -/
def shake256_finalize (st : KeccakState) : C KeccakState := do
  let s ← keccak_finalize st.s (← st.getPos) SHAKE256_RATE 0x1F
  pure ⟨s, some SHAKE256_RATE⟩

/-- ref/fips202.c:653-656 `shake256_squeeze`. -/
def shake256_squeeze (out : Mem UInt8) (oo outlen : Nat) (st : KeccakState) :
    C (Mem UInt8 × KeccakState) := do
  let (out, s, pos) ← keccak_squeeze out oo outlen st.s (← st.getPos) SHAKE256_RATE
  pure (out, ⟨s, some pos⟩)

/-- ref/fips202.c:667-671 `shake256_absorb_once`. -/
def shake256_absorb_once (st : KeccakState) (inp : Mem UInt8) (io inlen : Nat) : C KeccakState := do
  let s ← keccak_absorb_once st.s SHAKE256_RATE inp io inlen 0x1F
  pure ⟨s, some SHAKE256_RATE⟩

/-- ref/fips202.c:685-688 `shake256_squeezeblocks`. -/
def shake256_squeezeblocks (out : Mem UInt8) (oo nblocks : Nat) (st : KeccakState) :
    C (Mem UInt8 × KeccakState) := do
  let (out, s) ← keccak_squeezeblocks out oo nblocks st.s SHAKE256_RATE
  pure (out, ⟨s, st.pos⟩)

/-- ref/fips202.c:700-711 `shake128`. -/
def shake128 (out : Mem UInt8) (oo outlen : Nat) (inp : Mem UInt8) (io inlen : Nat) :
    C (Mem UInt8) := do
  let st ← shake128_absorb_once KeccakState.uninit inp io inlen
  let nblocks := outlen / SHAKE128_RATE
  let (out, st) ← shake128_squeezeblocks out oo nblocks st
  let outlen := outlen - nblocks * SHAKE128_RATE
  let oo := oo + nblocks * SHAKE128_RATE
  let (out, _) ← shake128_squeeze out oo outlen st
  pure out

/-- ref/fips202.c:723-734 `shake256`. -/
def shake256 (out : Mem UInt8) (oo outlen : Nat) (inp : Mem UInt8) (io inlen : Nat) :
    C (Mem UInt8) := do
  let st ← shake256_absorb_once KeccakState.uninit inp io inlen
  let nblocks := outlen / SHAKE256_RATE
  let (out, st) ← shake256_squeezeblocks out oo nblocks st
  let outlen := outlen - nblocks * SHAKE256_RATE
  let oo := oo + nblocks * SHAKE256_RATE
  let (out, _) ← shake256_squeeze out oo outlen st
  pure out

/-- ref/fips202.c:745-754 `sha3_256`. All of `in` is read before `h` is written, so `h` and `in` may be the same object. -/
def sha3_256 (h : Mem UInt8) (ho : Nat) (inp : Mem UInt8) (io inlen : Nat) : C (Mem UInt8) := do
  let s ← keccak_absorb_once (Mem.uninit UInt64 25) SHA3_256_RATE inp io inlen 0x06
  let s ← KeccakF1600_StatePermute s
  cfor 0 4 h fun i h => do
    let x ← rd s i
    store64 h (ho + 8 * i) x

/-- ref/fips202.c:765-774 `sha3_512`. All of `in` is read before `h` is written, so `h` and `in` may be the same object. -/
def sha3_512 (h : Mem UInt8) (ho : Nat) (inp : Mem UInt8) (io inlen : Nat) : C (Mem UInt8) := do
  let s ← keccak_absorb_once (Mem.uninit UInt64 25) SHA3_512_RATE inp io inlen 0x06
  let s ← KeccakF1600_StatePermute s
  cfor 0 8 h fun i h => do
    let x ← rd s i
    store64 h (ho + 8 * i) x

end Verif.Model
