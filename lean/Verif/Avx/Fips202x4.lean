import Verif.Avx.Keccak4

/-! # avx2/fips202x4.c: SHAKE on four inputs in parallel

The four input (output) pointers are four byte arrays with a common offset. A gather instruction reads eight bytes at each of the four addresses. For an
input length that is not a multiple of 8, the last gather reads up to seven bytes after the input; in the callers these bytes belong to the buffer but are
not initialised, and they are masked out afterwards. Such a read gives an arbitrary byte, taken from the parameter `junk` (array number, offset); every
theorem is for all `junk`. A read outside the array is an error as everywhere. -/

namespace Verif.Avx
open Verif.Model (byteAt byteOf SHAKE128_RATE SHAKE256_RATE store64)

/-- Four byte arrays. -/
abbrev M4 := Fin 4 → Mem UInt8

/-- Read of a byte by a gather. -/
def rdJunk (junk : Nat → UInt8) (m : Mem UInt8) (i : Nat) : C UInt8 :=
  match m[i]? with
  | none => .ub .oob
  | some none => do C.leak (.ld i); pure (junk i)
  | some (some v) => do C.leak (.ld i); pure v

/-- Read of a 64-bit word by a gather. -/
def gather64 (junk : Nat → UInt8) (x : Mem UInt8) (o : Nat) : C UInt64 :=
  cfor 0 8 (0 : UInt64) fun i r => do
    let b ← rdJunk junk x (o + i)
    pure (r ||| byteAt b i)

/-- `_mm256_i64gather_epi64((long long *)pos, idx, 1)` where `idx` holds the four pointers. -/
def gather (junk : Fin 4 → Nat → UInt8) (x : M4) (pos : Nat) : C V4 := do
  let w0 ← gather64 (junk 0) (x 0) pos
  let w1 ← gather64 (junk 1) (x 1) pos
  let w2 ← gather64 (junk 2) (x 2) pos
  let w3 ← gather64 (junk 3) (x 3) pos
  pure fun j => [w0, w1, w2, w3].getD j.val 0

/-- `_mm256_and_si256`, `_mm256_set1_epi64x` -/
def AND256 (a b : V4) : V4 := fun j => a j &&& b j
def set1_epi64x (a : UInt64) : V4 := fun _ => a

/-- The statements `t = gather(pos); s[i] = s[i] ^ t; pos += 8` for `i < n`. -/
def xorLanes4 (junk : Fin 4 → Nat → UInt8) (s : Mem V4) (x : M4) (pos n : Nat) : C (Mem V4) :=
  cfor 0 n s fun i s => do
    let t ← gather junk x (pos + 8 * i)
    let v ← rd s i
    wr s i (XOR256 v t)

/-- avx2/fips202x4.c:12-58 `keccakx4_absorb_once`. Loop state: `(s, pos, inlen)`. -/
def keccakx4_absorb_once (junk : Fin 4 → Nat → UInt8) (s : Mem V4) (r : Nat) (x : M4) (inlen : Nat) (p : UInt8) : C (Mem V4) := do
  let s ← cfor 0 25 s fun i s => wr s i (set1_epi64x 0)
  let st ← cwhile (inlen + 1)
    (fun (st : Mem V4 × Nat × Nat) => decide (st.2.2 ≥ r))
    (fun (s, pos, inlen) => do
      let s ← xorLanes4 junk s x pos (r / 8)
      let s ← PermuteAll_24rounds s
      pure (s, pos + 8 * (r / 8), inlen - r))
    (s, 0, inlen)
  let (s, pos, inlen) := st
  let s ← xorLanes4 junk s x pos (inlen / 8)
  let i := inlen / 8
  let pos := pos + 8 * i
  let inlen := inlen - 8 * i
  let s ← cif (decide (inlen ≠ 0))
    (do
      let t ← gather junk x pos
      let t := AND256 t (set1_epi64x (((1 : UInt64) <<< UInt64.ofNat (8 * inlen)) - 1))
      let v ← rd s i
      wr s i (XOR256 v t))
    (pure s)
  let t := set1_epi64x (byteAt p inlen)
  let v ← rd s i
  let s ← wr s i (XOR256 v t)
  let t := set1_epi64x ((1 : UInt64) <<< 63)
  let v ← rd s (r / 8 - 1)
  wr s (r / 8 - 1) (XOR256 v t)

/-- Replace one of the four arrays. -/
def M4.set (out : M4) (k : Fin 4) (m : Mem UInt8) : M4 := fun j => if j = k then m else out j

/-- avx2/fips202x4.c:60-88 `keccakx4_squeezeblocks`. `_mm_storel_pd` and `_mm_storeh_pd` store the low and the high 64 bits of a 128-bit half. The four
output arrays are distinct. Loop state: `(out, offset, nblocks, s)`. -/
def keccakx4_squeezeblocks (out : M4) (oo nblocks r : Nat) (s : Mem V4) : C (M4 × Mem V4) := do
  let st ← cwhile (nblocks + 1)
    (fun (st : M4 × Nat × Nat × Mem V4) => decide (st.2.2.1 > 0))
    (fun (out, oo, nblocks, s) => do
      let s ← PermuteAll_24rounds s
      let out ← cfor 0 (r / 8) out fun i out => do
        let v ← rd s i
        let o0 ← store64 (out 0) (oo + 8 * i) (v 0)
        let out := out.set 0 o0
        let o1 ← store64 (out 1) (oo + 8 * i) (v 1)
        let out := out.set 1 o1
        let o2 ← store64 (out 2) (oo + 8 * i) (v 2)
        let out := out.set 2 o2
        let o3 ← store64 (out 3) (oo + 8 * i) (v 3)
        pure (out.set 3 o3)
      pure (out, oo + r, nblocks - 1, s))
    (out, oo, nblocks, s)
  pure (st.1, st.2.2.2)

/-- avx2/fips202x4.c:90-98, 110-118 -/
def shake128x4_absorb_once (junk : Fin 4 → Nat → UInt8) (s : Mem V4) (x : M4) (inlen : Nat) : C (Mem V4) :=
  keccakx4_absorb_once junk s SHAKE128_RATE x inlen 0x1F
def shake256x4_absorb_once (junk : Fin 4 → Nat → UInt8) (s : Mem V4) (x : M4) (inlen : Nat) : C (Mem V4) :=
  keccakx4_absorb_once junk s SHAKE256_RATE x inlen 0x1F

/-- avx2/fips202x4.c:100-108, 120-128 -/
def shake128x4_squeezeblocks (out : M4) (oo nblocks : Nat) (s : Mem V4) : C (M4 × Mem V4) := keccakx4_squeezeblocks out oo nblocks SHAKE128_RATE s
def shake256x4_squeezeblocks (out : M4) (oo nblocks : Nat) (s : Mem V4) : C (M4 × Mem V4) := keccakx4_squeezeblocks out oo nblocks SHAKE256_RATE s

/-- The copy loop of avx2/fips202x4.c:157-162, 193-198: `outk[i] = t[k][i]`. -/
def copy4 (out : M4) (oo : Nat) (t : M4) (n : Nat) : C M4 :=
  cfor 0 n out fun i out => do
    let o0 ← wr (out 0) (oo + i) (← rd (t 0) i)
    let out := out.set 0 o0
    let o1 ← wr (out 1) (oo + i) (← rd (t 1) i)
    let out := out.set 1 o1
    let o2 ← wr (out 2) (oo + i) (← rd (t 2) i)
    let out := out.set 2 o2
    let o3 ← wr (out 3) (oo + i) (← rd (t 3) i)
    pure (out.set 3 o3)

/-- avx2/fips202x4.c:130-164 `shake128x4` -/
def shake128x4 (junk : Fin 4 → Nat → UInt8) (out : M4) (oo outlen : Nat) (x : M4) (inlen : Nat) : C M4 := do
  let nblocks := outlen / SHAKE128_RATE
  let s ← shake128x4_absorb_once junk (Mem.uninit V4 25) x inlen
  let (out, s) ← shake128x4_squeezeblocks out oo nblocks s
  let oo := oo + nblocks * SHAKE128_RATE
  let outlen := outlen - nblocks * SHAKE128_RATE
  cif (decide (outlen ≠ 0))
    (do
      let (t, _) ← shake128x4_squeezeblocks (fun _ => Mem.uninit UInt8 SHAKE128_RATE) 0 1 s
      copy4 out oo t outlen)
    (pure out)

/-- avx2/fips202x4.c:166-200 `shake256x4` -/
def shake256x4 (junk : Fin 4 → Nat → UInt8) (out : M4) (oo outlen : Nat) (x : M4) (inlen : Nat) : C M4 := do
  let nblocks := outlen / SHAKE256_RATE
  let s ← shake256x4_absorb_once junk (Mem.uninit V4 25) x inlen
  let (out, s) ← shake256x4_squeezeblocks out oo nblocks s
  let oo := oo + nblocks * SHAKE256_RATE
  let outlen := outlen - nblocks * SHAKE256_RATE
  cif (decide (outlen ≠ 0))
    (do
      let (t, _) ← shake256x4_squeezeblocks (fun _ => Mem.uninit UInt8 SHAKE256_RATE) 0 1 s
      copy4 out oo t outlen)
    (pure out)

end Verif.Avx
