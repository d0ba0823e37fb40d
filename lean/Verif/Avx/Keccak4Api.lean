import Verif.Avx.Keccak4
import Verif.Model.Drbg

/-! # avx2/keccak4x/KeccakP-1600-times4-SIMD256.c: the functions that avx2/fips202x4.c does not call

The file exports the whole interface of the Keccak team for four interleaved states; the library calls `PermuteAll_24rounds` only. The states are 800 bytes
at address `sa`; the code accesses them as `V256`, as `UINT64` and as bytes, and the platform is little-endian (lines 28-30). Buffers are byte arrays with
an address (`da`, `ia`, `oa`) and an offset. States and buffers do not overlap. Beyond the rules of the rest of the model:

* a pointer converted to `UINT64 *` must be a multiple of 8 (C11 6.3.2.3p7), one dereferenced as `V256` a multiple of 32;
* pointer arithmetic must stay within the array or one past its end (C11 6.5.6p8);
* `unsigned int` arithmetic is modulo 2^32 and `size_t` arithmetic modulo 2^64, where the result can be larger.

Effective types (C11 6.5p7) are not modelled. -/

namespace Verif.Avx.SnP
open Verif.Model (byteAt byteOf load64 store64 memset)

/-- Reduction of an `unsigned int` result. -/
def u (x : Nat) : Nat := x % 4294967296

/-- Conversion to `UINT64 *`. -/
def ptr64 (addr : Nat) : C Unit := if addr % 8 = 0 then pure () else .ub .align

/-- Access through a `V256 *` at `addr`. -/
def ptr256 (addr : Nat) : C Unit := if addr % 32 = 0 then pure () else .ub .align

/-- Pointer arithmetic with result `m + o`. -/
def ptr (m : Mem UInt8) (o : Nat) : C Nat := if o ≤ m.size then pure o else .ub .oob

/-- avx2/keccak4x/KeccakP-1600-times4-SIMD256.c:37 `laneIndex` -/
def laneIndex (inst pos : Nat) : Nat := u (u (pos * 4) + inst)

/-- `statesAsLanes[L] ^= lane` -/
def xorLane (st : Mem UInt8) (L : Nat) (lane : UInt64) : C (Mem UInt8) := do
  let v ← load64 st (8 * L)
  store64 st (8 * L) (v ^^^ lane)

/-- `UINT64 lane = 0; memcpy((unsigned char*)&lane + o, curData, n);` and the value of `lane`. -/
def partLane (o : Nat) (data : Mem UInt8) (cur n : Nat) : C UInt64 := do
  let lane ← memcpy (Mem.ofList [0, 0, 0, 0, 0, 0, 0, 0]) o data cur n
  load64 lane 0

/-- avx2/keccak4x/KeccakP-1600-times4-SIMD256.c:83-86 `KeccakP1600times4_InitializeAll` -/
def InitializeAll (st : Mem UInt8) : C (Mem UInt8) := memset st 0 0 800

/-- avx2/keccak4x/KeccakP-1600-times4-SnP.h:36-37 `KeccakP1600times4_AddByte` -/
def AddByte (st : Mem UInt8) (inst : Nat) (byte : UInt8) (offset : Nat) : C (Mem UInt8) := do
  let o := u (u (u (inst * 8) + u (u (offset / 8 * 4) * 8)) + offset % 8)
  let v ← rd st o
  wr st o (v ^^^ byte)

/-- avx2/keccak4x/KeccakP-1600-times4-SIMD256.c:88-121 `KeccakP1600times4_AddBytes`. Loop state: `(states, sizeLeft, lanePosition, curData)`. -/
def AddBytes (sa : Nat) (st : Mem UInt8) (inst da : Nat) (data : Mem UInt8) (d offset length : Nat) : C (Mem UInt8) := do
  ptr64 sa
  let (st, sizeLeft, pos, cur) ← cif (decide (length > 0) && decide (offset % 8 ≠ 0))
    (do
      let bytesInLane ← cif (decide (8 - offset % 8 > length)) (pure length) (pure (8 - offset % 8))
      let lane ← partLane (offset % 8) data d bytesInLane
      let st ← xorLane st (laneIndex inst (offset / 8)) lane
      let cur ← ptr data (d + bytesInLane)
      pure (st, length - bytesInLane, offset / 8 + 1, cur))
    (pure (st, length, offset / 8, d))
  let (st, sizeLeft, pos, cur) ← cwhile (length / 8 + 1)
    (fun (s : Mem UInt8 × Nat × Nat × Nat) => decide (s.2.1 ≥ 8))
    (fun (st, sizeLeft, pos, cur) => do
      ptr64 (da + cur)
      let lane ← load64 data cur
      let st ← xorLane st (laneIndex inst pos) lane
      let cur ← ptr data (cur + 8)
      pure (st, sizeLeft - 8, pos + 1, cur))
    (st, sizeLeft, pos, cur)
  cif (decide (sizeLeft > 0))
    (do
      let lane ← partLane 0 data cur sizeLeft
      xorLane st (laneIndex inst pos) lane)
    (pure st)

/-- avx2/keccak4x/KeccakP-1600-times4-SIMD256.c:168-197 `KeccakP1600times4_OverwriteBytes`. Loop state as above. -/
def OverwriteBytes (sa : Nat) (st : Mem UInt8) (inst da : Nat) (data : Mem UInt8) (d offset length : Nat) : C (Mem UInt8) := do
  ptr64 sa
  let (st, sizeLeft, pos, cur) ← cif (decide (length > 0) && decide (offset % 8 ≠ 0))
    (do
      let bytesInLane ← cif (decide (8 - offset % 8 > length)) (pure length) (pure (8 - offset % 8))
      let st ← memcpy st (8 * laneIndex inst (offset / 8) + offset % 8) data d bytesInLane
      let cur ← ptr data (d + bytesInLane)
      pure (st, length - bytesInLane, offset / 8 + 1, cur))
    (pure (st, length, offset / 8, d))
  let (st, sizeLeft, pos, cur) ← cwhile (length / 8 + 1)
    (fun (s : Mem UInt8 × Nat × Nat × Nat) => decide (s.2.1 ≥ 8))
    (fun (st, sizeLeft, pos, cur) => do
      ptr64 (da + cur)
      let lane ← load64 data cur
      let st ← store64 st (8 * laneIndex inst pos) lane
      let cur ← ptr data (cur + 8)
      pure (st, sizeLeft - 8, pos + 1, cur))
    (st, sizeLeft, pos, cur)
  cif (decide (sizeLeft > 0)) (memcpy st (8 * laneIndex inst pos) data cur sizeLeft) (pure st)

/-- avx2/keccak4x/KeccakP-1600-times4-SIMD256.c:244-259 `KeccakP1600times4_OverwriteWithZeroes`. Loop state: `(states, sizeLeft, lanePosition)`. -/
def OverwriteWithZeroes (sa : Nat) (st : Mem UInt8) (inst byteCount : Nat) : C (Mem UInt8) := do
  ptr64 sa
  let (st, sizeLeft, pos) ← cwhile (byteCount / 8 + 1)
    (fun (s : Mem UInt8 × Nat × Nat) => decide (s.2.1 ≥ 8))
    (fun (st, sizeLeft, pos) => do
      let st ← store64 st (8 * laneIndex inst pos) 0
      pure (st, sizeLeft - 8, pos + 1))
    (st, byteCount, 0)
  cif (decide (sizeLeft > 0)) (memset st (8 * laneIndex inst pos) 0 sizeLeft) (pure st)

/-- avx2/keccak4x/KeccakP-1600-times4-SIMD256.c:261-289 `KeccakP1600times4_ExtractBytes`. Loop state: `(data, sizeLeft, lanePosition, curData)`. -/
def ExtractBytes (sa : Nat) (st : Mem UInt8) (inst da : Nat) (data : Mem UInt8) (d offset length : Nat) : C (Mem UInt8) := do
  ptr64 sa
  let (data, sizeLeft, pos, cur) ← cif (decide (length > 0) && decide (offset % 8 ≠ 0))
    (do
      let bytesInLane ← cif (decide (8 - offset % 8 > length)) (pure length) (pure (8 - offset % 8))
      let data ← memcpy data d st (8 * laneIndex inst (offset / 8) + offset % 8) bytesInLane
      let cur ← ptr data (d + bytesInLane)
      pure (data, length - bytesInLane, offset / 8 + 1, cur))
    (pure (data, length, offset / 8, d))
  let (data, sizeLeft, pos, cur) ← cwhile (length / 8 + 1)
    (fun (s : Mem UInt8 × Nat × Nat × Nat) => decide (s.2.1 ≥ 8))
    (fun (data, sizeLeft, pos, cur) => do
      ptr64 (da + cur)
      let lane ← load64 st (8 * laneIndex inst pos)
      let data ← store64 data cur lane
      let cur ← ptr data (cur + 8)
      pure (data, sizeLeft - 8, pos + 1, cur))
    (data, sizeLeft, pos, cur)
  cif (decide (sizeLeft > 0)) (memcpy data cur st (8 * laneIndex inst pos) sizeLeft) (pure data)

/-- avx2/keccak4x/KeccakP-1600-times4-SIMD256.c:355-358, 372-375: `do { *(curOutput++) = *(curInput++) ^ (unsigned char)lane; lane >>= 8; } while(--n != 0)`.
Loop state: `(output, curInput, curOutput, lane, n)`. -/
def xorOut (inp : Mem UInt8) (ci : Nat) (out : Mem UInt8) (co : Nat) (lane : UInt64) (n : Nat) : C (Mem UInt8 × Nat × Nat) := do
  let body := fun ((out, ci, co, lane, n) : Mem UInt8 × Nat × Nat × UInt64 × Nat) => do
    let x ← rd inp ci
    let out ← wr out co (x ^^^ lane.toUInt8)
    pure (out, ci + 1, co + 1, lane >>> 8, u (n + 4294967295))
  let s ← body (out, ci, co, lane, n)
  let s ← cwhile (n + 1) (fun (s : Mem UInt8 × Nat × Nat × UInt64 × Nat) => decide (s.2.2.2.2 ≠ 0)) body s
  pure (s.1, s.2.1, s.2.2.1)

/-- avx2/keccak4x/KeccakP-1600-times4-SIMD256.c:341-378 `KeccakP1600times4_ExtractAndAddBytes`; input and output are different arrays.
Loop state: `(output, sizeLeft, lanePosition, curInput, curOutput)`. -/
def ExtractAndAddBytes (sa : Nat) (st : Mem UInt8) (inst ia : Nat) (inp : Mem UInt8) (io oa : Nat) (out : Mem UInt8) (oo offset length : Nat) : C (Mem UInt8) := do
  ptr64 sa
  let (out, sizeLeft, pos, ci, co) ← cif (decide (length > 0) && decide (offset % 8 ≠ 0))
    (do
      let v ← load64 st (8 * laneIndex inst (offset / 8))
      let bytesInLane ← cif (decide (8 - offset % 8 > length)) (pure length) (pure (8 - offset % 8))
      let (out, ci, co) ← xorOut inp io out oo (v >>> UInt64.ofNat (8 * (offset % 8))) bytesInLane
      pure (out, length - bytesInLane, offset / 8 + 1, ci, co))
    (pure (out, length, offset / 8, io, oo))
  let (out, sizeLeft, pos, ci, co) ← cwhile (length / 8 + 1)
    (fun (s : Mem UInt8 × Nat × Nat × Nat × Nat) => decide (s.2.1 ≥ 8))
    (fun (out, sizeLeft, pos, ci, co) => do
      ptr64 (ia + ci)
      ptr64 (oa + co)
      let w ← load64 inp ci
      let lane ← load64 st (8 * laneIndex inst pos)
      let out ← store64 out co (w ^^^ lane)
      let ci ← ptr inp (ci + 8)
      let co ← ptr out (co + 8)
      pure (out, sizeLeft - 8, pos + 1, ci, co))
    (out, sizeLeft, pos, ci, co)
  cif (decide (sizeLeft ≠ 0))
    (do
      let lane ← load64 st (8 * laneIndex inst pos)
      let s ← xorOut inp ci out co lane sizeLeft
      pure s.1)
    (pure out)

/-! ## Four instances at once -/

/-- The vector with the given lanes, lane 0 first. -/
def vec (w0 w1 w2 w3 : UInt64) : V4 := fun j => if j = 0 then w0 else if j = 1 then w1 else if j = 2 then w2 else w3

/-- Line 44 `_mm256_loadu_si256` -/
def LOAD256u (m : Mem UInt8) (o : Nat) : C V4 := do
  let w0 ← load64 m o
  let w1 ← load64 m (o + 8)
  let w2 ← load64 m (o + 16)
  let w3 ← load64 m (o + 24)
  pure (vec w0 w1 w2 w3)

/-- Line 52 `_mm256_storeu_si256` -/
def STORE256u (m : Mem UInt8) (o : Nat) (v : V4) : C (Mem UInt8) := do
  let m ← store64 m o (v 0)
  let m ← store64 m (o + 8) (v 1)
  let m ← store64 m (o + 16) (v 2)
  store64 m (o + 24) (v 3)

/-- Lines 43, 51 `_mm256_load_si256`, `_mm256_store_si256` -/
def LOAD256 (sa : Nat) (m : Mem UInt8) (o : Nat) : C V4 := do
  ptr256 (sa + o)
  LOAD256u m o
def STORE256 (sa : Nat) (m : Mem UInt8) (o : Nat) (v : V4) : C (Mem UInt8) := do
  ptr256 (sa + o)
  STORE256u m o v

/-- `XOReq256(stateAsLanes[i], v)` -/
def xor256 (sa : Nat) (st : Mem UInt8) (i : Nat) (v : V4) : C (Mem UInt8) := do
  let x ← LOAD256 sa st (32 * i)
  STORE256 sa st (32 * i) (XOR256 x v)

/-- Lines 56-57 `_mm256_unpacklo_epi64`, `_mm256_unpackhi_epi64` -/
def UNPACKL (a b : V4) : V4 := vec (a 0) (b 0) (a 2) (b 2)
def UNPACKH (a b : V4) : V4 := vec (a 1) (b 1) (a 3) (b 3)

/-- The 128-bit half of `(b, a)` with number `s`, as `_mm256_permute2f128_ps` selects it by four bits. -/
def half (a b : V4) (s : Nat) (t : Fin 2) : UInt64 :=
  if s / 8 % 2 = 1 then 0 else if s % 4 = 0 then a ⟨t.val, by omega⟩ else if s % 4 = 1 then a ⟨2 + t.val, by omega⟩
  else if s % 4 = 2 then b ⟨t.val, by omega⟩ else b ⟨2 + t.val, by omega⟩

/-- Line 58 `_mm256_permute2f128_ps` -/
def PERM128 (a b : V4) (c : Nat) : V4 := vec (half a b (c % 16) 0) (half a b (c % 16) 1) (half a b (c / 16) 0) (half a b (c / 16) 1)

/-- Line 59 `_mm256_shuffle_pd` -/
def SHUFFLE64 (a b : V4) (c : Nat) : V4 :=
  vec (if c % 2 = 0 then a 0 else a 1) (if c / 2 % 2 = 0 then b 0 else b 1) (if c / 4 % 2 = 0 then a 2 else a 3) (if c / 8 % 2 = 0 then b 2 else b 3)

/-- Lines 61-68 -/
def UNINTLEAVE (lanes0 lanes1 lanes2 lanes3 : V4) : V4 × V4 × V4 × V4 :=
  let lanesL01 := UNPACKL lanes0 lanes1
  let lanesH01 := UNPACKH lanes0 lanes1
  let lanesL23 := UNPACKL lanes2 lanes3
  let lanesH23 := UNPACKH lanes2 lanes3
  let lanes0 := PERM128 lanesL01 lanesL23 0x20
  let lanes2 := PERM128 lanesL01 lanesL23 0x31
  let lanes1 := PERM128 lanesH01 lanesH23 0x20
  let lanes3 := PERM128 lanesH01 lanesH23 0x31
  (lanes0, lanes1, lanes2, lanes3)

/-- Lines 70-77 -/
def INTLEAVE (lanes0 lanes1 lanes2 lanes3 : V4) : V4 × V4 × V4 × V4 :=
  let lanesL01 := PERM128 lanes0 lanes2 0x20
  let lanesH01 := PERM128 lanes1 lanes3 0x20
  let lanesL23 := PERM128 lanes0 lanes2 0x31
  let lanesH23 := PERM128 lanes1 lanes3 0x31
  let lanes0 := SHUFFLE64 lanesL01 lanesH01 0x00
  let lanes1 := SHUFFLE64 lanesL01 lanesH01 0x0F
  let lanes2 := SHUFFLE64 lanesL23 lanesH23 0x00
  let lanes3 := SHUFFLE64 lanesL23 lanesH23 0x0F
  (lanes0, lanes1, lanes2, lanes3)

/-- Four pointers into an array, as offsets. -/
structure P4 where
  (p0 p1 p2 p3 : Nat)

/-- The declarations of `curData0` to `curData3`, e.g. lines 127-130. -/
def cur4 (da : Nat) (data : Mem UInt8) (d laneOffset : Nat) : C P4 := do
  ptr64 (da + d)
  let d1 ← ptr data (d + u (laneOffset * 8))
  ptr64 (da + d1)
  let d2 ← ptr data (d + u (u (laneOffset * 2) * 8))
  ptr64 (da + d2)
  let d3 ← ptr data (d + u (u (laneOffset * 3) * 8))
  ptr64 (da + d3)
  pure ⟨d, d1, d2, d3⟩

/-- `LOAD4_64(curData3[i], curData2[i], curData1[i], curData0[i])` with line 45 -/
def loadOne (data : Mem UInt8) (p : P4) (i : Nat) : C V4 := do
  let w3 ← load64 data (p.p3 + 8 * i)
  let w2 ← load64 data (p.p2 + 8 * i)
  let w1 ← load64 data (p.p1 + 8 * i)
  let w0 ← load64 data (p.p0 + 8 * i)
  pure (vec w0 w1 w2 w3)

/-- `LOAD256u(curData0[i])`, ..., `LOAD256u(curData3[i])` -/
def loadFour (data : Mem UInt8) (p : P4) (i : Nat) : C (V4 × V4 × V4 × V4) := do
  let l0 ← LOAD256u data (p.p0 + 8 * i)
  let l1 ← LOAD256u data (p.p1 + 8 * i)
  let l2 ← LOAD256u data (p.p2 + 8 * i)
  let l3 ← LOAD256u data (p.p3 + 8 * i)
  pure (l0, l1, l2, l3)

/-- Lines 146-163, and the same text in lines 221-238, 313-330, 420-437: the macros `one` and `four` applied to the lanes `0 .. laneCount`. -/
def byLanes {σ : Type} (laneCount : Nat) (one four : Nat → σ → C σ) (s : σ) : C σ :=
  cif (decide (laneCount ≥ 16))
    (do
      let s ← four 0 s
      let s ← four 4 s
      let s ← four 8 s
      let s ← four 12 s
      cif (decide (laneCount ≥ 20))
        (do
          let s ← four 16 s
          cfor 20 laneCount s one)
        (cfor 16 laneCount s one))
    (cfor 0 laneCount s one)

/-- avx2/keccak4x/KeccakP-1600-times4-SIMD256.c:123-166 `KeccakP1600times4_AddLanesAll` -/
def AddLanesAll (sa : Nat) (st : Mem UInt8) (da : Nat) (data : Mem UInt8) (d laneCount laneOffset : Nat) : C (Mem UInt8) := do
  let p ← cur4 da data d laneOffset
  byLanes laneCount
    (fun i st => do
      let v ← loadOne data p i
      xor256 sa st i v)
    (fun i st => do
      let (l0, l1, l2, l3) ← loadFour data p i
      let (l0, l1, l2, l3) := INTLEAVE l0 l1 l2 l3
      let st ← xor256 sa st i l0
      let st ← xor256 sa st (i + 1) l1
      let st ← xor256 sa st (i + 2) l2
      xor256 sa st (i + 3) l3) st

/-- avx2/keccak4x/KeccakP-1600-times4-SIMD256.c:199-242 `KeccakP1600times4_OverwriteLanesAll` -/
def OverwriteLanesAll (sa : Nat) (st : Mem UInt8) (da : Nat) (data : Mem UInt8) (d laneCount laneOffset : Nat) : C (Mem UInt8) := do
  let p ← cur4 da data d laneOffset
  byLanes laneCount
    (fun i st => do
      let v ← loadOne data p i
      STORE256 sa st (32 * i) v)
    (fun i st => do
      let (l0, l1, l2, l3) ← loadFour data p i
      let (l0, l1, l2, l3) := INTLEAVE l0 l1 l2 l3
      let st ← STORE256 sa st (32 * i) l0
      let st ← STORE256 sa st (32 * (i + 1)) l1
      let st ← STORE256 sa st (32 * (i + 2)) l2
      STORE256 sa st (32 * (i + 3)) l3) st

/-- avx2/keccak4x/KeccakP-1600-times4-SIMD256.c:291-339 `KeccakP1600times4_ExtractLanesAll` -/
def ExtractLanesAll (sa : Nat) (st : Mem UInt8) (da : Nat) (data : Mem UInt8) (d laneCount laneOffset : Nat) : C (Mem UInt8) := do
  let p ← cur4 da data d laneOffset
  ptr64 sa
  byLanes laneCount
    (fun i data => do
      let data ← store64 data (p.p0 + 8 * i) (← load64 st (8 * (4 * i)))
      let data ← store64 data (p.p1 + 8 * i) (← load64 st (8 * (4 * i + 1)))
      let data ← store64 data (p.p2 + 8 * i) (← load64 st (8 * (4 * i + 2)))
      store64 data (p.p3 + 8 * i) (← load64 st (8 * (4 * i + 3))))
    (fun i data => do
      let l0 ← LOAD256 sa st (32 * i)
      let l1 ← LOAD256 sa st (32 * (i + 1))
      let l2 ← LOAD256 sa st (32 * (i + 2))
      let l3 ← LOAD256 sa st (32 * (i + 3))
      let (l0, l1, l2, l3) := UNINTLEAVE l0 l1 l2 l3
      let data ← STORE256u data (p.p0 + 8 * i) l0
      let data ← STORE256u data (p.p1 + 8 * i) l1
      let data ← STORE256u data (p.p2 + 8 * i) l2
      STORE256u data (p.p3 + 8 * i) l3) data

/-- avx2/keccak4x/KeccakP-1600-times4-SIMD256.c:380-441 `KeccakP1600times4_ExtractAndAddLanesAll`; input and output are different arrays. -/
def ExtractAndAddLanesAll (sa : Nat) (st : Mem UInt8) (ia : Nat) (inp : Mem UInt8) (io oa : Nat) (out : Mem UInt8) (oo laneCount laneOffset : Nat) :
    C (Mem UInt8) := do
  let q ← cur4 ia inp io laneOffset
  let p ← cur4 oa out oo laneOffset
  ptr64 sa
  byLanes laneCount
    (fun i out => do
      let out ← store64 out (p.p0 + 8 * i) ((← load64 inp (q.p0 + 8 * i)) ^^^ (← load64 st (8 * (4 * i))))
      let out ← store64 out (p.p1 + 8 * i) ((← load64 inp (q.p1 + 8 * i)) ^^^ (← load64 st (8 * (4 * i + 1))))
      let out ← store64 out (p.p2 + 8 * i) ((← load64 inp (q.p2 + 8 * i)) ^^^ (← load64 st (8 * (4 * i + 2))))
      store64 out (p.p3 + 8 * i) ((← load64 inp (q.p3 + 8 * i)) ^^^ (← load64 st (8 * (4 * i + 3)))))
    (fun i out => do
      let l0 ← LOAD256 sa st (32 * i)
      let l1 ← LOAD256 sa st (32 * (i + 1))
      let l2 ← LOAD256 sa st (32 * (i + 2))
      let l3 ← LOAD256 sa st (32 * (i + 3))
      let (l0, l1, l2, l3) := UNINTLEAVE l0 l1 l2 l3
      let (k0, k1, k2, k3) ← loadFour inp q i
      let l0 := XOR256 l0 k0
      let l1 := XOR256 l1 k1
      let l2 := XOR256 l2 k2
      let l3 := XOR256 l3 k3
      let out ← STORE256u out (p.p0 + 8 * i) l0
      let out ← STORE256u out (p.p1 + 8 * i) l1
      let out ← STORE256u out (p.p2 + 8 * i) l2
      STORE256u out (p.p3 + 8 * i) l3) out

/-! ## The permutations and the absorbing loops -/

/-- avx2/keccak4x/KeccakP-1600-unrolling.macros:44-57 `rounds12` (`FullUnrolling`). -/
def rounds12 (S : Lanes4) : C Lanes4 := do
  let (S, T) ← cfor 12 23 (S, prepareTheta S) fun i (S, T) => do
    let rc ← rd KeccakF1600RoundConstants i
    pure (thetaRhoPiChiIotaPrepareTheta rc S T)
  let rc ← rd KeccakF1600RoundConstants 23
  pure (thetaRhoPiChiIota rc S T)

/-- avx2/keccak4x/KeccakP-1600-times4-SIMD256.c:815-826 `KeccakP1600times4_PermuteAll_12rounds`, on an array of `V256` (see `PermuteAll_24rounds`). -/
def PermuteAll_12rounds (s : Mem V4) : C (Mem V4) := do
  let S ← copyFromState4 s
  let S ← rounds12 S
  copyToState4 s S

/-- `copyFromState` (lines 714-739) from the 800 bytes, to an array of the 25 variables in the order of the macro. -/
def loadAll (sa : Nat) (st : Mem UInt8) : C (Mem V4) :=
  cfor 0 25 (Mem.uninit V4 25) fun i X => do
    let v ← LOAD256 sa st (32 * i)
    wr X i v

/-- `copyToState` (lines 741-766) to the 800 bytes. -/
def storeAll (sa : Nat) (st : Mem UInt8) (X : Mem V4) : C (Mem UInt8) :=
  cfor 0 25 st fun i st => do
    let v ← rd X i
    STORE256 sa st (32 * i) v

/-- `KeccakP1600times4_PermuteAll_24rounds` and `KeccakP1600times4_PermuteAll_12rounds` on the 800 bytes; `perm` is `PermuteAll_24rounds` or
`PermuteAll_12rounds`, which act on the variables. -/
def permuteAll (perm : Mem V4 → C (Mem V4)) (sa : Nat) (st : Mem UInt8) : C (Mem UInt8) := do
  let X ← loadAll sa st
  let X ← perm X
  storeAll sa st X

/-- `dataByteLen -= laneOffsetSerial*8`, in `size_t` -/
def lenSub (len laneOffsetSerial : Nat) : Nat := (len + 18446744073709551616 - u (laneOffsetSerial * 8)) % 18446744073709551616

/-- avx2/keccak4x/KeccakP-1600-times4-SIMD256.c:828-928 `KeccakF1600times4_FastLoop_Absorb` (`perm` is `PermuteAll_24rounds`) and lines 930-1030
`KeccakP1600times4_12rounds_FastLoop_Absorb` (`perm` is `PermuteAll_12rounds`); the texts agree otherwise. The branches `#if 0` are not compiled.
The result is the states and the return value. Loop states: `(variables, pointers, dataByteLen)` and `(states, data, dataByteLen)`. -/
def FastLoop_Absorb (perm : Mem V4 → C (Mem V4)) (sa : Nat) (st : Mem UInt8) (laneCount laneOffsetParallel laneOffsetSerial da : Nat) (data : Mem UInt8)
    (d dataByteLen : Nat) : C (Mem UInt8 × Nat) :=
  cif (decide (laneCount = 21))
    (do
      let p ← cur4 da data d laneOffsetParallel
      let X ← loadAll sa st
      let s ← cwhile (dataByteLen + 1)
        (fun (s : Mem V4 × P4 × Nat) => decide (s.2.2 ≥ u (u (u (laneOffsetParallel * 3) + laneCount) * 8)))
        (fun (X, p, len) => do
          let X ← cfor 0 21 X fun i X => do
            let x ← rd X i
            let v ← loadOne data p i
            wr X i (XOR256 x v)
          let X ← perm X
          let p0 ← ptr data (p.p0 + 8 * laneOffsetSerial)
          let p1 ← ptr data (p.p1 + 8 * laneOffsetSerial)
          let p2 ← ptr data (p.p2 + 8 * laneOffsetSerial)
          let p3 ← ptr data (p.p3 + 8 * laneOffsetSerial)
          pure (X, ⟨p0, p1, p2, p3⟩, lenSub len laneOffsetSerial))
        (X, p, dataByteLen)
      let st ← storeAll sa st s.1
      pure (st, s.2.1.p0 - d))
    (do
      let s ← cwhile (dataByteLen + 1)
        (fun (s : Mem UInt8 × Nat × Nat) => decide (s.2.2 ≥ u (u (u (laneOffsetParallel * 3) + laneCount) * 8)))
        (fun (st, cur, len) => do
          let st ← AddLanesAll sa st da data cur laneCount laneOffsetParallel
          let st ← permuteAll perm sa st
          let cur ← ptr data (cur + u (laneOffsetSerial * 8))
          pure (st, cur, lenSub len laneOffsetSerial))
        (st, d, dataByteLen)
      pure (s.1, s.2.1 - d))

end Verif.Avx.SnP
