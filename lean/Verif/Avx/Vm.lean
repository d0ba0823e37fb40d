import Verif.C.Basic

/-!
# Execution model of the AVX2 code

The AVX2 implementation consists of assembly files and of C files written with compiler intrinsics. Both are straight-line vector
code (loops have constant bounds and are written out by the transcription). Such code is modelled as *data*: a list of `I`, one entry
per instruction or intrinsic, executed by `run`.

* A vector register (or a C variable of type `__m256i`, `__m128i`) holds a list of 16-bit lanes, lane 0 least significant: 16 lanes for
  256-bit values, 8 lanes for 128-bit values. It is undefined until first written.
* A memory object is a list of cells, of 16 bits (`int16_t` arrays) or of 8 bits (byte arrays); a cell is `none` while indeterminate.
* Every instruction is described by `Fn.lane`: which operation of 16-bit words `Op` gives output lane `i`, and from which lanes of
  which source operands. `Op.eval` is the meaning of the word operations. Both follow the "Operation" sections of the Intel manual.
* Reading an undefined register or indeterminate cell, an access outside an object and a misaligned aligned access are outcomes of their own.

`run` is parametrised by the type of lanes `D` and the meaning of operations on it, so that the same program can also be run on symbolic lanes; the
execution model proper is `run evalW`.
-/

namespace Verif.Avx

/-- A 16-bit lane. -/
abbrev W := BitVec 16

/-- Operations producing one 16-bit lane. The comment gives the operands. -/
inductive Op where
  /-- a -/
  | mov
  /-- lanewise arithmetic on a, b -/
  | add | sub | mullo | mulhi | mulhrs | and | or | xor
  /-- (not a) and b -/
  | andn
  /-- shifts of a 16-bit lane by a constant -/
  | sll (k : Nat) | srl (k : Nat) | sra (k : Nat)
  /-- low byte: byte p of a; high byte: byte p' of b -/
  | bytes (p p' : Nat)
  /-- byte 0 / byte 1 of a, zero-extended -/
  | lo8 | hi8
  /-- bytewise addition and subtraction -/
  | add8 | sub8
  /-- sign extension of byte p of a -/
  | sext (p : Nat)
  /-- two signed words a, b saturated to unsigned / signed bytes -/
  | packus | packs
  /-- sum of the products of the unsigned bytes of a with the signed bytes of b, saturated -/
  | maddubs
  /-- word j of the 32-bit sum a0 b0 + a1 b1; operands a0 a1 b0 b1 -/
  | madd (j : Nat)
  /-- word j of the 32-bit value a0 a1 shifted by a constant -/
  | shl32 (k j : Nat) | shr32 (k j : Nat)
  /-- word j of the 32-bit value a0 a1 shifted by the 32-bit value c0 c1 -/
  | sllv32 (j : Nat) | srlv32 (j : Nat)
  /-- word j of the 32-bit sum / difference of a0 a1 and b0 b1 -/
  | add32 (j : Nat) | sub32 (j : Nat)
  /-- word j of the 64-bit value a0 a1 a2 a3 shifted by a constant -/
  | shl64 (k j : Nat) | shr64 (k j : Nat)
  /-- word j of the 64-bit value a0..a3 shifted right by the 64-bit value c0..c3 -/
  | srlv64 (j : Nat)
  /-- word j of the 64-bit sum of a0..a3 and b0..b3 -/
  | add64 (j : Nat)
  /-- byte shuffle inside a 128-bit half a0..a7 by the mask word m: each byte is zero if bit 7 of the mask byte is set, else the byte
  numbered by the low four bits of the mask byte -/
  | pshufb
  /-- word j of the 32-bit element of a0..a15 numbered by the low three bits of the word c -/
  | permd (j : Nat)
  /-- bytewise selection: byte of b if bit 7 of the byte of m is set, else byte of a -/
  | blendv
  /-- all ones if a > b (signed), else zero -/
  | cmpgt
  /-- word whose bit 2i is bit 7 and bit 2i+1 bit 15 of a_i, for eight lanes -/
  | movmask
  deriving DecidableEq, Repr

/-- Byte p (0 or 1) of a word. -/
def byteOf (p : Nat) (a : W) : BitVec 8 := a.extractLsb' (8 * p) 8
/-- The word with the given low and high byte. -/
def ofBytes (l h : BitVec 8) : W := h ++ l
def cat32 (a0 a1 : W) : BitVec 32 := a1 ++ a0
def cat64 (a0 a1 a2 a3 : W) : BitVec 64 := (a3 ++ a2) ++ (a1 ++ a0)
/-- Word j of a wider value. -/
def wordOf {n : Nat} (j : Nat) (x : BitVec n) : W := x.extractLsb' (16 * j) 16
def satU8 (a : W) : BitVec 8 := if a.toInt < 0 then 0 else if a.toInt > 255 then 255 else BitVec.ofInt 8 a.toInt
def satS8 (a : W) : BitVec 8 := if a.toInt < -128 then -128 else if a.toInt > 127 then 127 else BitVec.ofInt 8 a.toInt
def satS16 (x : Int) : W := if x < -32768 then -32768 else if x > 32767 then 32767 else BitVec.ofInt 16 x
/-- The byte selected by a mask byte from the sixteen bytes of eight words. -/
def shufByte (l : List W) (m : BitVec 8) : BitVec 8 :=
  if m.msb then 0 else byteOf (m.toNat % 16 % 2) (l.getD (m.toNat % 16 / 2) 0)
/-- Bits 7 and 15 of the words of a list, least significant first. -/
def maskBits : List W → Nat
  | [] => 0
  | a :: l => (a.getLsbD 7).toNat + 2 * (a.getLsbD 15).toNat + 4 * maskBits l

/-- Meaning of the word operations. -/
def Op.eval : Op → List W → Option W
  | .mov, [a] => some a
  | .add, [a, b] => some (a + b)
  | .sub, [a, b] => some (a - b)
  | .mullo, [a, b] => some (a * b)
  | .mulhi, [a, b] => some (BitVec.ofInt 16 (a.toInt * b.toInt / 2 ^ 16))
  | .mulhrs, [a, b] => some (BitVec.ofInt 16 ((a.toInt * b.toInt / 2 ^ 14 + 1) / 2))
  | .and, [a, b] => some (a &&& b)
  | .or, [a, b] => some (a ||| b)
  | .xor, [a, b] => some (a ^^^ b)
  | .andn, [a, b] => some (~~~a &&& b)
  | .sll k, [a] => some (a <<< k)
  | .srl k, [a] => some (a >>> k)
  | .sra k, [a] => some (a.sshiftRight k)
  | .bytes p p', [a, b] => some (ofBytes (byteOf p a) (byteOf p' b))
  | .lo8, [a] => some (ofBytes (byteOf 0 a) 0)
  | .hi8, [a] => some (ofBytes (byteOf 1 a) 0)
  | .add8, [a, b] => some (ofBytes (byteOf 0 a + byteOf 0 b) (byteOf 1 a + byteOf 1 b))
  | .sub8, [a, b] => some (ofBytes (byteOf 0 a - byteOf 0 b) (byteOf 1 a - byteOf 1 b))
  | .sext p, [a] => some ((byteOf p a).signExtend 16)
  | .packus, [a, b] => some (ofBytes (satU8 a) (satU8 b))
  | .packs, [a, b] => some (ofBytes (satS8 a) (satS8 b))
  | .maddubs, [a, b] => some (satS16 ((byteOf 0 a).toNat * (byteOf 0 b).toInt + (byteOf 1 a).toNat * (byteOf 1 b).toInt))
  | .madd j, [a0, a1, b0, b1] => some (wordOf j (BitVec.ofInt 32 (a0.toInt * b0.toInt + a1.toInt * b1.toInt)))
  | .shl32 k j, [a0, a1] => some (wordOf j (cat32 a0 a1 <<< k))
  | .shr32 k j, [a0, a1] => some (wordOf j (cat32 a0 a1 >>> k))
  | .sllv32 j, [a0, a1, c0, c1] => some (wordOf j (cat32 a0 a1 <<< (cat32 c0 c1).toNat))
  | .srlv32 j, [a0, a1, c0, c1] => some (wordOf j (cat32 a0 a1 >>> (cat32 c0 c1).toNat))
  | .add32 j, [a0, a1, b0, b1] => some (wordOf j (cat32 a0 a1 + cat32 b0 b1))
  | .sub32 j, [a0, a1, b0, b1] => some (wordOf j (cat32 a0 a1 - cat32 b0 b1))
  | .shl64 k j, [a0, a1, a2, a3] => some (wordOf j (cat64 a0 a1 a2 a3 <<< k))
  | .shr64 k j, [a0, a1, a2, a3] => some (wordOf j (cat64 a0 a1 a2 a3 >>> k))
  | .srlv64 j, [a0, a1, a2, a3, c0, c1, c2, c3] => some (wordOf j (cat64 a0 a1 a2 a3 >>> (cat64 c0 c1 c2 c3).toNat))
  | .add64 j, [a0, a1, a2, a3, b0, b1, b2, b3] => some (wordOf j (cat64 a0 a1 a2 a3 + cat64 b0 b1 b2 b3))
  | .pshufb, [a0, a1, a2, a3, a4, a5, a6, a7, m] =>
    some (ofBytes (shufByte [a0, a1, a2, a3, a4, a5, a6, a7] (byteOf 0 m)) (shufByte [a0, a1, a2, a3, a4, a5, a6, a7] (byteOf 1 m)))
  | .permd j, [a0, a1, a2, a3, a4, a5, a6, a7, a8, a9, a10, a11, a12, a13, a14, a15, c] =>
    some ([a0, a1, a2, a3, a4, a5, a6, a7, a8, a9, a10, a11, a12, a13, a14, a15].getD (2 * (c.toNat % 8) + j) 0)
  | .blendv, [a, b, m] => some (ofBytes (if m.getLsbD 7 then byteOf 0 b else byteOf 0 a) (if m.getLsbD 15 then byteOf 1 b else byteOf 1 a))
  | .cmpgt, [a, b] => some (if a.toInt > b.toInt then BitVec.allOnes 16 else 0)
  | .movmask, [a0, a1, a2, a3, a4, a5, a6, a7] => some (BitVec.ofNat 16 (maskBits [a0, a1, a2, a3, a4, a5, a6, a7]))
  | _, _ => none

/-- Vector instructions between registers. The operands are listed in the order of the C intrinsics. -/
inductive Fn where
  /-- the same word operation in every lane: vpaddw, vpsubw, vpmullw, vpmulhw, vpmulhrsw, vpand, vpor, vpxor, vpandn, vpsllw, vpsrlw, vpsraw,
  vpaddb, vpsubb, vpmaddubsw, vpcmpgtw, vpblendvb, register moves -/
  | lw (o : Op)
  /-- vpunpcklqdq, vpunpckhqdq -/
  | unpcklqdq | unpckhqdq
  /-- vpunpckldq, vpunpckhdq -/
  | unpckldq | unpckhdq
  /-- vpunpcklbw, vpunpckhbw -/
  | unpcklbw | unpckhbw
  /-- vperm2i128 -/
  | perm2i128 (imm : Nat)
  /-- vpermq with an immediate -/
  | permq (imm : Nat)
  /-- vpshufd -/
  | pshufd (imm : Nat)
  /-- vmovsldup -/
  | movsldup
  /-- vpblendd, vpblendw (the 8-bit immediate of vpblendw is used for both halves) -/
  | blendd (imm : Nat) | blendw (imm : Nat)
  /-- vpslld, vpsrld, vpsllq, vpsrlq -/
  | pslld (k : Nat) | psrld (k : Nat) | psllq (k : Nat) | psrlq (k : Nat)
  /-- vpsllvd, vpsrlvd, vpsrlvq -/
  | psllvd | psrlvd | psrlvq
  /-- vpaddd, vpsubd, vpaddq -/
  | paddd | psubd | paddq
  /-- vpmaddwd -/
  | pmaddwd
  /-- vpacksswb, vpackuswb -/
  | packsswb | packuswb
  /-- vpshufb, vpermd (operands: data, indices) -/
  | pshufb | permd
  /-- vpsrldq by 8 bytes -/
  | psrldq8
  /-- low half / high half of a 256-bit value (vextracti128) -/
  | lowhalf | highhalf
  /-- vbroadcasti128 -/
  | bcast128
  /-- vpmovsxbw: 128-bit source -/
  | pmovsxbw
  /-- vpinsrw: word n of the first operand replaced by word 0 of the second -/
  | pinsrw (n : Nat)
  /-- vpmovmskb: two words, bit i is the top bit of byte i -/
  | pmovmskb
  deriving DecidableEq, Repr

/-- Source of lane `i` (inside the destination half `h`) when half `h` is copied by a control nibble of vperm2i128: operand and half.
Bit 3 of the nibble (zeroing) is not used by the code. -/
def sel128 (c i : Nat) : Nat × Nat := (c % 4 / 2, 8 * (c % 2) + i)

/-- Output lane `i` of an instruction: word operation and source lanes as (operand, lane) pairs. -/
def Fn.lane (n : Nat) : Fn → Nat → Op × List (Nat × Nat)
  | .lw o, i => (o, (List.range n).map fun s => (s, i))
  | .unpcklqdq, i => (.mov, [(i / 4 % 2, i / 8 * 8 + i % 4)])
  | .unpckhqdq, i => (.mov, [(i / 4 % 2, i / 8 * 8 + 4 + i % 4)])
  | .unpckldq, i => (.mov, [(i / 2 % 2, i / 8 * 8 + i % 8 / 4 * 2 + i % 2)])
  | .unpckhdq, i => (.mov, [(i / 2 % 2, i / 8 * 8 + 4 + i % 8 / 4 * 2 + i % 2)])
  | .unpcklbw, i => (.bytes (i % 2) (i % 2), [(0, i / 8 * 8 + i % 8 / 2), (1, i / 8 * 8 + i % 8 / 2)])
  | .unpckhbw, i => (.bytes (i % 2) (i % 2), [(0, i / 8 * 8 + 4 + i % 8 / 2), (1, i / 8 * 8 + 4 + i % 8 / 2)])
  | .perm2i128 imm, i => (.mov, [sel128 (if i < 8 then imm % 4 else imm / 16 % 4) (i % 8)])
  | .permq imm, i => (.mov, [(0, 4 * (imm / 4 ^ (i / 4) % 4) + i % 4)])
  | .pshufd imm, i => (.mov, [(0, i / 8 * 8 + 2 * (imm / 4 ^ (i % 8 / 2) % 4) + i % 2)])
  | .movsldup, i => (.mov, [(0, i / 4 * 4 + i % 2)])
  | .blendd imm, i => (.mov, [(imm / 2 ^ (i / 2) % 2, i)])
  | .blendw imm, i => (.mov, [(imm / 2 ^ (i % 8) % 2, i)])
  | .pslld k, i => (.shl32 k (i % 2), [(0, i / 2 * 2), (0, i / 2 * 2 + 1)])
  | .psrld k, i => (.shr32 k (i % 2), [(0, i / 2 * 2), (0, i / 2 * 2 + 1)])
  | .psllq k, i => (.shl64 k (i % 4), [(0, i / 4 * 4), (0, i / 4 * 4 + 1), (0, i / 4 * 4 + 2), (0, i / 4 * 4 + 3)])
  | .psrlq k, i => (.shr64 k (i % 4), [(0, i / 4 * 4), (0, i / 4 * 4 + 1), (0, i / 4 * 4 + 2), (0, i / 4 * 4 + 3)])
  | .psllvd, i => (.sllv32 (i % 2), [(0, i / 2 * 2), (0, i / 2 * 2 + 1), (1, i / 2 * 2), (1, i / 2 * 2 + 1)])
  | .psrlvd, i => (.srlv32 (i % 2), [(0, i / 2 * 2), (0, i / 2 * 2 + 1), (1, i / 2 * 2), (1, i / 2 * 2 + 1)])
  | .psrlvq, i => (.srlv64 (i % 4), [(0, i / 4 * 4), (0, i / 4 * 4 + 1), (0, i / 4 * 4 + 2), (0, i / 4 * 4 + 3),
      (1, i / 4 * 4), (1, i / 4 * 4 + 1), (1, i / 4 * 4 + 2), (1, i / 4 * 4 + 3)])
  | .paddd, i => (.add32 (i % 2), [(0, i / 2 * 2), (0, i / 2 * 2 + 1), (1, i / 2 * 2), (1, i / 2 * 2 + 1)])
  | .psubd, i => (.sub32 (i % 2), [(0, i / 2 * 2), (0, i / 2 * 2 + 1), (1, i / 2 * 2), (1, i / 2 * 2 + 1)])
  | .paddq, i => (.add64 (i % 4), [(0, i / 4 * 4), (0, i / 4 * 4 + 1), (0, i / 4 * 4 + 2), (0, i / 4 * 4 + 3),
      (1, i / 4 * 4), (1, i / 4 * 4 + 1), (1, i / 4 * 4 + 2), (1, i / 4 * 4 + 3)])
  | .pmaddwd, i => (.madd (i % 2), [(0, i / 2 * 2), (0, i / 2 * 2 + 1), (1, i / 2 * 2), (1, i / 2 * 2 + 1)])
  | .packsswb, i => (.packs, [(i / 4 % 2, i / 8 * 8 + 2 * (i % 4)), (i / 4 % 2, i / 8 * 8 + 2 * (i % 4) + 1)])
  | .packuswb, i => (.packus, [(i / 4 % 2, i / 8 * 8 + 2 * (i % 4)), (i / 4 % 2, i / 8 * 8 + 2 * (i % 4) + 1)])
  | .pshufb, i => (.pshufb, (List.range 8).map (fun j => (0, i / 8 * 8 + j)) ++ [(1, i)])
  | .permd, i => (.permd (i % 2), (List.range 16).map (fun j => (0, j)) ++ [(1, i / 2 * 2)])
  | .psrldq8, i => if i % 8 < 4 then (.mov, [(0, i + 4)]) else (.sub, [(0, i), (0, i)])
  | .lowhalf, i => (.mov, [(0, i)])
  | .highhalf, i => (.mov, [(0, 8 + i)])
  | .bcast128, i => (.mov, [(0, i % 8)])
  | .pmovsxbw, i => (.sext (i % 2), [(0, i / 2)])
  | .pinsrw m, i => if i = m then (.mov, [(1, 0)]) else (.mov, [(0, i)])
  | .pmovmskb, i => (.movmask, (List.range 8).map fun j => (0, 8 * i + j))

/-- Instructions. Registers and objects are numbered; offsets are in bytes from the start of the object. -/
inductive I where
  /-- `d := f(srcs)`, a result of `n` lanes -/
  | op (d : Nat) (f : Fn) (srcs : List Nat) (n : Nat)
  /-- load `n` lanes from object `o` at byte offset `off`, then zero lanes up to `tot`; `al`: the access must be 32-byte aligned -/
  | ld (d o off n tot : Nat) (al : Bool)
  /-- vpbroadcastq: load four lanes and repeat them four times -/
  | bcastq (d o off : Nat)
  /-- store the first `n` lanes -/
  | st (s o off n : Nat) (al : Bool)
  /-- constant -/
  | set (d : Nat) (ws : List Nat)
  deriving DecidableEq, Repr

/-- A memory object. `wide`: 16-bit cells, start address 32-byte aligned; otherwise 8-bit cells, and start address 32-byte aligned iff `al`. -/
structure Obj (D : Type) where
  wide : Bool
  al : Bool
  cells : List (Option D)

/-- State: registers (`none`: undefined) and memory objects. -/
structure VS (D : Type) where
  regs : List (Option (List D))
  objs : List (Obj D)

/-- Meaning of the operations on a type of lanes. -/
structure Sem (D : Type) where
  app : Op → List D → Option D
  lit : Nat → D

variable {D : Type}

/-- The lanes `(operand, lane)` of a list of operands. -/
def pick (args : List (List D)) : List (Nat × Nat) → Option (List D)
  | [] => some []
  | (s, i) :: l =>
    match args[s]? with
    | none => none
    | some r =>
      match r[i]? with
      | none => none
      | some a =>
        match pick args l with
        | none => none
        | some as => some (a :: as)

/-- The first `n` lanes of the result of an instruction, from lane `i` on. -/
def lanes (S : Sem D) (f : Fn) (args : List (List D)) : (n i : Nat) → Option (List D)
  | 0, _ => some []
  | n + 1, i =>
    match f.lane args.length i with
    | (o, src) =>
      match pick args src with
      | none => none
      | some as =>
        match S.app o as with
        | none => none
        | some a =>
          match lanes S f args n (i + 1) with
          | none => none
          | some l => some (a :: l)

/-- The source registers. -/
def getRegs (regs : List (Option (List D))) : List Nat → Except UB (List (List D))
  | [] => .ok []
  | s :: l =>
    match regs[s]? with
    | some (some r) =>
      match getRegs regs l with
      | .ok rs => .ok (r :: rs)
      | .error u => .error u
    | _ => .error .uninit

/-- Replace element `i` of a list. -/
def setAt {α : Type} (x : α) : (l : List α) → (i : Nat) → List α
  | [], _ => []
  | _ :: l, 0 => x :: l
  | y :: l, i + 1 => y :: setAt x l i

/-- `n` initialised cells from cell `i` on. -/
def readCells : (cells : List (Option D)) → (i n : Nat) → Except UB (List D)
  | _, _, 0 => .ok []
  | [], _, _ + 1 => .error .oob
  | _ :: l, i + 1, n + 1 => readCells l i (n + 1)
  | none :: _, 0, _ + 1 => .error .uninit
  | some a :: l, 0, n + 1 =>
    match readCells l 0 n with
    | .ok as => .ok (a :: as)
    | .error u => .error u

/-- Overwrite cells from cell `i` on. -/
def writeCells : (cells : List (Option D)) → (i : Nat) → (as : List D) → Except UB (List (Option D))
  | l, _, [] => .ok l
  | [], _, _ :: _ => .error .oob
  | c :: l, i + 1, a :: as =>
    match writeCells l i (a :: as) with
    | .ok l' => .ok (c :: l')
    | .error u => .error u
  | _ :: l, 0, a :: as =>
    match writeCells l 0 as with
    | .ok l' => .ok (some a :: l')
    | .error u => .error u

/-- Combine bytes to words. -/
def packBytes (S : Sem D) : List D → Option (List D)
  | a :: b :: l =>
    match S.app (.bytes 0 0) [a, b], packBytes S l with
    | some w, some ws => some (w :: ws)
    | _, _ => none
  | [] => some []
  | [_] => none

/-- Split words to bytes. -/
def unpackWords (S : Sem D) : List D → Option (List D)
  | a :: l =>
    match S.app .lo8 [a], S.app .hi8 [a], unpackWords S l with
    | some w, some w', some ws => some (w :: w' :: ws)
    | _, _, _ => none
  | [] => some []

/-- Is an access at byte offset `off` allowed by its alignment requirement? 16-bit cells also need an even offset. -/
def Obj.alignOk (o : Obj D) (off : Nat) (al : Bool) : Bool :=
  (!o.wide || off % 2 == 0) && (!al || ((o.wide || o.al) && off % 32 == 0))

/-- Load `n` words. -/
def Obj.load (S : Sem D) (o : Obj D) (off n : Nat) (al : Bool) : Except UB (List D) :=
  if o.alignOk off al then
    if o.wide then readCells o.cells (off / 2) n
    else
      match readCells o.cells off (2 * n) with
      | .ok bs =>
        match packBytes S bs with
        | some ws => .ok ws
        | none => .error .narrow
      | .error u => .error u
  else .error .align

/-- Store words. -/
def Obj.store (S : Sem D) (o : Obj D) (off : Nat) (ws : List D) (al : Bool) : Except UB (Obj D) :=
  if o.alignOk off al then
    if o.wide then
      match writeCells o.cells (off / 2) ws with
      | .ok c => .ok { o with cells := c }
      | .error u => .error u
    else
      match unpackWords S ws with
      | some bs =>
        match writeCells o.cells off bs with
        | .ok c => .ok { o with cells := c }
        | .error u => .error u
      | none => .error .narrow
  else .error .align

def setReg (s : VS D) (d : Nat) (r : List D) : VS D := { s with regs := setAt (some r) s.regs d }

/-- `n` copies of the lane zero. -/
def zeros (S : Sem D) : Nat → List D
  | 0 => []
  | n + 1 => S.lit 0 :: zeros S n

/-- One instruction. A word operation applied to a wrong number of operands cannot happen for a well-formed program; it is reported as `narrow`. -/
def step (S : Sem D) (s : VS D) : I → Except UB (VS D)
  | .op d f srcs n =>
    match getRegs s.regs srcs with
    | .error u => .error u
    | .ok args =>
      match lanes S f args n 0 with
      | none => .error .narrow
      | some r => .ok (setReg s d r)
  | .ld d o off n tot al =>
    match s.objs[o]? with
    | none => .error .oob
    | some ob =>
      match ob.load S off n al with
      | .error u => .error u
      | .ok r => .ok (setReg s d (r ++ zeros S (tot - n)))
  | .bcastq d o off =>
    match s.objs[o]? with
    | none => .error .oob
    | some ob =>
      match ob.load S off 4 false with
      | .error u => .error u
      | .ok r => .ok (setReg s d (r ++ r ++ (r ++ r)))
  | .st r o off n al =>
    match getRegs s.regs [r], s.objs[o]? with
    | .ok [x], some ob =>
      match ob.store S off (x.take n) al with
      | .error u => .error u
      | .ok ob' => .ok { s with objs := setAt ob' s.objs o }
    | .error u, _ => .error u
    | _, _ => .error .oob
  | .set d ws => .ok (setReg s d (ws.map S.lit))

/-- A program. -/
def run (S : Sem D) : List I → VS D → Except UB (VS D)
  | [], s => .ok s
  | i :: p, s =>
    match step S s i with
    | .ok s' => run S p s'
    | .error u => .error u

/-- The execution model proper: lanes are 16-bit words. -/
def evalW : Sem W := ⟨Op.eval, fun n => BitVec.ofNat 16 n⟩

/-- What an observer of memory addresses sees of an instruction: object number and byte offset. Vector instructions have no branches and
no data-dependent addresses. -/
def I.leak : I → Trace
  | .ld _ o off _ _ _ => [.ld o, .ld off]
  | .bcastq _ o off => [.ld o, .ld off]
  | .st _ o off _ _ => [.st o, .st off]
  | _ => []

/-- All registers undefined. -/
def noRegs : List (Option (List D)) := List.replicate 32 none

end Verif.Avx
