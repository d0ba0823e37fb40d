/-! # Specification: CTR_DRBG of NIST SP 800-90A with AES-256, without derivation function; AES of FIPS 197

The generator is stated for an arbitrary block cipher `aes` (key, block ↦ block); AES-256 itself is defined at the end. -/

namespace Verif.Spec

/-- Keys of 32 bytes and blocks of 16 bytes give blocks of 16 bytes. -/
def IsCipher (aes : List UInt8 → List UInt8 → List UInt8) : Prop := ∀ k c, k.length = 32 → c.length = 16 → (aes k c).length = 16

/-- The integer with the given big-endian bytes. -/
def beNat (l : List UInt8) : Nat := l.foldl (fun a b => 256 * a + b.toNat) 0

/-- The `n` lowest bytes of an integer, big-endian. -/
def beBytes : Nat → Nat → List UInt8
  | 0, _ => []
  | n + 1, x => beBytes n (x / 256) ++ [UInt8.ofNat x]

/-- `(V + i) mod 2^outlen` on strings. -/
def ctrAdd (V : List UInt8) (i : Nat) : List UInt8 := beBytes V.length (beNat V + i)

def xorStr (a b : List UInt8) : List UInt8 := List.zipWith (fun x y => x ^^^ y) a b

/-- Block_Encrypt(Key, V + 1) ‖ ... ‖ Block_Encrypt(Key, V + n). -/
def ctrBlocks (aes : List UInt8 → List UInt8 → List UInt8) (K V : List UInt8) (n : Nat) : List UInt8 :=
  (List.range n).flatMap fun i => aes K (ctrAdd V (i + 1))

/-- The working state. -/
structure DrbgState where
  Key : List UInt8
  V : List UInt8
  reseed_counter : Nat

/-- SP 800-90A, 10.2.1.2 CTR_DRBG_Update; seedlen is 48 bytes. -/
def CTR_DRBG_Update (aes : List UInt8 → List UInt8 → List UInt8) (provided : List UInt8) (K V : List UInt8) : List UInt8 × List UInt8 :=
  let temp := xorStr (ctrBlocks aes K V 3) provided
  (temp.take 32, temp.drop 32)

/-- SP 800-90A, 10.2.1.3.1 CTR_DRBG_Instantiate_algorithm, for a personalization string of seedlen bytes. -/
def CTR_DRBG_Instantiate (aes : List UInt8 → List UInt8 → List UInt8) (entropy personalization : List UInt8) : DrbgState :=
  let s := CTR_DRBG_Update aes (xorStr entropy personalization) (List.replicate 32 0) (List.replicate 16 0)
  ⟨s.1, s.2, 1⟩

/-- SP 800-90A, 10.2.1.5.1 CTR_DRBG_Generate_algorithm for `n` bytes, without additional input and without the test of the reseed interval. -/
def CTR_DRBG_Generate (aes : List UInt8 → List UInt8 → List UInt8) (n : Nat) (s : DrbgState) : List UInt8 × DrbgState :=
  let N := (n + 15) / 16
  let u := CTR_DRBG_Update aes (List.replicate 48 0) s.Key (ctrAdd s.V N)
  ((ctrBlocks aes s.Key s.V N).take n, ⟨u.1, u.2, s.reseed_counter + 1⟩)

/-- Byte `n` of the output of the NIST seed expander: AES in counter mode, the block counter being diversifier ‖ maximal length (4 bytes) ‖ block number (4 bytes). -/
def expanderByte (aes : List UInt8 → List UInt8 → List UInt8) (seed diversifier : List UInt8) (maxlen n : Nat) : UInt8 :=
  (aes seed (diversifier ++ beBytes 4 maxlen ++ beBytes 4 (n / 16))).getD (n % 16) 0

/-! ## AES-256 (FIPS 197), for the known-answer cases -/

namespace Aes

/-- Multiplication by x in GF(2^8), bytes as integers. -/
def xtime (a : Nat) : Nat := if a < 128 then 2 * a else (2 * a) ^^^ 0x11B

/-- FIPS 197, 5.1.1: the S-box. -/
def sboxTable : List Nat :=
  [0x63, 0x7c, 0x77, 0x7b, 0xf2, 0x6b, 0x6f, 0xc5, 0x30, 0x01, 0x67, 0x2b, 0xfe, 0xd7, 0xab, 0x76,
   0xca, 0x82, 0xc9, 0x7d, 0xfa, 0x59, 0x47, 0xf0, 0xad, 0xd4, 0xa2, 0xaf, 0x9c, 0xa4, 0x72, 0xc0,
   0xb7, 0xfd, 0x93, 0x26, 0x36, 0x3f, 0xf7, 0xcc, 0x34, 0xa5, 0xe5, 0xf1, 0x71, 0xd8, 0x31, 0x15,
   0x04, 0xc7, 0x23, 0xc3, 0x18, 0x96, 0x05, 0x9a, 0x07, 0x12, 0x80, 0xe2, 0xeb, 0x27, 0xb2, 0x75,
   0x09, 0x83, 0x2c, 0x1a, 0x1b, 0x6e, 0x5a, 0xa0, 0x52, 0x3b, 0xd6, 0xb3, 0x29, 0xe3, 0x2f, 0x84,
   0x53, 0xd1, 0x00, 0xed, 0x20, 0xfc, 0xb1, 0x5b, 0x6a, 0xcb, 0xbe, 0x39, 0x4a, 0x4c, 0x58, 0xcf,
   0xd0, 0xef, 0xaa, 0xfb, 0x43, 0x4d, 0x33, 0x85, 0x45, 0xf9, 0x02, 0x7f, 0x50, 0x3c, 0x9f, 0xa8,
   0x51, 0xa3, 0x40, 0x8f, 0x92, 0x9d, 0x38, 0xf5, 0xbc, 0xb6, 0xda, 0x21, 0x10, 0xff, 0xf3, 0xd2,
   0xcd, 0x0c, 0x13, 0xec, 0x5f, 0x97, 0x44, 0x17, 0xc4, 0xa7, 0x7e, 0x3d, 0x64, 0x5d, 0x19, 0x73,
   0x60, 0x81, 0x4f, 0xdc, 0x22, 0x2a, 0x90, 0x88, 0x46, 0xee, 0xb8, 0x14, 0xde, 0x5e, 0x0b, 0xdb,
   0xe0, 0x32, 0x3a, 0x0a, 0x49, 0x06, 0x24, 0x5c, 0xc2, 0xd3, 0xac, 0x62, 0x91, 0x95, 0xe4, 0x79,
   0xe7, 0xc8, 0x37, 0x6d, 0x8d, 0xd5, 0x4e, 0xa9, 0x6c, 0x56, 0xf4, 0xea, 0x65, 0x7a, 0xae, 0x08,
   0xba, 0x78, 0x25, 0x2e, 0x1c, 0xa6, 0xb4, 0xc6, 0xe8, 0xdd, 0x74, 0x1f, 0x4b, 0xbd, 0x8b, 0x8a,
   0x70, 0x3e, 0xb5, 0x66, 0x48, 0x03, 0xf6, 0x0e, 0x61, 0x35, 0x57, 0xb9, 0x86, 0xc1, 0x1d, 0x9e,
   0xe1, 0xf8, 0x98, 0x11, 0x69, 0xd9, 0x8e, 0x94, 0x9b, 0x1e, 0x87, 0xe9, 0xce, 0x55, 0x28, 0xdf,
   0x8c, 0xa1, 0x89, 0x0d, 0xbf, 0xe6, 0x42, 0x68, 0x41, 0x99, 0x2d, 0x0f, 0xb0, 0x54, 0xbb, 0x16]
def sbox (a : Nat) : Nat := sboxTable.getD a 0

/-- The state is the list of its 16 bytes, column by column. -/
def subBytes (s : List Nat) : List Nat := s.map sbox
def shiftRows (s : List Nat) : List Nat := (List.range 16).map fun i => s.getD ((i + 4 * (i % 4)) % 16) 0
def mixColumns (s : List Nat) : List Nat := (List.range 16).map fun i =>
  let c := 4 * (i / 4)
  let a := fun j => s.getD (c + (i + j) % 4) 0
  xtime (a 0) ^^^ (xtime (a 1) ^^^ a 1) ^^^ a 2 ^^^ a 3
def addKey (s k : List Nat) : List Nat := List.zipWith (fun x y => x ^^^ y) s k

/-- FIPS 197, 5.2 KeyExpansion for Nk = 8: words `8 .. 59` appended to the key, `w` being the words so far in reverse. -/
def expand : Nat → Nat → Nat → List (List Nat) → List (List Nat)
  | 0, _, _, w => w.reverse
  | n + 1, i, rcon, w =>
    let t := w.headD []
    let t := if i % 8 = 0 then addKey ((t.drop 1 ++ t.take 1).map sbox) [rcon, 0, 0, 0] else if i % 8 = 4 then t.map sbox else t
    expand n (i + 1) (if i % 8 = 0 then xtime rcon else rcon) (addKey (w.getD 7 []) t :: w)

def rounds (w : List (List Nat)) : Nat → Nat → List Nat → List Nat
  | 0, _, s => s
  | n + 1, r, s =>
    let s := shiftRows (subBytes s)
    let s := if r = 14 then s else mixColumns s
    rounds w n (r + 1) (addKey s ((w.drop (4 * r)).take 4).flatten)

end Aes

/-- AES-256 encryption of a block. -/
def AES256 (key block : List UInt8) : List UInt8 :=
  let k := key.map UInt8.toNat
  let w := Aes.expand 52 8 1 ((List.range 8).map fun i => (k.drop (4 * i)).take 4).reverse
  (Aes.rounds w 14 1 (Aes.addKey (block.map UInt8.toNat) (w.take 4).flatten)).map UInt8.ofNat

end Verif.Spec
