import Verif.Spec.Fips203

/-! # Specification: the text that the test programs write -/

namespace Verif.Spec

/-- The lower-case hexadecimal digits of a byte string, two per byte. -/
def hexText (l : List UInt8) : List Char :=
  l.flatMap fun b => ["0123456789abcdef".toList.getD (b.toNat / 16) '?', "0123456789abcdef".toList.getD (b.toNat % 16) '?']

/-- A line with a name and a byte string. -/
def hexLine (name : String) (l : List UInt8) : List Char := name.toList ++ hexText l ++ ['\n']

/-- The `k` bytes at position `n` of a stream. -/
def streamAt (src : Nat → UInt8) (n k : Nat) : List UInt8 := (List.range k).map fun i => src (n + i)

/-- Byte number `n` of SHAKE128 of the empty string. -/
def shakeStream (n : Nat) : UInt8 := (SHAKE128 [] (n + 1)).getD n 0

/-- `m` test vectors from position `pos` of the random bytes `src`: what is written to stdout and stderr, and the return value. `N` bounds the rejection sampling. -/
def testVectors (P : Params) (N : Nat) (src : Nat → UInt8) : Nat → Nat → Option (List Char × List Char × Int)
  | 0, _ => some ([], [], 0)
  | m + 1, pos => do
    let (ek, dk) ← KeyGen_internal P N (streamAt src pos 32) (streamAt src (pos + 32) 32)
    let (K, c) ← Encaps_internal P N ek (streamAt src (pos + 64) 32)
    let K' ← Decaps_internal P N dk c
    let text := hexLine "Public Key: " ek ++ hexLine "Secret Key: " dk ++ hexLine "Ciphertext: " c ++ hexLine "Shared Secret B: " K ++ hexLine "Shared Secret A: " K'
    if K' = K then do
      let K'' ← Decaps_internal P N dk (streamAt src (pos + 96) (32 * (P.du * P.k + P.dv)))
      let (out, err, ret) ← testVectors P N src m (pos + 96 + 32 * (P.du * P.k + P.dv))
      some (text ++ hexLine "Pseudorandom shared Secret A: " K'' ++ out, err, ret)
    else some (text, "ERROR\n".toList, -1)

/-! ## test_kyber.c -/

/-- Key generation and encapsulation with the 96 random bytes at `pos`: decapsulation key, shared secret, ciphertext. -/
def exchange (P : Params) (N : Nat) (src : Nat → UInt8) (pos : Nat) : Option (List UInt8 × List UInt8 × List UInt8) := do
  let (ek, dk) ← KeyGen_internal P N (streamAt src pos 32) (streamAt src (pos + 32) 32)
  let (K, c) ← Encaps_internal P N ek (streamAt src (pos + 64) 32)
  some (dk, K, c)

/-- The position of the first nonzero byte at or after `pos`, among `tries` bytes. -/
def firstNonzero (src : Nat → UInt8) (tries pos : Nat) : Option Nat := ((List.range tries).map (pos + ·)).find? fun q => src q ≠ 0

/-- One round of the test program from position `pos`: what it writes, whether it goes on, and the next position. -/
def testRound (P : Params) (N : Nat) (src : Nat → UInt8) (tries pos : Nat) : Option (List Char × Bool × Nat) := do
  let ctLen := 32 * (P.du * P.k + P.dv)
  let dkLen := 768 * P.k + 96
  -- the same shared secret on both sides
  let (dk₁, K₁, c₁) ← exchange P N src pos
  let K₁' ← Decaps_internal P N dk₁ c₁
  -- a random decapsulation key
  let (_, K₂, c₂) ← exchange P N src (pos + 96)
  let K₂' ← Decaps_internal P N (streamAt src (pos + 192) dkLen) c₂
  -- a ciphertext with a changed byte
  let q ← firstNonzero src tries (pos + 192 + dkLen)
  let place := (∑ i : Fin 8, (src (q + 1 + i)).toNat * 256 ^ i.val) % ctLen
  let (dk₃, K₃, c₃) ← exchange P N src (q + 9)
  let K₃' ← Decaps_internal P N dk₃ (c₃.set place (c₃.getD place 0 ^^^ src q))
  some ((if K₁' = K₁ then [] else "ERROR keys\n".toList) ++ (if K₂' = K₂ then "ERROR invalid sk\n".toList else []) ++ (if K₃' = K₃ then "ERROR invalid ciphertext\n".toList else []),
    decide (K₁' = K₁ ∧ K₂' ≠ K₂ ∧ K₃' ≠ K₃), q + 105)

/-- `n` rounds: what is written to stdout, and the return value. -/
def testKyber (P : Params) (N : Nat) (src : Nat → UInt8) (tries : Nat) : Nat → Nat → Option (List Char × Int)
  | 0, _ => some (("CRYPTO_SECRETKEYBYTES:  " ++ toString (768 * P.k + 96) ++ "\nCRYPTO_PUBLICKEYBYTES:  " ++ toString (384 * P.k + 32) ++
      "\nCRYPTO_CIPHERTEXTBYTES: " ++ toString (32 * (P.du * P.k + P.dv)) ++ "\n").toList, 0)
  | n + 1, pos => do
    let (text, goesOn, next) ← testRound P N src tries pos
    if goesOn then do
      let (out, ret) ← testKyber P N src tries n next
      some (text ++ out, ret)
    else some (text, 1)

end Verif.Spec
