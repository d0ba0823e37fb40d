import Verif.Model.TestVectors
import Verif.Model.Drbg

/-! # Model of ref/test/test_kyber.c

`K` are the KEM calls of the build that is tested and `rb` is `randombytes`; `memcmp` and `printf` are external. -/

namespace Verif.Model

variable {σ : Type}

/-- `memcmp(a, b, n) != 0` -/
def memcmpNe (a b : Mem UInt8) (n : Nat) : C Bool := do
  let x ← rdBytes a 0 n
  let y ← rdBytes b 0 n
  pure (decide (x ≠ y))

/-- Result of a test: return value, what it printed, and the generator. -/
abbrev TestRes (σ : Type) := Int × List Char × σ

/-- test_kyber.c:9-32 `test_keys`. -/
def test_keys (p : ParamSet) (K : KemApi) (rb : Rng σ) (st : σ) : C (TestRes σ) := do
  let (pk, sk, _, st) ← kemKeypair K rb st (Mem.uninit UInt8 (KYBER_PUBLICKEYBYTES p)) (Mem.uninit UInt8 (KYBER_SECRETKEYBYTES p))
  let (ct, key_b, _, st) ← kemEnc K rb st (Mem.uninit UInt8 (KYBER_CIPHERTEXTBYTES p)) (Mem.uninit UInt8 KYBER_SSBYTES) pk
  let (key_a, _) ← K.dec (Mem.uninit UInt8 KYBER_SSBYTES) ct sk
  let d ← memcmpNe key_a key_b KYBER_SSBYTES
  cif d (pure (1, "ERROR keys\n".toList, st)) (pure (0, [], st))

/-- test_kyber.c:34-60 `test_invalid_sk_a`. -/
def test_invalid_sk_a (p : ParamSet) (K : KemApi) (rb : Rng σ) (st : σ) : C (TestRes σ) := do
  let (pk, sk, _, st) ← kemKeypair K rb st (Mem.uninit UInt8 (KYBER_PUBLICKEYBYTES p)) (Mem.uninit UInt8 (KYBER_SECRETKEYBYTES p))
  let (ct, key_b, _, st) ← kemEnc K rb st (Mem.uninit UInt8 (KYBER_CIPHERTEXTBYTES p)) (Mem.uninit UInt8 KYBER_SSBYTES) pk
  let (sk, st) ← rb st sk 0 (KYBER_SECRETKEYBYTES p)
  let (key_a, _) ← K.dec (Mem.uninit UInt8 KYBER_SSBYTES) ct sk
  let d ← memcmpNe key_a key_b KYBER_SSBYTES
  cif (!d) (pure (1, "ERROR invalid sk\n".toList, st)) (pure (0, [], st))

/-- test_kyber.c:72-74: `do { randombytes(&b, 1); } while(!b);`, at most `f` times. -/
def nonzeroByte (rb : Rng σ) : Nat → Mem UInt8 → σ → C (UInt8 × σ)
  | 0, _, _ => .diverge
  | f + 1, b, st => do
    let (b, st) ← rb st b 0 1
    let x ← rd b 0
    cif (x == 0) (nonzeroByte rb f b st) (pure (x, st))

/-- A `size_t` from its 8 bytes in memory (little-endian machine). -/
def leNat (l : List UInt8) : Nat := l.foldr (fun x a => x.toNat + 256 * a) 0

/-- test_kyber.c:62-95 `test_invalid_ciphertext`. -/
def test_invalid_ciphertext (p : ParamSet) (K : KemApi) (rb : Rng σ) (tries : Nat) (st : σ) : C (TestRes σ) := do
  let (b, st) ← nonzeroByte rb tries (Mem.uninit UInt8 1) st
  let (posBytes, st) ← rb st (Mem.uninit UInt8 8) 0 8
  let pos := leNat (← rdBytes posBytes 0 8)
  let (pk, sk, _, st) ← kemKeypair K rb st (Mem.uninit UInt8 (KYBER_PUBLICKEYBYTES p)) (Mem.uninit UInt8 (KYBER_SECRETKEYBYTES p))
  let (ct, key_b, _, st) ← kemEnc K rb st (Mem.uninit UInt8 (KYBER_CIPHERTEXTBYTES p)) (Mem.uninit UInt8 KYBER_SSBYTES) pk
  let x ← rd ct (pos % KYBER_CIPHERTEXTBYTES p)
  let ct ← wr ct (pos % KYBER_CIPHERTEXTBYTES p) (x ^^^ b)
  let (key_a, _) ← K.dec (Mem.uninit UInt8 KYBER_SSBYTES) ct sk
  let d ← memcmpNe key_a key_b KYBER_SSBYTES
  cif (!d) (pure (1, "ERROR invalid ciphertext\n".toList, st)) (pure (0, [], st))

/-- State of the loop of `main`. -/
structure TkSt (σ : Type) where
  rng : σ
  out : List Char
  i : Nat
  failed : Bool

/-- test_kyber.c:104-110, the body of the loop; the three tests use the KEM calls `K 0`, `K 1`, `K 2`. `r |= ...` on values 0 and 1. -/
def tkBody (p : ParamSet) (K : Nat → KemApi) (rb : Rng σ) (tries : Nat) (s : TkSt σ) : C (TkSt σ) := do
  let (r0, t0, st) ← test_keys p (K 0) rb s.rng
  let (r1, t1, st) ← test_invalid_sk_a p (K 1) rb st
  let (r2, t2, st) ← test_invalid_ciphertext p (K 2) rb tries st
  let r := (BitVec.ofInt 32 r0 ||| BitVec.ofInt 32 r1 ||| BitVec.ofInt 32 r2).toInt
  let out := s.out ++ t0 ++ t1 ++ t2
  cif (decide (r ≠ 0)) (pure ⟨st, out, s.i, true⟩) (pure ⟨st, out, s.i + 1, false⟩)

/-- `printf("%d", n)` for a nonnegative `n`. -/
def decimal (n : Nat) : List Char := (Nat.repr n).toList

/-- test_kyber.c:97-115 `main`, with `n` for NTESTS (1000). Returns what was written to stdout and the return value. -/
def tkMain (p : ParamSet) (K : Nat → Nat → KemApi) (rb : Rng σ) (tries : Nat) (st : σ) (n : Nat) : C (List Char × Int) := do
  let s ← cwhile (n + 1) (fun s : TkSt σ => !s.failed && decide (s.i < n)) (fun s => tkBody p (K s.i) rb tries s) ⟨st, [], 0, false⟩
  pure (if s.failed then (s.out, 1) else
    (s.out ++ "CRYPTO_SECRETKEYBYTES:  ".toList ++ decimal (KYBER_SECRETKEYBYTES p) ++ "\nCRYPTO_PUBLICKEYBYTES:  ".toList ++ decimal (KYBER_PUBLICKEYBYTES p) ++
      "\nCRYPTO_CIPHERTEXTBYTES: ".toList ++ decimal (KYBER_CIPHERTEXTBYTES p) ++ "\n".toList, 0))

end Verif.Model
