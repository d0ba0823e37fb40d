import Verif.Model.Kem
import Verif.Model.Fips202

/-! # Model of ref/test/test_vectors.c

The programs are linked against the KEM calls of either build, and against a `randombytes` of their own: both are parameters of the definitions here. Text written to a stream is a
list of characters. -/

namespace Verif.Model

/-- The calls of kem.h that a program is linked against (output buffers are passed and returned). -/
structure KemApi where
  keypair_derand : Mem UInt8 → Mem UInt8 → Mem UInt8 → C (Mem UInt8 × Mem UInt8 × Int)
  enc_derand : Mem UInt8 → Mem UInt8 → Mem UInt8 → Mem UInt8 → C (Mem UInt8 × Mem UInt8 × Int)
  dec : Mem UInt8 → Mem UInt8 → Mem UInt8 → C (Mem UInt8 × Int)

/-- The reference build. -/
def refApi (p : ParamSet) (fuel : Nat) : KemApi := ⟨crypto_kem_keypair_derand p fuel, crypto_kem_enc_derand p fuel, crypto_kem_dec p fuel⟩

/-- A `randombytes` with state of type `σ`: state, buffer, offset, length. -/
abbrev Rng (σ : Type) := σ → Mem UInt8 → Nat → Nat → C (Mem UInt8 × σ)

variable {σ : Type}

/-- ref/kem.c:50-57 `crypto_kem_keypair`. -/
def kemKeypair (K : KemApi) (rb : Rng σ) (st : σ) (pk sk : Mem UInt8) : C (Mem UInt8 × Mem UInt8 × Int × σ) := do
  let coins := Mem.uninit UInt8 (2 * KYBER_SYMBYTES)
  let (coins, st) ← rb st coins 0 (2 * KYBER_SYMBYTES)
  let (pk, sk, _) ← K.keypair_derand pk sk coins
  pure (pk, sk, 0, st)

/-- ref/kem.c:113-121 `crypto_kem_enc`. -/
def kemEnc (K : KemApi) (rb : Rng σ) (st : σ) (ct ss pk : Mem UInt8) : C (Mem UInt8 × Mem UInt8 × Int × σ) := do
  let coins := Mem.uninit UInt8 KYBER_SYMBYTES
  let (coins, st) ← rb st coins 0 KYBER_SYMBYTES
  let (ct, ss, _) ← K.enc_derand ct ss pk coins
  pure (ct, ss, 0, st)

/-- A hexadecimal digit as `%x` prints it. -/
def hexDigit (n : Nat) : Char := Char.ofNat (if n < 10 then 48 + n else 87 + n)

/-- `printf("%02x", x)` for a byte. -/
def hex02 (x : UInt8) : List Char := [hexDigit (x.toNat / 16), hexDigit (x.toNat % 16)]

/-- `for(j=0;j<n;j++) printf("%02x",m[j]);` -/
def printHex (out : List Char) (m : Mem UInt8) (n : Nat) : C (List Char) :=
  cfor 0 n out fun j out => do
    let x ← rd m j
    pure (out ++ hex02 x)

/-- test_vectors.c:66-71: a loop over bytes `j, ..., j + n - 1` that is left at the first difference. -/
def differ (a b : Mem UInt8) : Nat → Nat → C Bool
  | 0, _ => do C.leak (.br false); pure false
  | n + 1, j => do
    C.leak (.br true)
    let x ← rd a j
    let y ← rd b j
    cif (x != y) (pure true) (differ a b n (j + 1))

/-- test_vectors.c:16 the initial state of the generator. -/
def rngstate : KeccakState :=
  ⟨Mem.ofList [0x1F, 0, 0, 0, 0, 0, 0, 0, 0, 0, 0, 0, 0, 0, 0, 0, 0, 0, 0, 0, (1 : UInt64) <<< 63, 0, 0, 0, 0], some SHAKE128_RATE⟩

/-- test_vectors.c:18-21 `randombytes`. -/
def tv_randombytes : Rng KeccakState := fun st x xo xlen => shake128_squeeze x xo xlen st

/-- State of the loop of `main`: the generator, the buffers, what was written to stdout and stderr, and the return value once there is one. -/
structure TvSt (σ : Type) where
  rng : σ
  pk : Mem UInt8
  sk : Mem UInt8
  ct : Mem UInt8
  key_a : Mem UInt8
  key_b : Mem UInt8
  out : List Char
  err : List Char
  i : Nat
  ret : Option Int

/-- test_vectors.c:33-79, the body of the loop. -/
def tvBody (p : ParamSet) (K : KemApi) (rb : Rng σ) (s : TvSt σ) : C (TvSt σ) := do
  let (pk, sk, _, rng) ← kemKeypair K rb s.rng s.pk s.sk
  let out := s.out ++ "Public Key: ".toList
  let out ← printHex out pk (KYBER_PUBLICKEYBYTES p)
  let out := out ++ "\n".toList
  let out := out ++ "Secret Key: ".toList
  let out ← printHex out sk (KYBER_SECRETKEYBYTES p)
  let out := out ++ "\n".toList
  let (ct, key_b, _, rng) ← kemEnc K rb rng s.ct s.key_b pk
  let out := out ++ "Ciphertext: ".toList
  let out ← printHex out ct (KYBER_CIPHERTEXTBYTES p)
  let out := out ++ "\n".toList
  let out := out ++ "Shared Secret B: ".toList
  let out ← printHex out key_b KYBER_SSBYTES
  let out := out ++ "\n".toList
  let (key_a, _) ← K.dec s.key_a ct sk
  let out := out ++ "Shared Secret A: ".toList
  let out ← printHex out key_a KYBER_SSBYTES
  let out := out ++ "\n".toList
  let d ← differ key_a key_b KYBER_SSBYTES 0
  match d with
  | true => pure ⟨rng, pk, sk, ct, key_a, key_b, out, s.err ++ "ERROR\n".toList, s.i, some (-1)⟩
  | false => do
    let (ct, rng) ← rb rng ct 0 (KYBER_CIPHERTEXTBYTES p)
    let (key_a, _) ← K.dec key_a ct sk
    let out := out ++ "Pseudorandom shared Secret A: ".toList
    let out ← printHex out key_a KYBER_SSBYTES
    let out := out ++ "\n".toList
    pure ⟨rng, pk, sk, ct, key_a, key_b, out, s.err, s.i + 1, none⟩

/-- test_vectors.c:23-79 `main` with `n` for NTESTS (10000). `K i` are the KEM calls in iteration `i`. Returns what was written to stdout and stderr, and the return value. -/
def tvMain (p : ParamSet) (K : Nat → KemApi) (rb : Rng σ) (st : σ) (n : Nat) : C (List Char × List Char × Int) := do
  let s ← cwhile (n + 1) (fun s : TvSt σ => s.ret.isNone && decide (s.i < n)) (fun s => tvBody p (K s.i) rb s)
    ⟨st, Mem.uninit UInt8 (KYBER_PUBLICKEYBYTES p), Mem.uninit UInt8 (KYBER_SECRETKEYBYTES p), Mem.uninit UInt8 (KYBER_CIPHERTEXTBYTES p), Mem.uninit UInt8 KYBER_SSBYTES,
      Mem.uninit UInt8 KYBER_SSBYTES, [], [], 0, none⟩
  pure (s.out, s.err, s.ret.getD 0)

/-- test_vectors.c:11, 23-83: the program. -/
def test_vectors (p : ParamSet) (K : Nat → KemApi) : C (List Char × List Char × Int) := tvMain p K tv_randombytes rngstate 10000

end Verif.Model
