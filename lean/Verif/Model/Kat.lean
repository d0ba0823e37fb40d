import Verif.Model.TestKyber

/-! # Model of ref/nistkat/PQCgenKAT_kem.c

A file open for reading is the list of the bytes that are still to be read; a file open for writing is the list of the bytes written. What was written to a file is what is read from it
later (the file system is external). `fgetc`, `fscanf`, `fprintf`, `isxdigit`, `memset`, `memcmp`, `strlen`, `strncmp` are external and do what the C standard says (C locale, ASCII). -/

namespace Verif.Model

abbrev File := List UInt8

/-- The bytes of an ASCII text. -/
def ascii (l : List Char) : List UInt8 := l.map fun c => UInt8.ofNat c.toNat
def txt (s : String) : List UInt8 := ascii s.toList

/-- `fgetc`: the next byte (`none` for EOF) and the rest. -/
def fgetc : File → Option UInt8 × File
  | [] => (none, [])
  | c :: f => (some c, f)

/-- PQCgenKAT_kem.c:15 -/
def MAX_MARKER_LEN : Nat := 50

/-- `strlen`, from position `j` of the buffer; at most `n` bytes. -/
def strlen (s : Mem UInt8) : Nat → Nat → C Nat
  | 0, _ => .diverge
  | n + 1, j => do
    let x ← rd s j
    if x = 0 then pure j else strlen s n (j + 1)

/-- `strncmp(a, b, n) != 0`, from position `j` with `n` bytes left. -/
def strncmpNe (a b : Mem UInt8) : Nat → Nat → C Bool
  | 0, _ => pure false
  | n + 1, j => do
    let x ← rd a j
    let y ← rd b j
    if x ≠ y then pure true else if x = 0 then pure false else strncmpNe a b n (j + 1)

/-- PQCgenKAT_kem.c:144-150: `n` bytes from `line[i]` on; `none`: returned 0. EOF is -1, as a `char` 0xff. -/
def fmFill : Nat → Nat → Mem UInt8 → File → C (Option (Mem UInt8 × File))
  | 0, _, line, f => do C.leak (.br false); pure (some (line, f))
  | n + 1, i, line, f => do
    C.leak (.br true)
    let (c, f) := fgetc f
    let line ← wr line i (c.getD 0xff)
    C.leak (.br c.isNone)
    match c with
    | none => pure none
    | some _ => fmFill n (i + 1) line f

/-- PQCgenKAT_kem.c:153-164: the loop `while (1)`, at most `fuel` times. -/
def fmLoop (marker : Mem UInt8) (len : Nat) : Nat → Mem UInt8 → File → C (Int × File)
  | 0, _, _ => .diverge
  | fuel + 1, line, f => do
    let d ← strncmpNe line marker len 0
    cif (!d) (pure (1, f)) do
      let line ← cfor 0 (len - 1) line fun i line => do
        let x ← rd line (i + 1)
        wr line i x
      let (c, f) := fgetc f
      let line ← wr line (len - 1) (c.getD 0xff)
      C.leak (.br c.isNone)
      match c with
      | none => pure (0, f)
      | some _ => do
        let line ← wr line len 0
        fmLoop marker len fuel line f

/-- PQCgenKAT_kem.c:133-168 `FindMarker`. Returns the return value and the rest of the file. -/
def FindMarker (infile : File) (marker : Mem UInt8) : C (Int × File) := do
  let line := Mem.uninit UInt8 MAX_MARKER_LEN
  let n ← strlen marker (marker.size + 1) 0
  let len ← cif (decide (n > MAX_MARKER_LEN - 1)) (pure (MAX_MARKER_LEN - 1)) (pure n)
  let r ← fmFill len 0 line infile
  match r with
  | none => pure (0, [])
  | some (line, f) => do
    let line ← wr line len 0
    fmLoop marker len (f.length + 1) line f

/-- `isxdigit` -/
def isxdigit (c : UInt8) : Bool := (48 ≤ c.toNat && c.toNat ≤ 57) || (65 ≤ c.toNat && c.toNat ≤ 70) || (97 ≤ c.toNat && c.toNat ≤ 102)

/-- PQCgenKAT_kem.c:198-205: the value of a digit. -/
def hexNibble (ch : UInt8) : C UInt8 :=
  cif (decide (48 ≤ ch.toNat) && decide (ch.toNat ≤ 57)) (pure (UInt8.ofNat (ch.toNat - 48)))
    (cif (decide (65 ≤ ch.toNat) && decide (ch.toNat ≤ 70)) (pure (UInt8.ofNat (ch.toNat - 65 + 10)))
      (cif (decide (97 ≤ ch.toNat) && decide (ch.toNat ≤ 102)) (pure (UInt8.ofNat (ch.toNat - 97 + 10))) (pure 0)))

/-- PQCgenKAT_kem.c:186-210: the loop that reads digits. The computation `(A[i] << 4) | (A[i+1] >> 4)` is in `int` (at most 4095) and truncated. -/
def rhLoop (Length : Nat) : Nat → Bool → Mem UInt8 → File → C (Mem UInt8 × File)
  | 0, _, _, _ => .diverge
  | fuel + 1, started, A, f => do
    let (c, f) := fgetc f
    C.leak (.br c.isSome)
    match c with
    | none => pure (A, f)
    | some ch =>
      cif (!isxdigit ch)
        (cif (!started)
          (cif (ch == 10) (pure (A, f)) (rhLoop Length fuel started A f))
          (pure (A, f)))
        (do
          let ich ← hexNibble ch
          let A ← cfor 0 (Length - 1) A fun i A => do
            let x ← rd A i
            let y ← rd A (i + 1)
            wr A i (UInt8.ofNat ((x.toNat <<< 4) ||| (y.toNat >>> 4)))
          let x ← rd A (Length - 1)
          let A ← wr A (Length - 1) (UInt8.ofNat ((x.toNat <<< 4) ||| ich.toNat))
          rhLoop Length fuel true A f)

/-- PQCgenKAT_kem.c:173-215 `ReadHex`. Returns the return value, the buffer and the rest of the file. -/
def ReadHex (infile : File) (A : Mem UInt8) (Length : Nat) (str : Mem UInt8) : C (Int × Mem UInt8 × File) :=
  cif (decide (Length = 0))
    (do
      let A ← wr A 0 0x00
      pure (1, A, infile))
    (do
      let A ← memset A 0 0x00 Length
      let (r, f) ← FindMarker infile str
      cif (decide (r ≠ 0))
        (do
          let (A, f) ← rhLoop Length (f.length + 1) false A f
          pure (1, A, f))
        (pure (0, A, f)))

/-- A hexadecimal digit as `%X` prints it, and `fprintf("%02X")` of a byte. -/
def hexDigitX (n : Nat) : Char := Char.ofNat (if n < 10 then 48 + n else 55 + n)
def hex02X (x : UInt8) : List UInt8 := ascii [hexDigitX (x.toNat / 16), hexDigitX (x.toNat % 16)]

/-- PQCgenKAT_kem.c:217-231 `fprintBstr`. -/
def fprintBstr (fp : File) (S : String) (A : Mem UInt8) (L : Nat) : C File := do
  let fp := fp ++ txt S
  let fp ← cfor 0 L fp fun i fp => do
    let x ← rd A i
    pure (fp ++ hex02X x)
  let fp ← cif (decide (L = 0)) (pure (fp ++ txt "00")) (pure fp)
  pure (fp ++ txt "\n")

/-- `fscanf(f, "%d", &count)`: white space, an optional sign, digits. `none`: no conversion, `count` keeps its value. -/
def isspace (c : UInt8) : Bool := c.toNat = 32 || (9 ≤ c.toNat && c.toNat ≤ 13)
def isdigit (c : UInt8) : Bool := 48 ≤ c.toNat && c.toNat ≤ 57
def decVal (l : List UInt8) : Nat := l.foldl (fun a c => 10 * a + (c.toNat - 48)) 0
def fscanf_d (f : File) : C (Option Int × File) :=
  let f := f.dropWhile isspace
  let (neg, f) := match f with
    | c :: f' => if c.toNat = 45 then (true, f') else if c.toNat = 43 then (false, f') else (false, f)
    | [] => (false, f)
  let ds := f.takeWhile isdigit
  if ds = [] then pure (none, f) else do
    let v ← ckInt (if neg then -(decVal ds : Int) else decVal ds)
    pure (some v, f.dropWhile isdigit)

/-- `fprintf("%d")`. -/
def fmtInt (n : Int) : List UInt8 := ascii (toString n).toList

/-- kem.h:12-18 -/
def CRYPTO_ALGNAME : ParamSet → String
  | .k2 => "Kyber512"
  | .k3 => "Kyber768"
  | .k4 => "Kyber1024"

/-- The generator of nistkat/rng.c behind `randombytes`. -/
def katRng (aes : Cipher) : Rng DRBG := fun g x xo n => do
  let (x, _, g) ← drbg_randombytes aes g x xo n
  pure (x, g)

/-- PQCgenKAT_kem.c:54-62: the loop that writes the request file (with `n` for 100). -/
def katReq (aes : Cipher) (n : Nat) (g : DRBG) (seed : Mem UInt8) : C (File × DRBG × Mem UInt8) :=
  cfor 0 n (([] : File), g, seed) fun i (fp, g, seed) => do
    let fp := fp ++ txt "count = " ++ fmtInt i ++ txt "\n"
    let (seed, g) ← katRng aes g seed 0 48
    let fp ← fprintBstr fp "seed = " seed 48
    let fp := fp ++ txt "pk =\n"
    let fp := fp ++ txt "sk =\n"
    let fp := fp ++ txt "ct =\n"
    let fp := fp ++ txt "ss =\n\n"
    pure (fp, g, seed)

/-- The variables of `main` in the second loop. `out` is stdout; `ret` is set when `main` has returned. -/
structure KatSt where
  g : DRBG
  seed : Mem UInt8
  count : Option Int
  pk : Mem UInt8
  sk : Mem UInt8
  ct : Mem UInt8
  ss : Mem UInt8
  ss1 : Mem UInt8
  req : File
  rsp : File
  out : File
  ret : Option Int
  done : Bool

/-- A string constant in memory. -/
def cstr (s : String) : Mem UInt8 := Mem.ofList (txt s ++ [0])

/-- PQCgenKAT_kem.c:74-115: the body of the second loop. -/
def katBody (p : ParamSet) (K : KemApi) (aes : Cipher) (fn_req : List UInt8) (s : KatSt) : C KatSt := do
  let (r, req) ← FindMarker s.req (cstr "count = ")
  cif (decide (r ≠ 0))
    (do
      let (c, req) ← fscanf_d req
      let count := c.or s.count
      match count with
      | none => .ub .uninit
      | some count => do
        let rsp := s.rsp ++ txt "count = " ++ fmtInt count ++ txt "\n"
        let (ok, seed, req) ← ReadHex req s.seed 48 (cstr "seed = ")
        cif (decide (ok = 0))
          (pure { s with count := some count, seed := seed, req := req, rsp := rsp, out := s.out ++ txt "ERROR: unable to read 'seed' from <" ++ fn_req ++ txt ">\n", ret := some (-3) })
          (do
            let rsp ← fprintBstr rsp "seed = " seed 48
            let g ← randombytes_init aes s.g seed none
            let (pk, sk, r, g) ← kemKeypair K (katRng aes) g s.pk s.sk
            cif (decide (r ≠ 0))
              (pure { s with out := s.out ++ txt "crypto_kem_keypair returned <" ++ fmtInt r ++ txt ">\n", rsp := rsp, ret := some (-4) })
              (do
                let rsp ← fprintBstr rsp "pk = " pk (KYBER_PUBLICKEYBYTES p)
                let rsp ← fprintBstr rsp "sk = " sk (KYBER_SECRETKEYBYTES p)
                let (ct, ss, r, g) ← kemEnc K (katRng aes) g s.ct s.ss pk
                cif (decide (r ≠ 0))
                  (pure { s with out := s.out ++ txt "crypto_kem_enc returned <" ++ fmtInt r ++ txt ">\n", rsp := rsp, ret := some (-4) })
                  (do
                    let rsp ← fprintBstr rsp "ct = " ct (KYBER_CIPHERTEXTBYTES p)
                    let rsp ← fprintBstr rsp "ss = " ss KYBER_SSBYTES
                    let rsp := rsp ++ txt "\n"
                    let (ss1, r) ← K.dec s.ss1 ct sk
                    cif (decide (r ≠ 0))
                      (pure { s with out := s.out ++ txt "crypto_kem_dec returned <" ++ fmtInt r ++ txt ">\n", rsp := rsp, ret := some (-4) })
                      (do
                        let d ← memcmpNe ss ss1 KYBER_SSBYTES
                        cif d
                          (pure { s with out := s.out ++ txt "crypto_kem_dec returned bad 'ss' value\n", rsp := rsp, ret := some (-4) })
                          (pure ⟨g, seed, some count, pk, sk, ct, ss, ss1, req, rsp, s.out, none, false⟩))))))
    (pure { s with req := req, done := true })

/-- What the program leaves: the request file, the response file, stdout, the return value. -/
structure KatResult where
  req : File
  rsp : File
  out : File
  ret : Int

/-- `sprintf(fn, "PQCkemKAT_%d.req", n)` into an array of 32 bytes; the terminating 0 has to fit too. -/
def katName (p : ParamSet) (suffix : String) : C (List UInt8) := do
  let s := txt "PQCkemKAT_" ++ fmtInt (KYBER_SECRETKEYBYTES p) ++ txt suffix
  if s.length + 1 ≤ 32 then pure s else .ub .oob

/-- PQCgenKAT_kem.c:25-123 `main`, with `n` for 100. `opens` says which of the three `fopen` calls succeed; `K i` are the KEM calls in iteration `i` of the second loop (counted by the
bytes of the request file that are left, which is different in each iteration); `g` is the initial content of `DRBG_ctx`. -/
def katMain (p : ParamSet) (K : Nat → KemApi) (aes : Cipher) (opens : Bool × Bool × Bool) (g : DRBG) (n : Nat) : C KatResult := do
  let fn_req ← katName p ".req"
  cif (!opens.1) (pure ⟨[], [], txt "Couldn't open <" ++ fn_req ++ txt "> for write\n", -1⟩) do
  let fn_rsp ← katName p ".rsp"
  cif (!opens.2.1) (pure ⟨[], [], txt "Couldn't open <" ++ fn_rsp ++ txt "> for write\n", -1⟩) do
  let entropy ← cfor 0 48 (Mem.uninit UInt8 48) fun i m => wr m i (UInt8.ofNat i)
  let g ← randombytes_init aes g entropy none
  let (req, g, seed) ← katReq aes n g (Mem.uninit UInt8 48)
  cif (!opens.2.2) (pure ⟨req, [], txt "Couldn't open <" ++ fn_req ++ txt "> for read\n", -1⟩) do
  let rsp := txt "# " ++ txt (CRYPTO_ALGNAME p) ++ txt "\n\n"
  let s ← cwhile (n + 2) (fun s : KatSt => s.ret.isNone && !s.done) (fun s => katBody p (K s.req.length) aes fn_req s)
    ⟨g, seed, none, Mem.uninit UInt8 (KYBER_PUBLICKEYBYTES p), Mem.uninit UInt8 (KYBER_SECRETKEYBYTES p), Mem.uninit UInt8 (KYBER_CIPHERTEXTBYTES p), Mem.uninit UInt8 KYBER_SSBYTES,
      Mem.uninit UInt8 KYBER_SSBYTES, req, rsp, [], none, false⟩
  pure ⟨req, s.rsp, s.out, s.ret.getD 0⟩

end Verif.Model
