import Verif.Spec.Mlwe
import Verif.Spec.RomFull

/-! # Specification: K-PKE of FIPS 203 as it stands, and the problems its security rests on

Nothing is idealised here but the choice of the seeds: the matrix is a function `mat` of a public seed and the noise is the output of PRF on secret seeds of 32 bytes. -/

set_option autoImplicit false

namespace Verif.Spec
open Finset

/-- How much `D` distinguishes `f` of a uniform element from a uniform element. -/
def distAdv {X Y : Type} [Fintype X] [Fintype Y] (f : X → Y) (D : Y → ℚ) : ℚ := E (fun x => D (f x)) - E D

/-! ## An encryption whose keys and coins are expanded from seeds -/

section
variable {S KN PK M R C X Y Tape : Type}

/-- The second part of a key and the coins are expanded from seeds. -/
def expandPke (Q : Pke (S × KN) PK M R C) (g : X → KN) (h : Y → R) : Pke (S × X) PK M Y C where
  ek x := Q.ek (x.1, g x.2)
  enc pk m y := Q.enc pk m (h y)
  dec x c := Q.dec (x.1, g x.2) c

variable [Fintype S] [Fintype KN] [Fintype R] [Fintype X] [Fintype Y] [Fintype Tape]

/-- The guess of an attack. -/
noncomputable def cpaGuess (Q : Pke (S × KN) PK M R C) (B : CpaAttack PK M C Tape) (b : Bool) (t : Tape) (s : S) (kn : KN) (r : R) : ℚ :=
  let pk := Q.ek (s, kn)
  let m := B.choose t pk
  ind (B.guess t pk (Q.enc pk (if b then m.2 else m.1) r) = true)

/-- Runs the game with the given second part of the key. -/
noncomputable def keyExpansionTest (Q : Pke (S × KN) PK M R C) (h : Y → R) (B : CpaAttack PK M C Tape) (b : Bool) (kn : KN) : ℚ :=
  E fun x : Tape × S × Y => cpaGuess Q B b x.1 x.2.1 kn (h x.2.2)

/-- Runs the game with the given coins. -/
noncomputable def coinExpansionTest (Q : Pke (S × KN) PK M R C) (B : CpaAttack PK M C Tape) (b : Bool) (r : R) : ℚ :=
  E fun x : Tape × S × KN => cpaGuess Q B b x.1 x.2.1 x.2.2 r

/-- A key and coins for which some message does not decrypt. -/
noncomputable def failGuess (Q : Pke (S × KN) PK M R C) (s : S) (kn : KN) (r : R) : ℚ := ind (∃ m, Q.dec (s, kn) (Q.enc (Q.ek (s, kn)) m r) ≠ m)

/-- Looks for a message that does not decrypt, with the given second part of the key. -/
noncomputable def keyFailTest (Q : Pke (S × KN) PK M R C) (h : Y → R) (kn : KN) : ℚ := E fun x : S × Y => failGuess Q x.1 kn (h x.2)

/-- Looks for a message that does not decrypt, with the given coins. -/
noncomputable def coinFailTest (Q : Pke (S × KN) PK M R C) (r : R) : ℚ := E fun x : S × KN => failGuess Q x.1 x.2 r

end

/-! ## K-PKE -/

/-- The byte strings of s and e. -/
abbrev KeyNoise (P : Params) : Type := (Fin P.k → Bytes (64 * P.η₁)) × (Fin P.k → Bytes (64 * P.η₁))

/-- Algorithm 13, lines 8 to 15: the outputs of PRF for a key. -/
def prfKey (P : Params) (σ : Bytes 32) : KeyNoise P :=
  (fun i => listBytes _ (PRF P.η₁ (byteList σ) (UInt8.ofNat i.val)), fun i => listBytes _ (PRF P.η₁ (byteList σ) (UInt8.ofNat (P.k + i.val))))

/-- Algorithm 14, lines 9 to 17: the outputs of PRF for an encryption. -/
def prfCoins (P : Params) (r : Bytes 32) : PkeCoins P :=
  (fun i => listBytes _ (PRF P.η₁ (byteList r) (UInt8.ofNat i.val)), fun i => listBytes _ (PRF P.η₂ (byteList r) (UInt8.ofNat (P.k + i.val))),
    listBytes _ (PRF P.η₂ (byteList r) (UInt8.ofNat (2 * P.k))))

section
variable (P : Params) {S : Type} (mat : S → Fin P.k → Fin P.k → Rq)

/-- K-PKE with independent noise; the entries of the matrix are `mat` of a seed, which is part of the public key. -/
def seedPke : Pke (S × KeyNoise P) (S × List UInt8) (Bytes 32) (PkeCoins P) (Ciphertext P) where
  ek x := (x.1, ((mlPke P).ek (mat x.1, x.2)).2)
  enc pk m r := (mlPke P).enc (mat pk.1, pk.2) m r
  dec x c := (mlPke P).dec (mat x.1, x.2) c

/-- K-PKE. -/
def kPke : Pke (S × Bytes 32) (S × List UInt8) (Bytes 32) (Bytes 32) (Ciphertext P) := expandPke (seedPke P mat) (prfKey P) (prfCoins P)

end

/-- Algorithm 13, lines 3 to 7: the matrix of a seed; SampleNTT gets `N` iterations, and 0 stands for an entry whose sampling does not end within these. -/
def expandMat (P : Params) (N : Nat) (ρ : Bytes 32) : Fin P.k → Fin P.k → Rq :=
  fun i j => (SampleNTT N (byteList ρ ++ [UInt8.ofNat j.val, UInt8.ofNat i.val])).getD 0

/-! ## Module-LWE with a matrix from a seed -/

section
variable {P : Params} {S : Type} [Fintype S] (mat : S → Fin P.k → Fin P.k → Rq)

/-- The distinguisher gets a seed and A s + e for the matrix A of the seed (whose entries `mat` gives in T_q). -/
def seedReal (D : S → (Fin P.k → Rq) → ℚ) : ℚ :=
  E fun x : S × KeyNoise P => D x.1 fun i => ∑ j, mulRq (NTTInv (mat x.1 i j)) (cbd P.η₁ (x.2.1 j)) + cbd P.η₁ (x.2.2 i)

/-- The distinguisher gets a seed and a uniform vector. -/
def seedUniform (D : S → (Fin P.k → Rq) → ℚ) : ℚ := E fun x : S × (Fin P.k → Rq) => D x.1 x.2

/-- The advantage of a distinguisher. -/
def seedAdv (D : S → (Fin P.k → Rq) → ℚ) : ℚ := seedReal mat D - seedUniform D

/-- The distinguisher gets a seed, a uniform vector t, and the k + 1 products of y with the columns of A and with t, with noise. -/
def seedReal' (D : S → (Fin P.k → Rq) → (Fin P.k → Rq) → Rq → ℚ) : ℚ :=
  E fun x : (S × (Fin P.k → Rq)) × PkeCoins P => D x.1.1 x.1.2
    (fun i => ∑ j, mulRq (NTTInv (mat x.1.1 j i)) (cbd P.η₁ (x.2.1 j)) + cbd P.η₂ (x.2.2.1 i)) (∑ j, mulRq (x.1.2 j) (cbd P.η₁ (x.2.1 j)) + cbd P.η₂ x.2.2.2)

/-- The distinguisher gets a seed and uniform vectors. -/
def seedUniform' (D : S → (Fin P.k → Rq) → (Fin P.k → Rq) → Rq → ℚ) : ℚ :=
  E fun x : (S × (Fin P.k → Rq)) × ((Fin P.k → Rq) × Rq) => D x.1.1 x.1.2 x.2.1 x.2.2

def seedAdv' (D : S → (Fin P.k → Rq) → (Fin P.k → Rq) → Rq → ℚ) : ℚ := seedReal' mat D - seedUniform' D

variable {Tape : Type} [Fintype Tape] (B : CpaAttack (S × List UInt8) (Bytes 32) (Ciphertext P) Tape) (b : Bool)

/-- The public key with a seed and the vector t over R_q. -/
def seedPublic (s : S) (t : Fin P.k → Rq) : S × List UInt8 := (s, pkeEk P fun i => if h : i < P.k then NTT (t ⟨i, h⟩) else 0)

/-- The chosen message. -/
def seedChosen (w : Tape) (pk : S × List UInt8) : Bytes 32 := if b then (B.choose w pk).2 else (B.choose w pk).1

/-- Takes the given vector as the public key, encrypts, and runs the attack. -/
noncomputable def seedKeyTest : S → (Fin P.k → Rq) → ℚ := fun s t =>
  E fun x : Tape × PkeCoins P =>
    let pk := seedPublic s t
    ind (B.guess x.1 pk ((seedPke P mat).enc pk (seedChosen B b x.1 pk) x.2) = true)

/-- Takes the given vectors as the public key and, with the message added, as the ciphertext, and runs the attack. -/
noncomputable def seedCipherTest : S → (Fin P.k → Rq) → (Fin P.k → Rq) → Rq → ℚ := fun s t u v =>
  E fun x : Tape =>
    let pk := seedPublic s t
    ind (B.guess x pk (listBytes _ (pkePack P (fun i => if h : i < P.k then u ⟨i, h⟩ else 0) (v + pkeMu (byteList (seedChosen B b x pk))))) = true)

/-- Looks for a message that does not decrypt, for the given matrix. -/
noncomputable def matrixFailTest (P : Params) (A : Fin P.k → Fin P.k → Rq) : ℚ :=
  E fun x : KeyNoise P × PkeCoins P => ind (∃ m, (mlPke P).dec (A, x.1) ((mlPke P).enc ((mlPke P).ek (A, x.1)) m x.2) ≠ m)

end

/-! ## ML-KEM -/

/-- G and J as functions for the games. -/
def kemG (ek : List UInt8) (m : Bytes 32) : Bytes 32 × Bytes 32 := (listBytes 32 (G (byteList m ++ H ek)).1, listBytes 32 (G (byteList m ++ H ek)).2)
def kemJ (n : Nat) (z : Bytes 32) (c : Bytes n) : Bytes 32 := listBytes 32 (J (byteList z ++ byteList c))

/-- An attack on ML-KEM. -/
abbrev SeedAttack (P : Params) (S : Type) : Type := S × List UInt8 → Ciphertext P → Bytes 32 → Prog (Bytes 32) (Bytes 32) (Bytes 32) (Bytes 32) (Ciphertext P)

/-- The advantages against PRF and against Module-LWE. -/
noncomputable def hardness (P : Params) {S : Type} [Fintype S] (mat : S → Fin P.k → Fin P.k → Rq) {Tape : Type} [Fintype Tape] (B : CpaAttack (S × List UInt8) (Bytes 32) (Ciphertext P) Tape) : ℚ :=
  |distAdv (prfKey P) (keyExpansionTest (seedPke P mat) (prfCoins P) B true)| + |distAdv (prfKey P) (keyExpansionTest (seedPke P mat) (prfCoins P) B false)| +
  |distAdv (prfCoins P) (coinExpansionTest (seedPke P mat) B true)| + |distAdv (prfCoins P) (coinExpansionTest (seedPke P mat) B false)| +
  |seedAdv mat (seedKeyTest mat B true)| + |seedAdv mat (seedKeyTest mat B false)| + |seedAdv' mat (seedCipherTest B true)| + |seedAdv' mat (seedCipherTest B false)|

/-- How far the failures can differ from those of C76. -/
noncomputable def failDistance (P : Params) {S : Type} [Fintype S] (mat : S → Fin P.k → Fin P.k → Rq) : ℚ :=
  |distAdv mat (matrixFailTest P)| + |distAdv (prfKey P) (keyFailTest (seedPke P mat) (prfCoins P))| + |distAdv (prfCoins P) (coinFailTest (seedPke P mat))|

/-- G on the input of a key generation, on a message and a hash, and H of a public key. -/
def stdGK (P : Params) (d : Bytes 32) : Bytes 32 × Bytes 32 := (listBytes 32 (G (byteList d ++ [UInt8.ofNat P.k])).1, listBytes 32 (G (byteList d ++ [UInt8.ofNat P.k])).2)
def stdG (m h : Bytes 32) : Bytes 32 × Bytes 32 := (listBytes 32 (G (byteList m ++ byteList h)).1, listBytes 32 (G (byteList m ++ byteList h)).2)
def stdHash (pk : Bytes 32 × List UInt8) : Bytes 32 := listBytes 32 (H (pk.2 ++ byteList pk.1))

/-- An attack that may ask G on all inputs. -/
abbrev FullAttack (P : Params) (S : Type) : Type := S × List UInt8 → Ciphertext P → Bytes 32 → FProg (Bytes 32) (S × Bytes 32) (Bytes 32) (Bytes 32) (Bytes 32) (Bytes 32) (Bytes 32) (Ciphertext P)

/-- The advantages against PRF and against Module-LWE, on average over the answers to the queries that do not concern the key pair. -/
noncomputable def meanHardness (P : Params) {S : Type} [Fintype S] (mat : S → Fin P.k → Fin P.k → Rq) (hash : S × List UInt8 → Bytes 32) (A : FullAttack P S) : ℚ :=
  E fun a : (Bytes 32 → S × Bytes 32) × (Bytes 32 → Bytes 32 → Bytes 32 × Bytes 32) => hardness P mat (reduction (kPke P mat) (simpleAttack hash A a.1 a.2))

end Verif.Spec
