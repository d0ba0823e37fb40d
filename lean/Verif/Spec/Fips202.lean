import Verif.Spec.Encode

/-! # Specification: FIPS 202 (SHA-3 standard)

Written from the standard, independent of the code: the step mappings act on single bits `A[x, y, z]`, the round constants come from the
linear feedback shift register, the sponge acts on bit strings. -/

namespace Verif.Spec

/-! ## Section 3: Keccak-p[1600, 24] -/

/-- State arrays (section 3.1) for b = 1600, w = 64. Index arithmetic in `Fin 5` and `Fin 64` is modulo 5 and 64. -/
abbrev KState := Fin 5 → Fin 5 → Fin 64 → Bool

/-- Section 3.1.2: string to state array, `A[x, y, z] = S[w (5 y + x) + z]`. -/
def toKState (S : List Bool) : KState := fun x y z => S.getD (64 * (5 * y.val + x.val) + z.val) false

/-- Section 3.1.3: state array to string (lane by lane, plane by plane). -/
def ofKState (A : KState) : List Bool :=
  (List.finRange 5).flatMap fun y => (List.finRange 5).flatMap fun x => (List.finRange 64).map fun z => A x y z

/-- Algorithm 1. -/
def theta (A : KState) : KState :=
  let C : Fin 5 → Fin 64 → Bool := fun x z => xor (xor (xor (xor (A x 0 z) (A x 1 z)) (A x 2 z)) (A x 3 z)) (A x 4 z)
  let D : Fin 5 → Fin 64 → Bool := fun x z => xor (C (x - 1) z) (C (x + 1) (z - 1))
  fun x y z => xor (A x y z) (D x z)

/-- Algorithm 2: the lanes are visited in the order (1,0), then (x, y) := (y, 2x + 3y); lane number t is rotated by (t+1)(t+2)/2. -/
def rho (A : KState) : KState :=
  ((List.range 24).foldl (fun (s : KState × Fin 5 × Fin 5) t =>
    let x := s.2.1
    let y := s.2.2
    (fun x' y' => if x' = x ∧ y' = y then (fun z => A x y (z - Fin.ofNat 64 ((t + 1) * (t + 2) / 2))) else s.1 x' y', y, 2 * x + 3 * y))
    (A, 1, 0)).1

/-- Algorithm 3. -/
def pi (A : KState) : KState := fun x y z => A (x + 3 * y) x z

/-- Algorithm 4. -/
def chi (A : KState) : KState := fun x y z => xor (A x y z) ((xor (A (x + 1) y z) true) && A (x + 2) y z)

/-- The step of algorithm 5 on the register `R` of eight bits. -/
def lfsrStep (R : List Bool) : List Bool :=
  let R := false :: R
  let R := R.set 0 (xor (R.getD 0 false) (R.getD 8 false))
  let R := R.set 4 (xor (R.getD 4 false) (R.getD 8 false))
  let R := R.set 5 (xor (R.getD 5 false) (R.getD 8 false))
  let R := R.set 6 (xor (R.getD 6 false) (R.getD 8 false))
  R.take 8

/-- Algorithm 5. -/
def rc (t : Nat) : Bool :=
  if t % 255 = 0 then true
  else ((List.range (t % 255)).foldl (fun R _ => lfsrStep R) [true, false, false, false, false, false, false, false]).getD 0 false

/-- The round constant of round `ir` (algorithm 6, steps 2 and 3): bit 2^j - 1 is rc(j + 7 ir) for j = 0, ..., 6. -/
def RC (ir : Nat) (z : Fin 64) : Bool := (List.range 7).any fun j => decide (z.val = 2 ^ j - 1) && rc (j + 7 * ir)

/-- Algorithm 6. -/
def iota (A : KState) (ir : Nat) : KState := fun x y z => if x = 0 ∧ y = 0 then xor (A x y z) (RC ir z) else A x y z

def Rnd (A : KState) (ir : Nat) : KState := iota (chi (pi (rho (theta A)))) ir

/-- Algorithm 7 for b = 1600 and 24 rounds: the rounds 0, ..., 23. -/
def keccakRounds (A : KState) : KState := (List.range 24).foldl Rnd A

/-- Keccak-p[1600, 24] on strings. -/
def keccakP (S : List Bool) : List Bool := ofKState (keccakRounds (toKState S))

/-! ## Sections 4 and 5: sponge, padding -/

/-- Algorithm 9, pad10*1(x, m). -/
def pad101 (x m : Nat) : List Bool :=
  let j := ((-(m : Int) - 2) % (x : Int)).toNat
  [true] ++ List.replicate j false ++ [true]

/-- The i-th block of `r` bits of `P`. -/
def block (r : Nat) (P : List Bool) (i : Nat) : List Bool := (P.drop (r * i)).take r

/-- Algorithm 8, steps 1 to 6. -/
def spongeAbsorb (f : List Bool → List Bool) (r : Nat) (N : List Bool) : List Bool :=
  let P := N ++ pad101 r N.length
  let n := P.length / r
  let c := 1600 - r
  (List.range n).foldl (fun S i => f (List.zipWith xor S (block r P i ++ List.replicate c false))) (List.replicate 1600 false)

/-- Algorithm 8, steps 7 to 10: the first `d` bits of Trunc_r(S) || Trunc_r(f(S)) || Trunc_r(f(f(S))) || ... -/
def spongeSqueeze (f : List Bool → List Bool) (r : Nat) (S : List Bool) (d : Nat) : List Bool :=
  ((List.range (d / r + 1)).flatMap fun i => (f^[i] S).take r).take d

/-- Section 5.2: KECCAK[c](N, d). -/
def KECCAK (c : Nat) (N : List Bool) (d : Nat) : List Bool := spongeSqueeze keccakP (1600 - c) (spongeAbsorb keccakP (1600 - c) N) d

/-! ## Section 6: the functions, on byte strings (appendix B.1) -/

/-- The bits of a byte string, least significant first. -/
def h2b (M : List UInt8) : List Bool := (List.range (8 * M.length)).map (BytesToBits M)

/-- The bytes of a bit string. -/
def b2h (S : List Bool) : List UInt8 := BitsToBytes (S.length / 8) fun k => S.getD k false

/-- SHA3-256(M) = KECCAK[512](M || 01, 256). -/
def SHA3_256 (M : List UInt8) : List UInt8 := b2h (KECCAK 512 (h2b M ++ [false, true]) 256)

/-- SHA3-512(M) = KECCAK[1024](M || 01, 512). -/
def SHA3_512 (M : List UInt8) : List UInt8 := b2h (KECCAK 1024 (h2b M ++ [false, true]) 512)

/-- SHAKE128(M, d) = KECCAK[256](M || 1111, d), for d = 8 n. -/
def SHAKE128 (M : List UInt8) (n : Nat) : List UInt8 := b2h (KECCAK 256 (h2b M ++ [true, true, true, true]) (8 * n))

/-- SHAKE256(M, d) = KECCAK[512](M || 1111, d), for d = 8 n. -/
def SHAKE256 (M : List UInt8) (n : Nat) : List UInt8 := b2h (KECCAK 512 (h2b M ++ [true, true, true, true]) (8 * n))

end Verif.Spec
