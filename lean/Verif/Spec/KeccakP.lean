import Verif.Spec.Fips202

/-! # Specification: Keccak-p[1600, nr] (FIPS 202, algorithm 7) for any number of rounds

`Verif.Spec.keccakP` is the case of 24 rounds, the only one that the SHA-3 functions use. -/

namespace Verif.Spec

/-- Algorithm 7 for b = 1600: the rounds 24 - nr, ..., 23. -/
def keccakRoundsN (nr : Nat) (A : KState) : KState := (List.range' (24 - nr) nr).foldl Rnd A

/-- Keccak-p[1600, nr] on strings. -/
def keccakPN (nr : Nat) (S : List Bool) : List Bool := ofKState (keccakRoundsN nr (toKState S))

end Verif.Spec
