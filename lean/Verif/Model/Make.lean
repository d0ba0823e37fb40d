import Verif.Model.Link

/-! # Which files make looks at, and which the compiler reads

The rules of the two Makefiles, the `#include` lines of the sources, and what `make` does: it makes a target if the file does not exist or is older than one of its prerequisites. Times are
those of a clock that moves on with every change of a file. File names are numbers as in Model/Link (`n!`), paths are relative to the directory of the Makefile, and `includes` has the paths resolved.
All `#include "..."` and `.include` lines count, whatever `#if` they are in; system headers and the Makefiles themselves are not files of the model. The command of a rule is taken to read the files
named in it and those they include, at the time the target gets. -/

set_option autoImplicit false

namespace Verif.Model.Make
open Verif.Model.Link (Build)

structure Rule where
  target : Nat
  prereqs : List Nat
  named : List Nat
  deriving DecidableEq

/-- The `#include "..."` and `.include` lines of the files in ref/. -/
def ref_includes : List (Nat × List Nat) := [
  (n! "cbd.c", [n! "params.h", n! "cbd.h"]),
  (n! "cbd.h", [n! "params.h", n! "poly.h"]),
  (n! "fips202.c", [n! "fips202.h"]),
  (n! "indcpa.c", [n! "params.h", n! "indcpa.h", n! "polyvec.h", n! "poly.h", n! "ntt.h", n! "symmetric.h", n! "randombytes.h"]),
  (n! "indcpa.h", [n! "params.h", n! "polyvec.h"]),
  (n! "kem.c", [n! "params.h", n! "kem.h", n! "indcpa.h", n! "verify.h", n! "symmetric.h", n! "randombytes.h"]),
  (n! "kem.h", [n! "params.h"]),
  (n! "ntt.c", [n! "params.h", n! "ntt.h", n! "reduce.h"]),
  (n! "ntt.h", [n! "params.h"]),
  (n! "poly.c", [n! "params.h", n! "poly.h", n! "ntt.h", n! "reduce.h", n! "cbd.h", n! "symmetric.h", n! "verify.h"]),
  (n! "poly.h", [n! "params.h"]),
  (n! "polyvec.c", [n! "params.h", n! "poly.h", n! "polyvec.h"]),
  (n! "polyvec.h", [n! "params.h", n! "poly.h"]),
  (n! "randombytes.c", [n! "randombytes.h"]),
  (n! "reduce.c", [n! "params.h", n! "reduce.h"]),
  (n! "reduce.h", [n! "params.h"]),
  (n! "symmetric-shake.c", [n! "params.h", n! "symmetric.h", n! "fips202.h"]),
  (n! "symmetric.h", [n! "params.h", n! "fips202.h"]),
  (n! "verify.c", [n! "verify.h"]),
  (n! "verify.h", [n! "params.h"]),
  (n! "test/cpucycles.c", [n! "test/cpucycles.h"]),
  (n! "test/speed_print.c", [n! "test/cpucycles.h", n! "test/speed_print.h"]),
  (n! "test/test_kyber.c", [n! "kem.h", n! "randombytes.h"]),
  (n! "test/test_speed.c", [n! "kem.h", n! "params.h", n! "indcpa.h", n! "polyvec.h", n! "poly.h", n! "randombytes.h", n! "test/cpucycles.h", n! "test/speed_print.h"]),
  (n! "test/test_vectors.c", [n! "kem.h", n! "randombytes.h", n! "fips202.h"]),
  (n! "nistkat/PQCgenKAT_kem.c", [n! "nistkat/rng.h", n! "kem.h"]),
  (n! "nistkat/rng.c", [n! "nistkat/rng.h"])]

/-- The `#include "..."` and `.include` lines of the files in avx2/. -/
def avx2_includes : List (Nat × List Nat) := [
  (n! "basemul.S", [n! "consts.h"]),
  (n! "cbd.c", [n! "params.h", n! "cbd.h"]),
  (n! "cbd.h", [n! "params.h", n! "poly.h"]),
  (n! "consts.c", [n! "align.h", n! "params.h", n! "consts.h"]),
  (n! "consts.h", [n! "params.h", n! "align.h"]),
  (n! "fips202.c", [n! "fips202.h"]),
  (n! "fips202x4.c", [n! "fips202.h", n! "fips202x4.h"]),
  (n! "fq.S", [n! "consts.h", n! "fq.inc"]),
  (n! "indcpa.c", [n! "align.h", n! "params.h", n! "indcpa.h", n! "polyvec.h", n! "poly.h", n! "ntt.h", n! "cbd.h", n! "rejsample.h", n! "symmetric.h", n! "randombytes.h"]),
  (n! "indcpa.h", [n! "params.h", n! "polyvec.h"]),
  (n! "invntt.S", [n! "consts.h", n! "shuffle.inc", n! "fq.inc"]),
  (n! "kem.c", [n! "params.h", n! "kem.h", n! "indcpa.h", n! "verify.h", n! "symmetric.h", n! "randombytes.h"]),
  (n! "kem.h", [n! "params.h"]),
  (n! "ntt.S", [n! "consts.h", n! "shuffle.inc"]),
  (n! "poly.c", [n! "align.h", n! "params.h", n! "poly.h", n! "ntt.h", n! "consts.h", n! "reduce.h", n! "cbd.h", n! "symmetric.h"]),
  (n! "poly.h", [n! "align.h", n! "params.h"]),
  (n! "polyvec.c", [n! "params.h", n! "polyvec.h", n! "poly.h", n! "ntt.h", n! "consts.h"]),
  (n! "polyvec.h", [n! "params.h", n! "poly.h"]),
  (n! "randombytes.c", [n! "randombytes.h"]),
  (n! "reduce.h", [n! "params.h"]),
  (n! "rejsample.c", [n! "params.h", n! "consts.h", n! "rejsample.h"]),
  (n! "rejsample.h", [n! "params.h", n! "symmetric.h"]),
  (n! "shuffle.S", [n! "consts.h", n! "fq.inc", n! "shuffle.inc"]),
  (n! "symmetric-shake.c", [n! "params.h", n! "symmetric.h", n! "fips202.h"]),
  (n! "symmetric.h", [n! "params.h", n! "fips202.h", n! "fips202x4.h"]),
  (n! "verify.c", [n! "verify.h"]),
  (n! "verify.h", [n! "params.h"]),
  (n! "test/cpucycles.c", [n! "test/cpucycles.h"]),
  (n! "test/speed_print.c", [n! "test/cpucycles.h", n! "test/speed_print.h"]),
  (n! "test/test_kyber.c", [n! "kem.h", n! "randombytes.h"]),
  (n! "test/test_speed.c", [n! "kem.h", n! "params.h", n! "indcpa.h", n! "polyvec.h", n! "poly.h", n! "randombytes.h", n! "test/cpucycles.h", n! "test/speed_print.h"]),
  (n! "test/test_vectors.c", [n! "kem.h", n! "randombytes.h", n! "fips202.h"]),
  (n! "keccak4x/KeccakP-1600-times4-SIMD256.c", [n! "keccak4x/KeccakP-align.h", n! "keccak4x/KeccakP-1600-times4-SnP.h", n! "keccak4x/KeccakP-SIMD256-config.h", n! "keccak4x/KeccakP-brg_endian.h", n! "keccak4x/KeccakP-1600-unrolling.macros"]),
  (n! "keccak4x/KeccakP-1600-times4-SnP.h", [n! "keccak4x/KeccakP-SIMD256-config.h", n! "fips202x4.h"])]

/-- ref/Makefile:7 `SOURCES`. -/
def ref_SOURCES : List Nat := [n! "kem.c", n! "indcpa.c", n! "polyvec.c", n! "poly.c", n! "ntt.c", n! "cbd.c", n! "reduce.c", n! "verify.c"]

/-- ref/Makefile:8 `SOURCESKECCAK`. -/
def ref_SOURCESKECCAK : List Nat := ref_SOURCES ++ [n! "fips202.c", n! "symmetric-shake.c"]

/-- ref/Makefile:9 `HEADERS`. -/
def ref_HEADERS : List Nat := [n! "params.h", n! "kem.h", n! "indcpa.h", n! "polyvec.h", n! "poly.h", n! "ntt.h", n! "cbd.h", n! "reduce.c", n! "verify.h", n! "symmetric.h"]

/-- ref/Makefile:10 `HEADERSKECCAK`. -/
def ref_HEADERSKECCAK : List Nat := ref_HEADERS ++ [n! "fips202.h"]

/-- ref/Makefile:41. -/
def ref_lib_fips202_ref : Rule := ⟨n! "lib/libpqcrystals_fips202_ref.so", [n! "fips202.c", n! "fips202.h"], [n! "fips202.c"]⟩

/-- ref/Makefile:45, 49, 53: the rules for the three parameter sets, which have the same prerequisites. -/
def ref_lib_kyber_ref (target : Nat) : Rule := ⟨target, ref_SOURCES ++ ref_HEADERS ++ [n! "symmetric-shake.c"], ref_SOURCES ++ [n! "symmetric-shake.c"]⟩

/-- ref/Makefile:57, 60, 63: the rules for the three parameter sets, which have the same prerequisites. -/
def ref_test_kyber (target : Nat) : Rule := ⟨target, ref_SOURCESKECCAK ++ ref_HEADERSKECCAK ++ [n! "test/test_kyber.c", n! "randombytes.c"], ref_SOURCESKECCAK ++ [n! "randombytes.c", n! "test/test_kyber.c"]⟩

/-- ref/Makefile:66, 69, 72: the rules for the three parameter sets, which have the same prerequisites. -/
def ref_test_vectors (target : Nat) : Rule := ⟨target, ref_SOURCESKECCAK ++ ref_HEADERSKECCAK ++ [n! "test/test_vectors.c"], ref_SOURCESKECCAK ++ [n! "test/test_vectors.c"]⟩

/-- ref/Makefile:75, 78, 81: the rules for the three parameter sets, which have the same prerequisites. -/
def ref_test_speed (target : Nat) : Rule := ⟨target, ref_SOURCESKECCAK ++ ref_HEADERSKECCAK ++ [n! "test/cpucycles.h", n! "test/cpucycles.c", n! "test/speed_print.h", n! "test/speed_print.c", n! "test/test_speed.c", n! "randombytes.c"], ref_SOURCESKECCAK ++ [n! "randombytes.c", n! "test/cpucycles.c", n! "test/speed_print.c", n! "test/test_speed.c"]⟩

/-- ref/Makefile:84, 87, 90: the rules for the three parameter sets, which have the same prerequisites. -/
def ref_PQCgenKAT_kem (target : Nat) : Rule := ⟨target, ref_SOURCESKECCAK ++ ref_HEADERSKECCAK ++ [n! "nistkat/PQCgenKAT_kem.c", n! "nistkat/rng.c", n! "nistkat/rng.h"], ref_SOURCESKECCAK ++ [n! "nistkat/rng.c", n! "nistkat/PQCgenKAT_kem.c"]⟩

/-- The rules with a command, `clean` excepted. -/
def ref_rules : List Rule := [
  ref_lib_fips202_ref,
  ref_lib_kyber_ref (n! "lib/libpqcrystals_kyber512_ref.so"),
  ref_lib_kyber_ref (n! "lib/libpqcrystals_kyber768_ref.so"),
  ref_lib_kyber_ref (n! "lib/libpqcrystals_kyber1024_ref.so"),
  ref_test_kyber (n! "test/test_kyber512"),
  ref_test_kyber (n! "test/test_kyber768"),
  ref_test_kyber (n! "test/test_kyber1024"),
  ref_test_vectors (n! "test/test_vectors512"),
  ref_test_vectors (n! "test/test_vectors768"),
  ref_test_vectors (n! "test/test_vectors1024"),
  ref_test_speed (n! "test/test_speed512"),
  ref_test_speed (n! "test/test_speed768"),
  ref_test_speed (n! "test/test_speed1024"),
  ref_PQCgenKAT_kem (n! "nistkat/PQCgenKAT_kem512"),
  ref_PQCgenKAT_kem (n! "nistkat/PQCgenKAT_kem768"),
  ref_PQCgenKAT_kem (n! "nistkat/PQCgenKAT_kem1024")]

/-- avx2/Makefile:9 `SOURCES`. -/
def avx2_SOURCES : List Nat := [n! "kem.c", n! "indcpa.c", n! "polyvec.c", n! "poly.c", n! "fq.S", n! "shuffle.S", n! "ntt.S", n! "invntt.S", n! "basemul.S", n! "consts.c", n! "rejsample.c", n! "cbd.c", n! "verify.c"]

/-- avx2/Makefile:11 `SOURCESKECCAK`. -/
def avx2_SOURCESKECCAK : List Nat := avx2_SOURCES ++ [n! "fips202.c", n! "fips202x4.c", n! "symmetric-shake.c", n! "keccak4x/KeccakP-1600-times4-SIMD256.o"]

/-- avx2/Makefile:13 `HEADERS`. -/
def avx2_HEADERS : List Nat := [n! "params.h", n! "align.h", n! "kem.h", n! "indcpa.h", n! "polyvec.h", n! "poly.h", n! "reduce.h", n! "fq.inc", n! "shuffle.inc", n! "ntt.h", n! "consts.h", n! "rejsample.h", n! "cbd.h", n! "verify.h", n! "symmetric.h", n! "randombytes.h"]

/-- avx2/Makefile:15 `HEADERSKECCAK`. -/
def avx2_HEADERSKECCAK : List Nat := avx2_HEADERS ++ [n! "fips202.h", n! "fips202x4.h"]

/-- avx2/Makefile:40. -/
def avx2_object : Rule := ⟨n! "keccak4x/KeccakP-1600-times4-SIMD256.o", [n! "keccak4x/KeccakP-1600-times4-SIMD256.c", n! "keccak4x/KeccakP-1600-times4-SnP.h", n! "keccak4x/KeccakP-1600-unrolling.macros", n! "keccak4x/KeccakP-SIMD256-config.h", n! "keccak4x/KeccakP-align.h", n! "keccak4x/KeccakP-brg_endian.h"], [n! "keccak4x/KeccakP-1600-times4-SIMD256.c"]⟩

/-- avx2/Makefile:49. -/
def avx2_lib_fips202_ref : Rule := ⟨n! "libpqcrystals_fips202_ref.so", [n! "fips202.c", n! "fips202.h"], [n! "fips202.c"]⟩

/-- avx2/Makefile:52. -/
def avx2_lib_fips202x4_avx2 : Rule := ⟨n! "libpqcrystals_fips202x4_avx2.so", [n! "fips202x4.c", n! "fips202x4.h", n! "keccak4x/KeccakP-1600-times4-SIMD256.c", n! "keccak4x/KeccakP-1600-times4-SnP.h", n! "keccak4x/KeccakP-1600-unrolling.macros", n! "keccak4x/KeccakP-SIMD256-config.h", n! "keccak4x/KeccakP-align.h", n! "keccak4x/KeccakP-brg_endian.h"], [n! "fips202x4.c", n! "keccak4x/KeccakP-1600-times4-SIMD256.c"]⟩

/-- avx2/Makefile:61, 65, 69: the rules for the three parameter sets, which have the same prerequisites. -/
def avx2_lib_kyber_avx2 (target : Nat) : Rule := ⟨target, avx2_SOURCES ++ avx2_HEADERS ++ [n! "symmetric-shake.c"], avx2_SOURCES ++ [n! "symmetric-shake.c"]⟩

/-- avx2/Makefile:73, 76, 79: the rules for the three parameter sets, which have the same prerequisites. -/
def avx2_test_kyber (target : Nat) : Rule := ⟨target, avx2_SOURCESKECCAK ++ avx2_HEADERSKECCAK ++ [n! "test/test_kyber.c", n! "randombytes.c"], avx2_SOURCESKECCAK ++ [n! "randombytes.c", n! "test/test_kyber.c"]⟩

/-- avx2/Makefile:82, 85, 88: the rules for the three parameter sets, which have the same prerequisites. -/
def avx2_test_vectors (target : Nat) : Rule := ⟨target, avx2_SOURCESKECCAK ++ avx2_HEADERSKECCAK ++ [n! "test/test_vectors.c"], avx2_SOURCESKECCAK ++ [n! "test/test_vectors.c"]⟩

/-- avx2/Makefile:91, 94, 97: the rules for the three parameter sets, which have the same prerequisites. -/
def avx2_test_speed (target : Nat) : Rule := ⟨target, avx2_SOURCESKECCAK ++ avx2_HEADERSKECCAK ++ [n! "test/cpucycles.h", n! "test/cpucycles.c", n! "test/speed_print.h", n! "test/speed_print.c", n! "test/test_speed.c", n! "randombytes.c"], avx2_SOURCESKECCAK ++ [n! "randombytes.c", n! "test/cpucycles.c", n! "test/speed_print.c", n! "test/test_speed.c"]⟩

/-- The rules with a command, `clean` excepted. -/
def avx2_rules : List Rule := [
  avx2_object,
  avx2_lib_fips202_ref,
  avx2_lib_fips202x4_avx2,
  avx2_lib_kyber_avx2 (n! "libpqcrystals_kyber512_avx2.so"),
  avx2_lib_kyber_avx2 (n! "libpqcrystals_kyber768_avx2.so"),
  avx2_lib_kyber_avx2 (n! "libpqcrystals_kyber1024_avx2.so"),
  avx2_test_kyber (n! "test/test_kyber512"),
  avx2_test_kyber (n! "test/test_kyber768"),
  avx2_test_kyber (n! "test/test_kyber1024"),
  avx2_test_vectors (n! "test/test_vectors512"),
  avx2_test_vectors (n! "test/test_vectors768"),
  avx2_test_vectors (n! "test/test_vectors1024"),
  avx2_test_speed (n! "test/test_speed512"),
  avx2_test_speed (n! "test/test_speed768"),
  avx2_test_speed (n! "test/test_speed1024")]

def rules : Build → List Rule | .ref => ref_rules | .avx2 => avx2_rules
def includes : Build → List (Nat × List Nat) | .ref => ref_includes | .avx2 => avx2_includes

/-- What a file includes. -/
def included (b : Build) (f : Nat) : List Nat := ((includes b).lookup f).getD []

/-- `todo` and what it includes, again and again, in the order of the first meeting. Each step handles one file or include line. -/
def closure (b : Build) : Nat → List Nat → List Nat → List Nat
  | 0, seen, _ => seen
  | _ + 1, seen, [] => seen
  | n + 1, seen, f :: todo => if seen.contains f then closure b n seen todo else closure b n (seen ++ [f]) (todo ++ included b f)

/-- The files that the command of a rule reads. -/
def Rule.reads (b : Build) (r : Rule) : List Nat := closure b 400 [] r.named

/-- Kyber512_META.yml, Kyber768_META.yml, Kyber1024_META.yml: `sources` of the two implementations, the same in all three, without ../LICENSE, and those of their `common_dep` in Common_META.yml. -/
def package : Build → List Nat
  | .ref => [n! "kem.c", n! "indcpa.c", n! "polyvec.c", n! "poly.c", n! "reduce.c", n! "ntt.c", n! "cbd.c", n! "verify.c", n! "kem.h", n! "params.h", n! "api.h", n! "indcpa.h", n! "polyvec.h", n! "poly.h", n! "reduce.h", n! "ntt.h", n! "cbd.h", n! "verify.h", n! "symmetric.h", n! "fips202.h", n! "symmetric-shake.c"] ++
    [n! "fips202.c", n! "fips202.h"]
  | .avx2 => [n! "kem.c", n! "indcpa.c", n! "polyvec.c", n! "poly.c", n! "fq.S", n! "shuffle.S", n! "ntt.S", n! "invntt.S", n! "basemul.S", n! "consts.c", n! "rejsample.c", n! "cbd.c", n! "verify.c", n! "align.h", n! "kem.h", n! "params.h", n! "api.h", n! "indcpa.h", n! "polyvec.h", n! "poly.h", n! "reduce.h", n! "fq.inc", n! "shuffle.inc", n! "ntt.h", n! "consts.h", n! "rejsample.h", n! "cbd.h", n! "verify.h", n! "symmetric.h", n! "fips202.h", n! "fips202x4.h", n! "symmetric-shake.c"] ++
    [n! "fips202.c", n! "fips202.h", n! "fips202x4.c", n! "fips202x4.h"] ++
    [n! "fips202x4.h", n! "keccak4x/KeccakP-1600-times4-SIMD256.c", n! "keccak4x/KeccakP-1600-times4-SnP.h", n! "keccak4x/KeccakP-1600-unrolling.macros", n! "keccak4x/KeccakP-SIMD256-config.h", n! "keccak4x/KeccakP-align.h", n! "keccak4x/KeccakP-brg_endian.h"]

/-- The file from which an object file is made. -/
def sourceOf (f : Nat) : Nat := if f = n! "keccak4x/KeccakP-1600-times4-SIMD256.o" then n! "keccak4x/KeccakP-1600-times4-SIMD256.c" else f

/-- The files that make up the KEM and its hash functions in the Makefiles. -/
def sourcesKeccak : Build → List Nat
  | .ref => ref_SOURCESKECCAK
  | .avx2 => avx2_SOURCESKECCAK

/-! ## make -/

/-- The clock, the time of each file (`none` if there is none), and for each target the times of all files when it was made. -/
structure State where
  clock : Nat
  time : Nat → Option Nat
  seen : Nat → Nat → Option Nat

/-- A file is written. -/
def edit (f : Nat) (s : State) : State := { s with clock := s.clock + 1, time := fun g => if g = f then some (s.clock + 1) else s.time g }

/-- A file is removed. -/
def remove (f : Nat) (s : State) : State := { s with time := fun g => if g = f then none else s.time g }

/-- `a` is newer than `b`. -/
def newer : Option Nat → Option Nat → Bool
  | some a, some b => decide (b < a)
  | _, _ => false

/-- The target does not exist or is older than a prerequisite. -/
def outdated (r : Rule) (s : State) : Bool := (s.time r.target).isNone || r.prereqs.any fun p => newer (s.time p) (s.time r.target)

/-- The command of a rule, if `make` runs it. A missing prerequisite without a rule would be an error; the theorems assume that there is none. -/
def makeRule (r : Rule) (s : State) : State :=
  if outdated r s then
    { clock := s.clock + 1,
      time := fun g => if g = r.target then some (s.clock + 1) else s.time g,
      seen := fun t => if t = r.target then s.time else s.seen t }
  else s

/-- What happens to the files. -/
inductive Event
  | edit (f : Nat)
  | remove (f : Nat)
  | make (r : Rule)

def step (s : State) : Event → State
  | .edit f => edit f s
  | .remove f => remove f s
  | .make r => makeRule r s

def run (s : State) (l : List Event) : State := l.foldl step s

end Verif.Model.Make
