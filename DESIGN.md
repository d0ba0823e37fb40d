# Formal model of pq-crystals/kyber in Lean 4

Modelled: the whole library code of `ref/` and of `avx2/` (C, intrinsics and assembler), for the three parameter
sets KYBER_K = 2, 3, 4, up to and including the KEM calls. Proved: that both builds compute the functions of FIPS 203 /
FIPS 202 for all inputs, without undefined behaviour, writing exactly their outputs, and without leaking secrets through branches and addresses.

## Layout

* `lean/Verif/C/` – the C execution model: outcome type (value + leakage trace, undefined behaviour, out of fuel),
  memory buffers with indeterminate cells, checked signed arithmetic, loops; weakest-precondition and two-run
  (non-interference) rules.
* `lean/Verif/Model/` – the code of `/repo/ref`, function by function, each definition citing file and lines. Executable.
* `lean/Verif/Avx/` – the code of `/repo/avx2`: `Vm` (registers, objects, the vector instructions), `Asm` (the programs of the
  `.S` files), `Intrin` (the functions written with intrinsics), `Poly`, `Polyvec`, `Pack`, `Keccak4`, `Fips202x4`, `RejSample`, `Indcpa`,
  `Kem`; the other files there are proofs.
* `lean/Verif/Spec/` – the independent specification, written from FIPS 202 / FIPS 203, not from the code: Keccak on
  bits A[x,y,z] with theta/rho/pi/chi/iota, sponge with pad10*1 on bit strings, Compress/Decompress as rounding,
  ByteEncode/ByteDecode on bits, CBD on bits, SampleNTT on the XOF stream, NTT as residues modulo
  X^2 - zeta^(2 bitrev7(i)+1), K-PKE and ML-KEM; the noise term of decryption.
* `lean/Verif/Proof/` – helper lemmas.
* `lean/Verif/Props/` – the property theorems (named `Cnn_...`), each with a non-vacuity `example` or concrete case beside it.
* `seeded/LOG.jsonl` – the wrong programs tried and the theorems that caught them.

## Modelling decisions

* A C function is a Lean function into `C α`: `ok v trace`, `ub reason` or `diverge` (loop fuel exhausted). UB is a distinct
  outcome: out-of-bounds access, read of an indeterminate cell, signed overflow of `int`, left shift of a negative or
  overflowing `int`, misaligned access by an instruction that needs alignment, `memcpy` between overlapping regions.
* A buffer is an array of cells `Option α` (`none` = indeterminate). A pointer argument is a buffer and an offset. Output buffers
  are passed in and the updated buffer returned, so frames (bytes not written) are visible. Distinct pointer arguments do not
  overlap unless the code itself calls in place; in-place calls of the code (`poly_reduce`, `poly_add(r, r, t)`, ...) are modelled
  with copies of the operands, which C74 proves to be the same. `Model/Alias.lean` repeats the derandomised KEM calls with all arguments in one memory (C70), `Model/AliasRnd.lean` the randomised ones with the coins as a local array (C83); an overlapping `memcpy` is undefined there.
* Typed cells: `UInt8`, `UInt16`, `Int16`, `UInt64`. `int` expressions are mathematical `Int` with range checks after each
  operation; `uint32_t`/`uint64_t` arithmetic is modular.
* Implementation-defined choices fixed: 8-bit bytes, 32-bit int, little endian where the AVX2 code relies on it, two's complement, arithmetic right
  shift of negative values, conversion to a narrower signed type wraps (gcc/clang).
* A coefficient sum, difference or negation that C stores back into an `int16_t` (in ntt, invntt, basemul, poly_add, poly_sub, the
  conditional addition of q) goes through `i16c`, which reports the separate outcome `ub narrow` if the value does not fit. C would
  wrap silently; making it an outcome turns "never wraps" (C14) into part of every `Runs` statement.
* The trace records each branch decision (also loop conditions) and the offset of each memory access. Two runs with equal
  traces cannot be told apart by an observer of the program counter and of the addresses.
* The unbounded rejection loop in `gen_matrix` takes a fuel argument (number of extra blocks per matrix entry). Theorems hold for every
  fuel: if SampleNTT of the standard ends within the `112 + 56 fuel` candidate pairs examined, the call returns the specified value, otherwise it
  is still running (`_diverges`); the `_terminates` theorems remove the bound: whenever the standard's loop ends, so does the code, with the
  same result, for every large enough fuel.
* `randombytes` is modelled with the operating system as an arbitrary schedule of system-call results (errors, short reads, interrupts);
  `abort()` is a separate result.
* `Keccak` functions: lengths below 2^63 where the code computes `pos + inlen` in `unsigned`/`size_t`; `pos` of a state is
  in `0..r` as the init/finalize functions leave it.

* `PQCgenKAT_kem.c`: files are byte lists; what is written to a file is what is read from it later; `fgetc`, `fscanf`, `fprintf`, `strlen`, `strncmp` are external and do what C says. Which `fopen`
  calls succeed is a parameter; write errors are not considered.
* The programs of `test/` are defined over the KEM calls (`KemApi`) and a `randombytes` (`Rng`); what they print is a list of characters; `printf` and `memcmp` are external and do what C says.
  A `randombytes` that aborts is not considered there (C64 is for one that delivers its bytes).

### The AVX2 build

* The assembler programs (`basemul.S`, `fq.S`, `invntt.S`, `ntt.S`, `shuffle.S`) are lists of instructions (`Vm.I`) over 16 registers of 16
  words, produced by a Lean transcription of the macros. A script outside the repository expanded the `.S` text independently and compared
  all 8 programs, 2177 instructions in all: identical. The functions written with intrinsics in `poly.c`, `polyvec.c`, `cbd.c` are programs of the same machine.
* Instruction semantics (`Vm.lean`, `RejSample.lean`, `Keccak4.lean`) are part of the trusted base; they were written from the Intel manual. Loads and stores check
  bounds, initialisation and, for `vmovdqa`, the 32-byte alignment of the object (`__attribute__((aligned(32)))` or `__m256i` objects; byte arrays of
  callers are unaligned).
* An arithmetic result that leaves 16 bits is not an error in an instruction (they wrap); absence of unwanted wrapping is
  part of the proofs (`InvBound`, `Tight`, the bounds in `PolyProof`).
* The four-way Keccak (`KeccakP-1600-times4-SIMD256.c`) works on `V4`, four 64-bit lanes. The round bodies are the expansion of
  the macros. `rho8`, `rho56` are declared without alignment but read by aligned loads: the model with their addresses is
  `PermuteAll_24rounds_at`; `C43_alignment` states the defect, and the rest of the model takes them as aligned.
* The gather instructions of `keccakx4_absorb_once` read up to 7 bytes after the input. In the callers these bytes belong to the buffer but are
  uninitialised; they are masked out. The model takes their values from a parameter `junk`, all theorems are for all `junk`, and C53 says
  the results do not depend on it. Reads outside the array are errors.
* The functions of `KeccakP-1600-times4-SIMD256.c` that the library does not call are modelled on the 800 bytes of the states (`Avx/Keccak4Api.lean`, C78, C79). There, converting
  a pointer to a type with a stricter alignment and forming a pointer beyond one past the end are undefined; effective types are not modelled; the branches `#if 0` are left out.
* `rej_uniform_avx` is the default variant without BMI (the table `idx`); the `#ifdef BMI` variant is `rej_uniform_avx_bmi` in Avx/RejBmi (C69).
* In `gen_matrix` the four-fold repeated statements of a batch are one function (`gen_batch`, `each4`) applied to the four entries in the order of the
  code.

## Findings

Proved of the model, each with a witness or for all inputs:

* `C43_alignment`: `rho8`/`rho56` need 32-byte alignment that the declaration does not give.
* `C44_reads_past_input`: the four-way absorb reads past inputs whose length is not a multiple of 8.
* `C45_scalar_underflow`: `rej_uniform` of avx2/indcpa.c with fewer than 3 bytes wraps `buflen - 3` and reads out of bounds (not reachable).
* `C67_ref_uninit`: test_speed.c:114 encrypts the uninitialised buffer `key` as the message (reference build). `C67_avx2_k2`, `C67_avx2`: with the AVX2 build the same program is undefined
  earlier, in `poly_getnoise_eta1` (K = 2) or `polyvec_decompress` (K = 3, 4: bytes of `ct` behind those written are read).
* `C47_getnoise_eta1_uninit`: `poly_getnoise_eta1` of avx2/poly.c reads uninitialised bytes for K = 2 (only test_speed.c calls it).
* C38, C39, C41: the AVX2 compress/decompress/CBD functions store or read past the nominal end of their buffers; harmless in the
  callers (C52).
* C31: no check of the public key's coefficients: unreduced keys are accepted and reduced.
* C70: nothing in the API says that the arguments of `crypto_kem_keypair_derand` must not overlap. `C70_keypair_exposed`: coins in the buffer of the public key make the
  rejection secret public; `C70_keypair_clobbered`: a public key that ends where its copy begins destroys the decryption key without undefined behaviour. Encapsulation and decapsulation
  are right for all overlaps of inputs with outputs.
* C83: the same for the randomised calls. `C83_keypair_rejection_published`: a public key over the last 64 bytes of the secret key contains the secret of implicit rejection.
* C85: ciphertexts are pseudorandom in the sense of C84 but not as strings: `C85_ciphertexts`. Protocols that need ciphertexts that look random must encode them differently.
* C72: `crypto_kem_dec` uses the stored hash and rejection secret unchecked. `C72_same_z_keys`: keys made with the same `z` share the secret of some ciphertext, so the secret binds the key only if `z` is fresh.
* C73: the sizes of api.h and the META files are right, but the META files are out of date otherwise: their `testvectors-sha256` entries differ from `SHA256SUMS` (`C97_meta`: a passing run refutes all three), and `Common_META.yml` lists files that avx2 no longer has.
* C74: `poly_basemul_montgomery(a, a, b)` is wrong (`C74_basemul_inplace`), though no comment says that the result must be another object; the code never calls it so.
* See the notes of C29, C30 for the behaviour of `randombytes` on errors.
* `nistkat/rng.c`: `randombytes` overflows its `int i` for requests of 2^31 bytes or more (C61_long_request) and its `int reseed_counter` after
  2^31 - 1 requests; the reseed interval of SP 800-90A is not tested (C61_counter). `seedexpander` refuses a request that equals the remaining length, so the last announced
  byte can never be obtained (C62_last_byte). `int randombytes(unsigned char *, unsigned long long)` has another type than the `void randombytes(uint8_t *, size_t)`
  that `kem.c` is compiled against (undefined behaviour in C, harmless on the usual 64-bit ABI): C94_types_nistkat.
* `C94_types_avx`: avx2/fips202x4.c:10 declares the four-state permutation with a parameter of type `__m256i *`, its definition has `void *`: the same kind of undefined behaviour, in all
  programs of avx2/. The model of the call (C43 and later) takes it as the ABI does, where the two agree.
* `C94_undefined`: `nttpack_avx` and `cmov_int16` are declared in avx2/ and not defined. `C94_same_file`: `libpqcrystals_fips202_ref.so` of avx2/Makefile holds `_avx2_` names.
* `C97_without`: runtests.sh depends on the `-e` of its first line: with `sh runtests.sh` it reports success whatever happens. `C97_nproc`: its variable `nproc` is not used. It calls valgrind without `--error-exitcode`, so
  that by the manual of valgrind memory errors alone do not stop it (not part of the model).
* `C98_missing`: HEADERS of ref/Makefile lists `reduce.c` (a source) where `reduce.h` is meant, and not `randombytes.h`; so an edit of these headers leaves all programs and KEM libraries of ref as they were. The KEM libraries and the Keccak object file of avx2 miss `fips202.h` and `fips202x4.h`. `make clean` first, as runtests.sh does, avoids it (`C98_clean`).
* `C78_alignment`: `AddBytes`, `OverwriteBytes`, `ExtractBytes` of keccak4x convert misaligned pointers to `UINT64 *` when an aligned buffer meets an offset that is not a multiple of 8.
* `C78_offset_wraps`: lane offsets of keccak4x are used modulo 2^29.
* `C79_pointers`, `C79_no_end`, `C79_serial_offset`: the 21-lane branch of the absorbing loops forms pointers beyond the buffer; serial offset 0 does not end; a serial offset beyond the data is undefined.

## How each property is proved

| id | what is modelled | how it is proved |
|----|------------------|------------------|
| C01–C03 | ref/kem.c, indcpa.c and everything below | composition of refinement lemmas of each function against Spec.Fips203 |
| C04 | spec level + C01–C03 | ring algebra in Z_q[X]/(X^256+1), NTT isomorphism, rounding bounds |
| C05 | kem.c dec | case split on verify |
| C06, C07 | all functions | weakest preconditions: each function returns `ok`, with frame |
| C08–C10 | all functions | two-run rule: traces equal when public seed equal |
| C11 | kem.c keypair | corollary of the keypair refinement |
| C12, C13 | ntt.c, poly.c | layer invariant: after layer l block b holds f mod X^len - zeta_b |
| C14 | ntt.c, poly.c, polyvec.c, indcpa.c | interval invariants carried with the congruences |
| C15 | reduce.c | congruence modulo 2^16 and interval arithmetic |
| C16–C18 | poly.c, polyvec.c | bit-level equations; rounding over the whole residue table |
| C19 | poly.c | rounding over the whole residue table, lifted to vectors |
| C20 | cbd.c | bit-level equations; counting |
| C21, C22 | indcpa.c | induction over the buffer |
| C23 | fips202.c | lane equation for each of the two unrolled rounds, induction over rounds |
| C24–C26 | fips202.c | state = absorb of the byte prefix; induction over calls |
| C27, C28 | verify.c | induction over length |
| C29, C30 | randombytes.c, kem.c | induction over the system-call schedule |
| C31, C32 | indcpa.c, poly.c | from C16, C02 |
| C33–C36 | avx2 assembler, poly.c, polyvec.c | symbolic execution of the programs inside Lean, proved sound; the resulting terms are linear combinations and Montgomery products, compared with the layer equations of the NTT; interval analysis proved sound |
| C37–C42 | avx2 intrinsics, verify.c | symbolic execution to bit-level terms (proved sound) or to rounding expressions; induction over length for verify, cmov |
| C43, C44 | keccak4x, fips202x4.c | each lane of a round is the lane equation of C23; projection to one lane, then the sponge lemmas of C24–C26 |
| C45, C46 | rejsample.c, indcpa.c | candidate extraction per 8 lanes, table of 256 compactions, induction over the buffer; reuse of C21/C22 |
| C47–C55 | avx2 poly.c, indcpa.c, kem.c, randombytes.c | composition as C01–C07; comparison with the reference build through the specification |
| C56, C57 | avx2, randombytes.c, kem.c | two-run rule as C08–C10; a vector program has a constant trace; the leakage of randombytes depends on the system call results only |
| C58 | indcpa.c of both builds | the refinement lemmas behind C01–C03 and C48–C50; exactness of the threshold from C04 |
| C59 | spec level, C21, C45 | bytes to candidates by a bijection, recursion over candidates; the tail sum is evaluated by the kernel |
| C60 | spec level, C04, C20 | exponential moments (Chernoff) over the independent noise bytes, conditional on y and e₁ with worst-case rounding of u and v; the last inequality is evaluated by the kernel. The bound holds for every matrix, so it is weaker than C71 |
| C61 | nistkat/rng.c | byte-wise increment = addition on big-endian strings; loop invariant after n blocks; with failing OpenSSL calls: simulation of the pure model, one lemma per function |
| C62 | nistkat/rng.c | invariant: the buffer holds the rest of the current block; sequences of calls by induction |
| C63 | test_vectors.c | the program over an interface of KEM calls that both builds meet (`ApiSpec`) and a generator that delivers a stream (`StreamRng`); its own state is the padded state of SHAKE128 of the empty string |
| C64 | test_kyber.c | the same interface; induction over the rounds |
| C65 | nistkat/PQCgenKAT_kem.c | window invariant for FindMarker; a shift by a digit is 16 v + d on big-endian strings; records by induction, reading back what the first loop wrote |
| C66 | test/speed_print.c, test/cpucycles.c | sorted permutations are unique, so any `qsort` gives the sorted list of the specification |
| C67 | test/test_speed.c of both builds | the program over an interface of the measured functions; each measurement is a loop that keeps "which buffers are initialised"; for the AVX2 build the vector programs are run on initialisation patterns (C68); the matrix of the all-zero seed is sampled in the kernel |
| C68 | avx2 assembler and intrinsics | the machine commutes with forgetting the values (`run_map`), so a run on patterns decides definedness; a run on a smaller pattern carries over to larger ones (`run_mono`); the patterns are run by the kernel |
| C69 | avx2/rejsample.c with `BMI` | `gen_matrix` is proved for any sampling function that meets its specification (`RejSpec`); the masks made with `pdep` and `pext` are checked by the kernel for all 256 flag bytes; the KEM calls are written once more over the sampling function (Avx/KemW, equal to Avx/Kem by `rfl`), and two functions that meet the specification give the same outcome |
| C70 | kem.c of both builds, arguments in one memory | the calls are written once over the functions that differ (`Pke`), which are cut before their first write to an argument; `PkeSpec` holds of both builds |
| C71 | spec level, C60 | s and e are independent of (A, y, e₁), so only the size of e₁ + c_u matters; for fixed y a uniform A makes Aᵀy uniform in all coefficients but two for each NTT place where all components of y vanish (Vandermonde determinant), and the sum over y bounds the weight of such places; the rounding of u is counted exactly over Z_q by the kernel, that of v in the worst case. The published estimates (2^-139, 2^-164, 2^-174) also average over the rounding of v, which is not independent of the rest; they are heuristic there. With C59 the same holds for uniform XOF output (`C71_stream`) |
| C72 | kem.c of both builds | case split on acceptance (C05 in the form of `decaps_cases`); an accepted ciphertext is a function of the message, which also bounds their number, so two keys leave ciphertexts that both reject |
| C73 | api.h of both builds, META files | sufficiency from C01–C03 and C46; necessity by a separate pass over the code (`Post`: if the run returns, then …) that collects what each call reads and writes |
| C74 | ref/poly.c, polyvec.c, ntt.c with arguments in one memory | the run in one memory and the run on copies correspond step by step (`Sim`): a cell that is still to be read has not been written |
| C75 | spec level | hybrids: the public key is a Module-LWE instance over R_q (the NTT is a bijection on matrices); under a uniform key, (u, v) without the message is one with k + 1 rows; a uniform v absorbs the message |
| C76 | spec level, C71, C75 | random oracle proof of the Fujisaki-Okamoto transform with implicit rejection: J of the rejection secret becomes a private function, the first half of G becomes a private function of the ciphertext, so that decapsulation needs no key; each step is a bijection on the random choices and an event that is bounded. Decryption failures enter through an averaged bound over keys and coins for the worst message, counted once per query of G |
| C77 | ref/ntt.c (the comment with `init_ntt`, the table) | the first loop is evaluated by the kernel, the second by a loop invariant; the values by the kernel |
| C78 | avx2/keccak4x/KeccakP-1600-times4-SIMD256.c:83-441, KeccakP-1600-times4-SnP.h:35-36 | per-byte view of the interleaved states; one step lemma per lane, loop invariants; the shuffles by evaluation on symbolic lanes; undefined calls by following the first full lane |
| C79 | the same file, lines 714-1030, KeccakP-1600-unrolling.macros:44-57 | rounds 12-23 as in C43; loads and stores of the 25 vectors as bytes; loop invariant over the blocks |
| C80 | spec level, C75; `indcpa.c` through C58 | the noise bytes become PRF outputs one part after the other (exchange of averages); the hybrids of C75 with a matrix from a seed |
| C81 | spec level, C76, C80; kem.c of both builds through C01–C03, C48–C50 | the general bound behind C76 for this encryption; failures: the same exchange for the probability of a failure, then C71. The code: C01–C03, C48–C50 and the equality of the algorithms of the standard with those of the game |
| C82 | spec level, C81 | the key pair becomes independent of G unless the attack asks for d, which it does not know; the values of G for the hash of the public key are separate from the others, which leaves the game of C81 |
| C83 | kem.c of both builds, arguments in one memory | as C70 with the coins in an object of their own; C29 gives the coins |
| C84 | spec level, C80 | the hops of C80 for one message, ending in uniform u and v; then the key hop backwards; for two keys the reduction makes the other one |
| C85 | spec level, C84 | the packing is a bijection between codes and strings; Cantelli's inequality for the number of heavy codes; the numbers of codes by `decide +kernel` |
| C86 | spec level, C82, C84 | the games of C82 up to the one without the private key, there coins that are fresh and then an independent ciphertext by C84, and the games backwards for that ciphertext |
| C87 | spec level, C86 | the attack with one key pair of its own decapsulates with it by queries to G and J; on an independent ciphertext the two keys can be exchanged |
| C88 | spec level, ref/ and avx2/ by C01–C03, C48–C50 and C63 | Keccak, the number-theoretic transform, sampling and encoding are evaluated by the kernel on integer literals (Proof/Literal.lean), one short step at a time; the expected bytes come from a separate Python program written from FIPS 203 on top of the SHA-3 of the Python library (tools/test_vectors.py), which for all 10000 vectors gives the three hash sums of /repo/SHA256SUMS (this last comparison is a test, not a theorem) |
| C89 | spec level, ref/ and avx2/ by C01 and C48 | the packing of 12-bit integers is a bijection onto the strings; the first hop of C80 for the pseudorandomness |
| C90 | ref/ and avx2/ by C01, C03, C48 and C50 | the parts of Decaps_internal and C72's case distinction |
| C91 | ref/ and avx2/ by C29, C01–C03 and C51, C55; leakage by C10, C56, C57 | induction on the program |
| C92 | ref/ and avx2/ by C58 | decryption of a ciphertext with one coefficient in u is coefficientwise; the bits are checked for the seven possible coefficients; lower bound by counting |
| C93 | ref/ and avx2/ by C58 | decryption is v minus a term that does not depend on v; compression and decompression by cases over all 3329 residues |
| C94 | names, types and file lists of Verif/Model/Link.lean, read off the sources with the macros expanded | prefixes by cases over the namespaces for all arguments; the tables by kernel computation on numbers that stand for the names |
| C95 | spec level, C82 | one encapsulation after the other gets an independent secret; the attack in each step makes all other key pairs and encapsulations by queries to G, and decapsulates with its own key pairs |
| C96 | spec level, `verify` of both models | in each byte the bit of least weight in its code; the value it stands for changes by at most 14 (u) or 209 (v), u is multiplied by a secret of at most η₁ |
| C97 | Model/Script: the shell language, runtests.sh, runlcov.sh | each statement performs a list of commands (`Does`), composed along the program; commands are parameters |
| C98 | Model/Make: rules of the two Makefiles, `#include` lines, times of files | an invariant over all histories (what a target has not seen is newer than it); the table of missed files by kernel computation |
| C99 | Spec/Oracle: the algorithms of FIPS 203 over any function in the place of KECCAK, equal to Spec/Fips203 by definition; with C01–C03 and C48–C50 it is what the code computes; Spec/OneOracle: the game with one random function | cases over the purposes; suffixes by length modulo 8, padding by its last two ones; the one function is three by a bijection of calls and inputs |

`MANIFEST.json` lists the theorems of each property.

## Checks of the model against the outside

* The compiled model of the reference build, driven as `ref/test/test_vectors.c` does, produces output with the SHA-256 sums listed in `/repo/SHA256SUMS`
  for all three parameter sets. (A test of the transcription, not part of the proofs.)
* The instruction semantics of `Vm.lean` were compared with a processor: a separate C program (not code of the repository) ran each instruction with each
  immediate operand on random and boundary operands, 55520 cases in all; the model agreed in all. The same for `pdep`, `pext`, `popcnt` and the operations on `V4`, 18000 cases.
* Known-answer `example`s inside the Props files (Keccak-f of zero, SHA3/SHAKE vectors, ...).
* Mutation tests: `seeded/LOG.jsonl`.

## Trusted base

* The Lean 4.33.0 kernel.
* Axioms: every property theorem depends on a subset of propext, Classical.choice, Quot.sound (table below); no others, no `native_decide`.
* The transcription of the C and assembler code into the model, with the decisions above.
* The semantics of the AVX2 instructions as given in `Vm.lean`, `RejSample.lean`, `Keccak4.lean`, `Fips202x4.lean`, `Pack.lean`.
* The meaning of the shell constructs in `Script.lean`, written from POSIX (C97 only); commands are parameters there.
* What `make` does with one rule in `Make.lean`: it runs the command if the target does not exist or is older than a prerequisite. Times are taken as strictly increasing with each change, and include lines are counted whatever `#if` they are in (C98 only).
* The statement of the specification in `lean/Verif/Spec`.

## Idealisation of the security theorems (C75, C76, C80, C81, C82, C84, C86, C87, C95, C99)

* C75, C76: the matrix is uniform (instead of SampleNTT of the XOF output of a public seed), and the bytes of the noise are independent and uniform (instead of PRF outputs). In C76 the second half of the output of G is therefore all the noise bytes of an encryption, not a seed for the PRF.
* C80, C81, C84 do without this: the matrix is a function of a public seed, and the noise is the output of PRF. The seeds (ρ, σ) are uniform in C80, C81; in C82 they are G(d ‖ k), where the 33-byte inputs d ‖ k of G are separate from
  its 64-byte inputs m ‖ H(ek). `expandMat` has 0 for an entry whose sampling needs more than N iterations (the theorems that connect with the standard exclude that). The failure tests of
  `failDistance` search for a message, so they are not efficient; the term is the amount by which the failure probability with real seeds may exceed that with uniform matrices and noise.
* C76, C81: G and J are random functions of (m) and of (z, c); H(ek) is left out of the input of G, since there is one key pair (C82 has it). Attacks ask them classically (not in superposition).
* C99 (`C99_game`, `C99_512`, …): the one function is random only on the inputs of G and J, where its answers have 64 bytes (J gets the first 32); on all other inputs it is KECCAK. The attack asks it only through G and J, on
  the inputs of these calls.
* Attacks are functions, without a bound on their running time; the distinguishers are explicit and run the attack once, so the hardness of Module-LWE may be assumed for whatever class of distinguishers contains them. No hardness is assumed in any theorem.

## Not modelled

* Compiler, hardware, cache and speculation; timing of instructions (only branches and addresses are in the trace).
* `#ifdef` branches not compiled in the default build (other platforms of randombytes unless listed in Model/Randombytes).
* The time stamp counter (`rdtsc`) and `qsort` are parameters.
* OpenSSL's AES-256 in `nistkat/rng.c`: the cipher is a parameter (any function from 32-byte keys and 16-byte blocks to 16-byte blocks); the calls of `EVP_CIPHER_CTX_new`, `EVP_EncryptInit_ex`, `EVP_EncryptUpdate` and `EVP_CIPHER_CTX_free` are made one by one in `Model/Evp.lean` over any library state and may fail (`handleErrors`, `abort`); `C61_openssl*`, `C62_openssl` assume of them only the contract `OpenSSL` (a successful initialisation sets the key, a successful update encrypts under it). The error text printed by `ERR_print_errors_fp` is not modelled.
* Aliasing between a byte array and a polynomial, and between the four lanes of the four-way functions of avx2. Arguments that share memory are modelled for the KEM calls (C70, C83), the functions of indcpa.c, the hash functions and `cmov` (C70), and the polynomial arithmetic (C74). `restrict` (avx2 only) is modelled for `cmov`; its other uses are on polynomials next to byte arrays.

<!-- axioms -->
### Axioms each property theorem depends on (`#print axioms`)

* none (3 theorems): `C66_below_overhead`, `C73_sizes`, `C77_tree`
* propext (6 theorems): `C66_average`, `C66_wraps`, `C69_mask`, `C79_keccak_f`, `C94_state`, `C94_state_exe`
* Quot.sound, propext (37 theorems): `C34_all_inputs`, `C38_spill_needed`, `C39_over_needed`, `C41_over_needed`, `C43_alignment`, `C47_getnoise_eta1_uninit`, `C65_ReadHex_zero`, `C66_overhead`, `C68_inplace`, `C68_arith`, `C68_pack`, `C68_unpack`, `C68_needs_init`, `C69_mask_rest`, `C70_cut_ref`, `C70_cut_avx`, `C70_cmov_wrong`, `C77_generator`, `C97_script`, `C97_zero`, `C97_without`, `C97_nproc`, `C97_sums`, `C97_meta`, `C97_fresh`, `C97_clean`, `C97_lcov`, `C98_prereqs`, `C98_complete`, `C98_clean`, `C98_stale`, `C98_reads`, `C98_missing`, `C98_exact`, `C98_object`, `C98_package`, `C99_absorb`
* Classical.choice, Quot.sound, propext (480 theorems): all other theorems of MANIFEST.json, namely `C01_keypair`, `C01_diverges`, `C01_terminates`, `C02_enc`, `C02_diverges`, `C02_terminates`, `C03_dec`, `C03_diverges`, `C03_terminates`, `C04_correct`, `C04_pke_exact`, `C05_implicit_rejection`, `C06_keypair`, `C06_enc`, `C06_dec`, `C07_keypair`, `C07_enc`, `C07_dec`, `C08_keypair`, `C08_public_seed`, `C09_enc`, `C10_dec`, `C11_layout`, `C12_ntt_multiplication`, `C12_basemul`, `C13_poly_ntt`, `C13_residue`, `C13_invntt_ntt`, `C13_invntt`, `C13_inverse`, `C14_keypair`, `C14_enc`, `C14_dec`, `C14_ntt`, `C14_poly_add`, `C14_poly_sub`, `C15_montgomery_reduce`, `C15_montgomery_reduce_congr`, `C15_barrett_reduce`, `C16_poly_tobytes`, `C16_poly_frombytes`, `C16_roundtrip_poly`, `C16_roundtrip_bytes`, `C16_roundtrip_polyvec`, `C16_layout`, `C17_poly_compress`, `C17_polyvec_compress`, `C18_poly_decompress`, `C18_polyvec_decompress`, `C18_compress_decompress`, `C18_decompress_compress`, `C18_poly_roundtrip`, `C19_bit`, `C19_message`, `C19_tight`, `C19_tight_code`, `C20_cbd_eta1`, `C20_cbd_eta2`, `C20_distribution`, `C20_distribution_code`, `C20_distribution_code3`, `C21_rej_uniform`, `C21_resume`, `C22_gen_matrix`, `C22_diverges`, `C22_block_independent`, `C22_sampleNTT_eq`, `C23_permutation`, `C23_round_constants`, `C24_shake128`, `C24_shake256`, `C24_shake128_once`, `C24_shake256_once`, `C25_shake128`, `C25_shake256`, `C25_prefix`, `C25_blocks_skip`, `C26_shake128`, `C26_shake256`, `C26_sha3_256`, `C26_sha3_512`, `C26_lengths`, `C27_verify`, `C28_cmov`, `C28_cmov_int16`, `C29_returns_full`, `C29_returns`, `C29_aborts`, `C29_waits`, `C29_dev_returns_full`, `C29_win`, `C30_keypair`, `C30_enc`, `C30_abort`, `C31_same_ciphertext`, `C31_accepted`, `C32_unpack_pack_pk`, `C32_pack_pk_injective`, `C32_unpack_pack_ciphertext`, `C33_poly_ntt`, `C33_poly_ntt_wide`, `C33_agrees_with_ref`, `C34_poly_invntt`, `C34_invntt_ntt`, `C35_basemul`, `C35_bound_needs_strict`, `C35_basemul_q`, `C35_ntt_multiplication`, `C35_basemul_acc`, `C36_poly_reduce`, `C36_poly_tomont`, `C36_poly_add_sub`, `C36_poly_nttunpack`, `C37_poly_tobytes`, `C37_poly_frombytes`, `C37_roundtrip`, `C37_agrees_with_ref`, `C38_poly_compress`, `C38_polyvec_compress`, `C39_poly_decompress`, `C39_polyvec_decompress`, `C40_poly_frommsg`, `C40_poly_tomsg`, `C40_message`, `C41_cbd_eta1`, `C41_cbd_eta2`, `C42_verify`, `C42_cmov`, `C43_permutation4`, `C43_agrees_with_ref`, `C44_shake128x4`, `C44_shake256x4`, `C44_reads_past_input`, `C45_rej_uniform_avx`, `C45_agrees_with_ref`, `C45_scalar`, `C45_scalar_underflow`, `C46_gen_matrix`, `C46_diverges`, `C47_getnoise_eta1_4x`, `C47_getnoise_eta1122_4x`, `C47_getnoise_eta2`, `C48_keypair`, `C48_diverges`, `C48_terminates`, `C49_enc`, `C49_diverges`, `C49_terminates`, `C50_dec`, `C50_diverges`, `C50_terminates`, `C51_keypair`, `C51_enc`, `C51_dec`, `C52_keypair`, `C52_enc`, `C52_dec`, `C52_keypair_writes`, `C52_enc_writes`, `C52_implicit_rejection`, `C53_keypair`, `C53_enc`, `C53_dec`, `C54_interoperate`, `C55_keypair`, `C55_enc`, `C55_keygen`, `C55_encaps`, `C56_keypair`, `C56_enc`, `C56_dec`, `C56_dec_same_key`, `C57_keypair`, `C57_keypair_avx`, `C57_enc`, `C57_enc_avx`, `C58_keypair`, `C58_keypair_avx`, `C58_keypair_diverges`, `C58_keypair_same`, `C58_enc`, `C58_enc_avx`, `C58_enc_diverges`, `C58_enc_same`, `C58_dec`, `C58_dec_avx`, `C58_dec_same`, `C58_roundtrip`, `C58_roundtrip_avx`, `C59_uniform`, `C59_failures`, `C59_count`, `C59_limit_280`, `C59_limit_blocks`, `C59_code`, `C59_code_avx`, `C60_space`, `C60_meaning`, `C60_512`, `C60_768`, `C60_1024`, `C61_init`, `C61_randombytes`, `C61_long_request`, `C61_counter`, `C61_calls`, `C61_openssl_init`, `C61_openssl`, `C62_calls`, `C62_frame`, `C62_refusals`, `C62_last_byte`, `C62_openssl`, `C63_ref`, `C63_avx2`, `C63_same`, `C63_verdict`, `C64_ref`, `C64_avx2`, `C64_verdict`, `C65_ref`, `C65_avx2`, `C65_open_req`, `C65_open_rsp`, `C65_open_read`, `C65_verdict`, `C65_FindMarker`, `C65_FindMarker_none`, `C65_FindMarker_long`, `C65_roundtrip`, `C65_ReadHex`, `C65_ReadHex_empty`, `C66_cmp`, `C66_print`, `C66_short`, `C66_median`, `C66_empty`, `C67_ref`, `C67_ref_uninit`, `C67_avx2_k2`, `C67_avx2`, `C67_avx2_init`, `C68_data_independent`, `C69_rej_uniform`, `C69_gen_matrix`, `C69_matrix`, `C69_keypair`, `C69_enc`, `C69_dec`, `C69_leak_keypair`, `C69_leak_enc`, `C69_leak_dec`, `C70_enc`, `C70_enc_diverges`, `C70_enc_outputs`, `C70_enc_exposed`, `C70_dec`, `C70_dec_diverges`, `C70_keypair_ub_pk`, `C70_keypair_ub_z`, `C70_keypair`, `C70_keypair_exposed`, `C70_keypair_clobbered`, `C70_indcpa_keypair`, `C70_indcpa_enc`, `C70_indcpa_dec`, `C70_hash`, `C70_prf`, `C70_cmov`, `C70_cmov_avx`, `C71_space`, `C71_512`, `C71_768`, `C71_1024`, `C71_most_512`, `C71_most_768`, `C71_most_1024`, `C71_stream_512`, `C71_stream_768`, `C71_stream_1024`, `C72_ciphertext`, `C72_key`, `C72_encaps`, `C72_same_z`, `C72_same_z_keys`, `C72_accepted`, `C72_meaning`, `C73_keypair`, `C73_enc`, `C73_dec`, `C73_keypair_avx2`, `C73_enc_avx2`, `C73_dec_avx2`, `C74_poly_add`, `C74_poly_sub`, `C74_poly_basemul`, `C74_polyvec_add`, `C74_add_call`, `C74_sub_call`, `C74_add_overlap`, `C74_basemul_inplace`, `C75_keygen`, `C75_encrypt`, `C75_game_encrypt`, `C75_cpa`, `C76_decaps`, `C76_fo`, `C76_fail`, `C76_512`, `C76_768`, `C76_1024`, `C77_table`, `C78_initialize`, `C78_add_byte`, `C78_add_bytes`, `C78_overwrite_bytes`, `C78_overwrite_zeroes`, `C78_extract_bytes`, `C78_extract_and_add_bytes`, `C78_alignment`, `C78_alignment_two`, `C78_add_lanes`, `C78_overwrite_lanes`, `C78_extract_lanes`, `C78_extract_and_add_lanes`, `C78_offset_wraps`, `C79_permute`, `C79_fast_loop`, `C79_pointers`, `C79_serial_offset`, `C79_no_end`, `C80_keygen`, `C80_encrypt`, `C80_cpa`, `C80_uniform_key`, `C80_uniform_cipher`, `C81_encaps`, `C81_decaps`, `C81_code_keypair_dec`, `C81_code_enc`, `C81_avx_keypair_dec`, `C81_avx_enc`, `C81_fail`, `C81_512`, `C81_768`, `C81_1024`, `C82_standard`, `C82_fo`, `C82_512`, `C82_768`, `C82_1024`, `C83_enc`, `C83_enc_outputs`, `C83_enc_exposed`, `C83_enc_diverges`, `C83_keypair_ub`, `C83_keypair_writes`, `C83_keypair`, `C83_keypair_clobbered`, `C83_keypair_rejection_published`, `C83_abort`, `C84_pseudorandom`, `C84_pseudorandom_bound`, `C84_anonymous`, `C85_codes_string`, `C85_codes_uniform`, `C85_heavy`, `C85_512`, `C85_768`, `C85_1024`, `C85_ciphertexts`, `C86_fo`, `C86_mlkem`, `C86_512`, `C86_768`, `C86_1024`, `C87_own`, `C87_mlkem`, `C87_512`, `C87_768`, `C87_1024`, `C88_keygen`, `C88_encaps`, `C88_decaps`, `C88_reject`, `C88_random`, `C88_ref_keypair`, `C88_ref_enc`, `C88_ref_dec`, `C88_ref_reject`, `C88_ref_random`, `C88_avx_keypair`, `C88_avx_enc`, `C88_avx_dec`, `C88_avx_reject`, `C88_avx_random`, `C88_threshold`, `C88_inputs`, `C88_ref_vector`, `C88_avx_vector`, `C88_prefix`, `C89_check`, `C89_encoding`, `C89_reduced`, `C89_keygen`, `C89_ref_keypair`, `C89_avx_keypair`, `C89_conditional`, `C89_fraction`, `C89_rare`, `C89_told`, `C89_pseudorandom`, `C89_like_strings`, `C89_standard`, `C90_ref_keypair`, `C90_avx_keypair`, `C90_not_checked`, `C90_z`, `C90_residues`, `C90_hash`, `C90_rejected`, `C91_standard`, `C91_builds`, `C91_defined`, `C91_terminates`, `C91_leak`, `C91_usable`, `C92_length`, `C92_small`, `C92_recover`, `C92_ref`, `C92_avx`, `C92_needed`, `C92_coeff`, `C92_oracle`, `C92_uncompared`, `C93_flip`, `C93_malleable`, `C93_reuse`, `C93_code_flip`, `C93_ref_reuse`, `C93_avx_reuse`, `C94_spelling`, `C94_exe`, `C94_types_ref`, `C94_types_nistkat`, `C94_types_avx`, `C94_libs`, `C94_lib_refs`, `C94_same_file`, `C94_api`, `C94_undefined`, `C95_one`, `C95_own`, `C95_fo`, `C95_mlkem`, `C95_512`, `C95_768`, `C95_1024`, `C96_full`, `C96_bit`, `C96_byte`, `C96_prefix`, `C96_verify`, `C99_one`, `C99_one_standard`, `C99_game`, `C99_512`, `C99_768`, `C99_1024`, `C99_standard`, `C99_separate`, `C99_any`, `C99_uniform`, `C99_padded`, `C99_states`, `C99_prefix`, `C99_only`, `C99_once`, `C99_mlkem`
