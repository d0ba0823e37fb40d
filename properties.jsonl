{"id": "C01", "title": "Key generation computes ML-KEM key generation", "statement": "crypto_kem_keypair_derand(pk, sk, coins) writes exactly the encapsulation key and decapsulation key that FIPS 203 ML-KEM.KeyGen_internal(d, z) defines for d = coins[0..32) and z = coins[32..64), for each of the three parameter sets, and returns 0 (provided rejection sampling of the matrix terminates).", "quantifier": "every 64-byte coins string, every prior content of the output buffers, all three parameter sets", "why_tests_cant": "2^512 coin strings; known-answer tests touch a few hundred of them and cannot reach rare coefficient values or carry patterns.", "anchors": ["ref/kem.c:crypto_kem_keypair_derand", "ref/indcpa.c:indcpa_keypair_derand", "ref/params.h"]}
{"id": "C02", "title": "Encapsulation computes ML-KEM encapsulation", "statement": "crypto_kem_enc_derand(ct, ss, pk, coins) writes exactly the ciphertext and shared secret that FIPS 203 ML-KEM.Encaps_internal(ek = pk, m = coins) defines, for every byte string pk of the right length (also with coefficients encoded unreduced, which are taken modulo q), and returns 0.", "quantifier": "every pk byte string and every 32-byte coins string, all three parameter sets", "why_tests_cant": "The input space has more than 2^6000 points; malformed public keys and boundary coefficients are not in the test vectors.", "anchors": ["ref/kem.c:crypto_kem_enc_derand", "ref/indcpa.c:indcpa_enc"]}
{"id": "C03", "title": "Decapsulation computes ML-KEM decapsulation", "statement": "crypto_kem_dec(ss, ct, sk) writes exactly the shared secret that FIPS 203 ML-KEM.Decaps_internal(dk = sk, c = ct) defines, for every byte string sk and ct of the right length, and returns 0.", "quantifier": "every sk and ct byte string, all three parameter sets", "why_tests_cant": "Malformed ciphertexts and keys form almost all of the input space; tests exercise honest ciphertexts and single random corruptions.", "anchors": ["ref/kem.c:crypto_kem_dec", "ref/indcpa.c:indcpa_dec"]}
{"id": "C04", "title": "Decapsulation recovers the encapsulated secret when the noise is small", "statement": "If (pk, sk) comes from crypto_kem_keypair_derand and (ct, ss) from crypto_kem_enc_derand on that pk, and the decryption noise e^T y + e2 + c_v - s^T(e1 + c_u) (c_u, c_v the ciphertext rounding errors) has every centred coefficient below the decoding threshold, then crypto_kem_dec(ct, sk) returns the same ss.", "quantifier": "all key-generation and encapsulation coins whose noise term is within the bound, all three parameter sets", "why_tests_cant": "Round-trip tests sample a vanishing fraction of coins; the threshold itself and the algebra behind it are only visible symbolically.", "anchors": ["ref/kem.c:crypto_kem_keypair_derand", "ref/kem.c:crypto_kem_enc_derand", "ref/kem.c:crypto_kem_dec"]}
{"id": "C05", "title": "Implicit rejection", "statement": "crypto_kem_dec always returns 0 and never reports failure: if ct is byte-for-byte the re-encryption of the decrypted message the secret is the first half of G(m' || h), otherwise it is SHAKE256(z || ct) with z the last 32 bytes of sk; no other value is ever produced.", "quantifier": "every sk and ct byte string of the right length", "why_tests_cant": "Whether any ciphertext escapes the comparison (e.g. differs only in one bit position) cannot be settled by random corruption tests.", "anchors": ["ref/kem.c:crypto_kem_dec", "ref/verify.c:verify", "ref/verify.c:cmov", "ref/symmetric-shake.c:kyber_shake256_rkprf"]}
{"id": "C06", "title": "No undefined behaviour in any API call", "statement": "crypto_kem_keypair_derand, crypto_kem_enc_derand and crypto_kem_dec never read or write outside their buffers, never read an uninitialised byte, never overflow a signed integer and never perform an invalid shift, whatever bytes they are given.", "quantifier": "every content of the input buffers, every prior content of the output buffers (including indeterminate)", "why_tests_cant": "Sanitizer runs cover only executed inputs; overflow may depend on extreme coefficient combinations.", "anchors": ["ref/kem.c", "ref/indcpa.c", "ref/poly.c", "ref/polyvec.c", "ref/ntt.c", "ref/reduce.c", "ref/cbd.c", "ref/fips202.c"]}
{"id": "C07", "title": "API calls write only their output buffers' documented bytes", "statement": "Each KEM call leaves every byte beyond the documented CRYPTO_PUBLICKEYBYTES / CRYPTO_SECRETKEYBYTES / CRYPTO_CIPHERTEXTBYTES / CRYPTO_BYTES range of its output buffers unchanged, and writes every byte inside it.", "quantifier": "every input and every buffer at least as long as documented", "why_tests_cant": "Overrun by particular data-dependent paths (rejection sampling) needs all inputs.", "anchors": ["ref/kem.c", "ref/api.h", "ref/params.h"]}
{"id": "C08", "title": "Key generation leaks only the public seed", "statement": "The sequence of branch decisions, of memory offsets accessed and of operands of run-time divisions in crypto_kem_keypair_derand depends only on the public seed rho contained in the resulting public key, not on the secret coins. The same holds for the other two calls (C09, C10).", "quantifier": "every pair of coins that lead to the same public seed", "why_tests_cant": "Non-interference is a two-execution property over all secrets; timing tests are statistical.", "anchors": ["ref/kem.c:crypto_kem_keypair_derand", "ref/poly.c", "ref/cbd.c"]}
{"id": "C09", "title": "Encapsulation leaks only the public key seed", "statement": "The sequence of branch decisions and memory offsets of crypto_kem_enc_derand depends only on the seed part of pk, not on the message coins.", "quantifier": "every pair of coins and every pk pair sharing the seed", "why_tests_cant": "Two-execution property over all secrets.", "anchors": ["ref/kem.c:crypto_kem_enc_derand", "ref/poly.c:poly_frommsg", "ref/verify.c:cmov_int16"]}
{"id": "C10", "title": "Decapsulation leaks nothing about secret key, message or rejection", "statement": "The sequence of branch decisions and memory offsets of crypto_kem_dec depends only on the public seed stored in sk: not on the secret vector, not on z, not on the ciphertext contents, and not on whether the ciphertext is accepted or rejected.", "quantifier": "every pair of (sk, ct) inputs whose stored public seed agrees", "why_tests_cant": "Two-execution property over all secrets and all ciphertexts; a single early exit on a rare input breaks it.", "anchors": ["ref/kem.c:crypto_kem_dec", "ref/verify.c", "ref/poly.c:poly_tomsg", "ref/poly.c:poly_compress"]}
{"id": "C11", "title": "Secret key layout", "statement": "The secret key written by crypto_kem_keypair_derand is the concatenation secret vector || pk || SHA3-256(pk) || coins[32..64), where pk is byte-for-byte the public key written to the other buffer.", "quantifier": "every coins string, all three parameter sets", "why_tests_cant": "A misplaced byte can depend on the parameter set and would cancel out in round-trip tests.", "anchors": ["ref/kem.c:crypto_kem_keypair_derand", "ref/params.h:KYBER_SECRETKEYBYTES"]}
{"id": "C12", "title": "NTT multiplication is negacyclic polynomial multiplication", "statement": "Transforming two polynomials, multiplying them pointwise in the NTT domain and transforming back yields their product in Z_q[X]/(X^256+1).", "quantifier": "every pair of coefficient vectors in the documented input range", "why_tests_cant": "3329^512 input pairs; a wrong twiddle factor sign can hide behind sparse test polynomials.", "anchors": ["ref/ntt.c:ntt", "ref/ntt.c:invntt", "ref/ntt.c:basemul", "ref/ntt.c:zetas", "ref/poly.c:poly_basemul_montgomery"]}
{"id": "C13", "title": "Forward NTT computes the residues, inverse NTT undoes it", "statement": "poly_ntt outputs, for each i, the residue of the input polynomial modulo X^2 - 17^(2*bitrev7(i)+1), centred; poly_invntt_tomont applied to it gives back the polynomial times 2^16 modulo q.", "quantifier": "every coefficient vector in the documented input range", "why_tests_cant": "3329^256 inputs.", "anchors": ["ref/ntt.c:ntt", "ref/ntt.c:invntt", "ref/poly.c:poly_ntt", "ref/poly.c:poly_invntt_tomont"]}
{"id": "C14", "title": "16-bit coefficient arithmetic never wraps", "statement": "In every KEM call no coefficient addition, subtraction or accumulation ever exceeds the int16_t range, so every stored coefficient is congruent modulo q to the mathematically exact value.", "quantifier": "all inputs of each transform within its stated bound; all API inputs", "why_tests_cant": "Worst-case growth through seven butterfly layers and K accumulations is reached by no random input.", "anchors": ["ref/ntt.c", "ref/poly.c:poly_add", "ref/poly.c:poly_sub", "ref/polyvec.c:polyvec_basemul_acc_montgomery"]}
{"id": "C15", "title": "Modular reductions are exact on their whole domain", "statement": "Montgomery reduction returns a value congruent to a*2^-16 mod q and strictly between -q and q for every a in [-q*2^15, q*2^15); Barrett reduction returns the centred representative in [-(q-1)/2, (q-1)/2] for every 16-bit a.", "quantifier": "every 32-bit input in range / every 16-bit input", "why_tests_cant": "Rounding constants fail only at few boundary inputs, if any.", "anchors": ["ref/reduce.c:montgomery_reduce", "ref/reduce.c:barrett_reduce"]}
{"id": "C16", "title": "12-bit serialisation is lossless", "statement": "Deserialising a serialised polynomial gives back every coefficient modulo q, and re-serialising a deserialised byte string gives back the same bytes (also when it holds integers from q to 4095); the byte layout is FIPS 203 ByteEncode_12.", "quantifier": "every polynomial with coefficients in (-q, q); every 384-byte string", "why_tests_cant": "2^3072 byte strings.", "anchors": ["ref/poly.c:poly_tobytes", "ref/poly.c:poly_frombytes"]}
{"id": "C17", "title": "Compression rounds to nearest exactly, without division", "statement": "The ciphertext compression (4, 5, 10, 11 bits) computed by multiply-and-shift equals round((2^d/q)*x) mod 2^d for every coefficient, packed as FIPS 203 ByteEncode_d.", "quantifier": "every coefficient value, every d used, every position", "why_tests_cant": "A reciprocal constant may be off at a single residue; bit packing at group boundaries.", "anchors": ["ref/poly.c:poly_compress", "ref/polyvec.c:polyvec_compress"]}
{"id": "C18", "title": "Decompression rounds to nearest and has bounded error", "statement": "Decompression equals round((q/2^d)*y); compressing a decompressed value returns it; decompress(compress(x)) differs from x by at most round(q/2^(d+1)) modulo q.", "quantifier": "every byte string for decompression, every coefficient, every d used", "why_tests_cant": "Needs every residue class and every byte string.", "anchors": ["ref/poly.c:poly_decompress", "ref/polyvec.c:polyvec_decompress"]}
{"id": "C19", "title": "Message encoding survives noise", "statement": "Decoding an encoded 32-byte message to which noise of absolute value at most 831 was added to every coefficient returns the message; the bound is tight (832 on a 1 bit decodes wrongly; the exact tolerance is [-832, 832] for a 0 bit and [-832, 831] for a 1 bit).", "quantifier": "every 32-byte message and every noise vector within the bound", "why_tests_cant": "2^256 messages times 1665^256 noise vectors.", "anchors": ["ref/poly.c:poly_frommsg", "ref/poly.c:poly_tomsg"]}
{"id": "C20", "title": "Noise sampling computes the centred binomial distribution", "statement": "Each noise coefficient is (sum of eta bits) - (sum of the next eta bits) of the PRF output in FIPS 203 bit order, hence lies in [-eta, eta]; and over uniformly random bytes value v occurs with weight binomial(2*eta, eta+v).", "quantifier": "every PRF output string, eta = 2 and 3, every coefficient position", "why_tests_cant": "2^1024 buffers; distribution statements quantify over all of them.", "anchors": ["ref/cbd.c:cbd2", "ref/cbd.c:cbd3", "ref/poly.c:poly_getnoise_eta1", "ref/poly.c:poly_getnoise_eta2"]}
{"id": "C21", "title": "Rejection sampling returns exactly the accepted candidates in order", "statement": "Uniform sampling from a byte buffer yields, in order, exactly those successive 12-bit little-endian values below q, stops at the requested count, never writes past it, and resuming on the next buffer is the same as sampling from the concatenation.", "quantifier": "every buffer, every length, every requested count", "why_tests_cant": "Boundary interaction between count and buffer end depends on data.", "anchors": ["ref/indcpa.c:rej_uniform", "ref/indcpa.c:gen_matrix"]}
{"id": "C22", "title": "Matrix expansion equals SampleNTT for every entry and its transpose", "statement": "The public matrix derived from a seed has entry (i,j) = SampleNTT(SHAKE128(seed || j || i)), the transposed expansion has (i,j) = SampleNTT(SHAKE128(seed || i || j)), all coefficients lie in [0, q), and the result does not depend on how many blocks are squeezed at a time.", "quantifier": "every seed, every parameter set, every number of additional blocks", "why_tests_cant": "The refill path is taken with small probability only.", "anchors": ["ref/indcpa.c:gen_matrix", "ref/symmetric-shake.c:kyber_shake128_absorb"]}
{"id": "C23", "title": "Keccak permutation equals FIPS 202", "statement": "The unrolled permutation maps every 1600-bit state to the state defined by 24 rounds of theta, rho, pi, chi, iota in FIPS 202, with round constants from the LFSR.", "quantifier": "every 1600-bit state", "why_tests_cant": "2^1600 states.", "anchors": ["ref/fips202.c:KeccakF1600_StatePermute", "ref/fips202.c:KeccakF_RoundConstants"]}
{"id": "C24", "title": "Incremental absorb is independent of chunking", "statement": "Absorbing a message in any sequence of pieces (including empty ones) through the incremental SHAKE API yields the same state as absorbing it in one call.", "quantifier": "every message, every way of cutting it, both SHAKE variants", "why_tests_cant": "Unbounded histories of calls; block-boundary coincidences.", "anchors": ["ref/fips202.c:shake128_absorb", "ref/fips202.c:shake256_absorb", "ref/fips202.c:shake256_absorb_once"]}
{"id": "C25", "title": "Incremental squeeze is independent of chunking", "statement": "Squeezing any sequence of lengths yields consecutive pieces of the single infinite SHAKE output; whole-block squeezing is the same stream.", "quantifier": "every absorbed state, every sequence of output lengths", "why_tests_cant": "Unbounded histories of calls.", "anchors": ["ref/fips202.c:shake128_squeeze", "ref/fips202.c:shake256_squeeze", "ref/fips202.c:shake128_squeezeblocks", "ref/fips202.c:shake256_squeezeblocks"]}
{"id": "C26", "title": "One-shot hash functions equal FIPS 202", "statement": "shake128, shake256, sha3_256 and sha3_512 return, for every message and output length, the FIPS 202 function value, including messages that fill a block exactly, empty messages and zero-length outputs.", "quantifier": "every message of any length, every output length", "why_tests_cant": "Unbounded message length; padding edge cases at each block boundary.", "anchors": ["ref/fips202.c:shake128", "ref/fips202.c:shake256", "ref/fips202.c:sha3_256", "ref/fips202.c:sha3_512"]}
{"id": "C27", "title": "Constant-time comparison decides equality", "statement": "verify(a, b, len) returns 0 exactly when the two byte strings are equal and 1 otherwise.", "quantifier": "every pair of byte strings of every length", "why_tests_cant": "A difference in one bit of one byte may be lost by folding.", "anchors": ["ref/verify.c:verify"]}
{"id": "C28", "title": "Conditional move is all-or-nothing", "statement": "cmov(r, x, len, b) leaves r unchanged when b = 0 and copies all len bytes of x when b = 1; cmov_int16 likewise selects one of two values; bytes beyond len are untouched.", "quantifier": "every pair of buffers, every length, both flag values", "why_tests_cant": "Partial moves may depend on data.", "anchors": ["ref/verify.c:cmov", "ref/verify.c:cmov_int16"]}
{"id": "C29", "title": "System randomness fills the whole buffer", "statement": "randombytes returns only after exactly outlen bytes supplied by the operating system were written, in order and each used once, whatever sequence of short reads and interruptions occurs; on any other error it aborts and never returns with a partly filled buffer.", "quantifier": "every sequence of results of the system call (short reads, EINTR, errors) and every length", "why_tests_cant": "Schedules of interruptions cannot be enumerated.", "anchors": ["ref/randombytes.c:randombytes"]}
{"id": "C30", "title": "Randomised calls are the derandomised ones on fresh system randomness", "statement": "crypto_kem_keypair and crypto_kem_enc equal their _derand versions applied to the next 64 (respectively 32) bytes delivered by the operating system, and consume no more.", "quantifier": "every system randomness schedule, every pk", "why_tests_cant": "Needs all schedules and all random strings.", "anchors": ["ref/kem.c:crypto_kem_keypair", "ref/kem.c:crypto_kem_enc"]}
{"id": "C31", "title": "Unreduced public keys are accepted and taken modulo q", "statement": "Encapsulation performs no modulus check on pk: a key whose 12-bit coefficients are not all below q is accepted, and the ciphertext produced is that of the same key with coefficients reduced modulo q under the same encryption randomness.", "quantifier": "every public key byte string", "why_tests_cant": "Quantifies over all malformed keys.", "anchors": ["ref/indcpa.c:unpack_pk", "ref/poly.c:poly_frombytes", "ref/kem.c:crypto_kem_enc_derand"]}
{"id": "C32", "title": "Distinct public keys or coins never collide by encoding", "statement": "The encoding of a public key is injective on (vector modulo q, seed) pairs and every well-formed key decodes to what was encoded; likewise for ciphertext components (compressed values).", "quantifier": "every pair of keys / compressed vectors", "why_tests_cant": "Injectivity quantifies over pairs.", "anchors": ["ref/indcpa.c:pack_pk", "ref/indcpa.c:unpack_pk", "ref/indcpa.c:pack_ciphertext", "ref/indcpa.c:unpack_ciphertext"]}
{"id": "C33", "title": "The AVX2 number-theoretic transform is the NTT of FIPS 203, without wrap-around", "statement": "For every polynomial with coefficients of absolute value at most q, the AVX2 poly_ntt (ntt.S) ends without an access outside an object, an undefined read or a misaligned access; its output is the NTT of FIPS 203 in the coefficient order of the AVX2 code, every output coefficient has absolute value at most 16118 (the bound in the source comment), and the residues are those computed by the reference code up to that order.", "quantifier": "every polynomial with coefficients bounded by q (and, with a coarser output bound, by 15288)", "why_tests_cant": "A wrap-around of a 16-bit lane depends on rare extreme inputs; the bound 16118 is claimed in a comment only.", "anchors": ["avx2/ntt.S", "avx2/fq.inc", "avx2/shuffle.inc", "avx2/poly.c:poly_ntt", "avx2/consts.c:qdata"]}
{"id": "C34", "title": "The AVX2 inverse transform is correct on arbitrary 16-bit inputs", "statement": "For every array of 256 16-bit words the AVX2 poly_invntt_tomont (invntt.S) ends without a memory error; its output is 2^16 times the inverse NTT of the element of the ring the input stands for, in standard order, with every coefficient of absolute value at most 14870 (the bound in the source comment); composed with poly_ntt it is multiplication by 2^16.", "quantifier": "every array of 256 16-bit words", "why_tests_cant": "Arbitrary 16-bit inputs, including -32768, and a bound claimed in a comment only.", "anchors": ["avx2/invntt.S", "avx2/poly.c:poly_invntt_tomont", "avx2/consts.c:qdata"]}
{"id": "C35", "title": "AVX2 multiplication in the NTT domain", "statement": "The AVX2 poly_basemul_montgomery computes 2^-16 times MultiplyNTTs of FIPS 203 when one factor has coefficients of absolute value below q and the other is arbitrary, with output bounded by 6656; the bound fails when -q is allowed (6658 is attained) and 6658 then holds; transform, multiply and inverse transform give the product in Z_q[X]/(X^256+1); the accumulated product of vectors with the ranges of the scheme does not wrap.", "quantifier": "every pair of polynomials with one factor below q in absolute value; all three parameter sets", "why_tests_cant": "The 16-bit accumulations wrap silently; the edge case -q times -32768 is not reached by random tests.", "anchors": ["avx2/basemul.S", "avx2/poly.c:poly_basemul_montgomery", "avx2/polyvec.c:polyvec_basemul_acc_montgomery"]}
{"id": "C36", "title": "AVX2 reduction, Montgomery conversion, addition, subtraction and unpacking", "statement": "poly_reduce maps every 16-bit coefficient to a representative in 0..q of the same residue; poly_tomont multiplies every residue by 2^16 with output bounded by 2341; poly_add and poly_sub are the exact integer sums and differences when these fit in 16 bits; poly_nttunpack permutes the coefficients from standard order to the order of the AVX2 code, without a memory error for any input.", "quantifier": "every array of 256 16-bit words", "why_tests_cant": "Quantifies over all 16-bit inputs and all 256 positions.", "anchors": ["avx2/fq.S", "avx2/fq.inc", "avx2/shuffle.S", "avx2/poly.c:poly_reduce", "avx2/poly.c:poly_tomont", "avx2/poly.c:poly_add", "avx2/poly.c:poly_sub", "avx2/poly.c:poly_nttunpack"]}
{"id": "C37", "title": "AVX2 polynomial serialisation is ByteEncode_12", "statement": "poly_tobytes writes ByteEncode_12 of FIPS 203 of the canonical representatives, in standard order, from a polynomial in the order of the AVX2 code, for all coefficients in 0..q including q itself; poly_frombytes reads the 12-bit integers of ByteDecode_12 for every string and stores them in the order of the AVX2 code; the roundtrip gives the canonical representatives; the bytes agree with those of the reference code.", "quantifier": "every polynomial with coefficients in 0..q; every 384-byte string", "why_tests_cant": "The 768 shuffles and shifts mix all coefficients, so an error can depend on bit patterns of neighbouring coefficients.", "anchors": ["avx2/shuffle.S", "avx2/shuffle.inc", "avx2/poly.c:poly_tobytes", "avx2/poly.c:poly_frombytes"]}
{"id": "C38", "title": "AVX2 compression is FIPS 203 Compress and ByteEncode", "statement": "poly_compress (4 and 5 bits) and polyvec_compress (10 and 11 bits) write ByteEncode_d(Compress_d) for all coefficients in 0..q; poly_compress writes nothing else; polyvec_compress for K = 4 writes two more bytes after its output, and these are needed: on a buffer of the nominal size it goes out of bounds.", "quantifier": "every polynomial or vector with coefficients in 0..q; all three parameter sets", "why_tests_cant": "The rounding multiplications use truncated constants and corrections that are exact only by a case analysis over all residues; the two-byte overwrite is invisible because the bytes are rewritten later.", "anchors": ["avx2/poly.c:poly_compress", "avx2/polyvec.c:polyvec_compress"]}
{"id": "C39", "title": "AVX2 decompression is FIPS 203 ByteDecode and Decompress", "statement": "poly_decompress (4 and 5 bits) and polyvec_decompress (10 and 11 bits) compute Decompress_d(ByteDecode_d) for every byte string; polyvec_decompress needs 12 (K = 2, 3) or 10 (K = 4) further readable bytes, which have no effect on the result, and with one byte less it reads out of bounds.", "quantifier": "every byte string; all three parameter sets", "why_tests_cant": "Quantifies over every ciphertext; the read past the nominal end is harmless inside a ciphertext and so never shows.", "anchors": ["avx2/poly.c:poly_decompress", "avx2/polyvec.c:polyvec_decompress"]}
{"id": "C40", "title": "AVX2 message encoding and decoding", "statement": "poly_frommsg maps each message bit to 0 or (q+1)/2 in the right position; poly_tomsg writes Compress_1 of all coefficients in 0..q; encode, add noise up to 831, reduce, decode returns the message.", "quantifier": "every 32-byte message, every noise polynomial with coefficients in -831..831", "why_tests_cant": "Quantifies over all messages and all noise values including the boundary.", "anchors": ["avx2/poly.c:poly_frommsg", "avx2/poly.c:poly_tomsg"]}
{"id": "C41", "title": "AVX2 noise sampling is SamplePolyCBD", "statement": "poly_cbd_eta1 and poly_cbd_eta2 compute SamplePolyCBD of FIPS 203 for every byte string, in the range -eta..eta; for K = 2 eight further bytes are read which have no effect, and a buffer of the nominal 192 bytes is read out of bounds.", "quantifier": "every byte string; all three parameter sets", "why_tests_cant": "Bit-sliced sums over all strings; the read past the end is invisible in a test.", "anchors": ["avx2/cbd.c:cbd2", "avx2/cbd.c:cbd3", "avx2/cbd.c:poly_cbd_eta1", "avx2/cbd.c:poly_cbd_eta2"]}
{"id": "C42", "title": "AVX2 verify and cmov are correct for every length", "statement": "verify returns 0 exactly if the two strings are equal and 1 otherwise; cmov copies exactly if the flag is 1 and leaves the destination unchanged if it is 0, with nothing else written; for every length, including those not divisible by 32.", "quantifier": "all pairs of byte strings of the same length, every length and offset", "why_tests_cant": "Quantifies over all strings and all lengths; a missed tail or lane only shows on particular differences.", "anchors": ["avx2/verify.c:verify", "avx2/verify.c:cmov"]}
{"id": "C43", "title": "The four-way Keccak permutation is Keccak-p[1600,24] on each state", "statement": "KeccakP1600times4_PermuteAll_24rounds applies Keccak-p[1600,24] of FIPS 202 to each of four interleaved states, the same function as KeccakF1600_StatePermute of the reference code. It is undefined unless the tables rho8 and rho56, declared without alignment, happen to lie at multiples of 32.", "quantifier": "all states of four times 1600 bits; all addresses of the tables", "why_tests_cant": "6400 input bits; a lane mix-up or a wrong rotation in one of 24 unrolled rounds may show only on particular states, and alignment depends on the linker.", "anchors": ["avx2/keccak4x/KeccakP-1600-times4-SIMD256.c:KeccakP1600times4_PermuteAll_24rounds"]}
{"id": "C44", "title": "The four-way SHAKE functions compute SHAKE of each input", "statement": "shake128x4 and shake256x4 write SHAKE128 (SHAKE256) of each of the four inputs and nothing else, for every input and output length, whatever bytes follow the inputs. The functions read the inputs up to the next multiple of 8 bytes; with arrays that end with an input whose length is no multiple of 8, every call reads out of bounds.", "quantifier": "all inputs, all input and output lengths, all contents of the bytes after the inputs", "why_tests_cant": "Quantifies over all messages, lengths and surrounding memory contents; the over-read is invisible in tests.", "anchors": ["avx2/fips202x4.c:shake128x4", "avx2/fips202x4.c:shake256x4", "avx2/fips202x4.c:keccakx4_absorb_once", "avx2/fips202x4.c:keccakx4_squeezeblocks"]}
{"id": "C45", "title": "AVX2 rejection sampling accepts exactly the candidates below q", "statement": "rej_uniform_avx yields the first (at most 256) 12-bit numbers below q of its 504-byte buffer, in order, as the reference code does, without touching memory outside the polynomial. The scalar tail function equals that of the reference code for buffers of at least three bytes; for fewer bytes its unsigned subtraction wraps and it reads out of bounds (not reachable from the callers).", "quantifier": "all 504-byte buffers, all contents of the polynomial; all shorter buffers for the scalar function", "why_tests_cant": "2^4032 buffers; the table-driven compaction has 256 cases per 8 lanes and an early exit whose boundary is rare.", "anchors": ["avx2/rejsample.c:rej_uniform_avx", "avx2/indcpa.c:rej_uniform"]}
{"id": "C46", "title": "AVX2 gen_matrix is the matrix of FIPS 203", "statement": "gen_matrix of the AVX2 code fills entry (i, j) with exactly the representatives 0 <= x < q of SampleNTT(rho, j, i), or the transpose, in the coefficient order of the AVX2 code, whatever uninitialised bytes the gathers read; it keeps running as long as SampleNTT has not finished.", "quantifier": "every 32-byte seed, all three parameter sets, both orientations, every bound on the number of blocks", "why_tests_cant": "Needs all seeds, including those where one of four parallel entries needs extra blocks, which occurs rarely.", "anchors": ["avx2/indcpa.c:gen_matrix"]}
{"id": "C47", "title": "AVX2 noise polynomials are SamplePolyCBD(PRF(seed, nonce))", "statement": "poly_getnoise_eta1_4x, poly_getnoise_eta1122_4x and poly_getnoise_eta2 produce SamplePolyCBD_eta(PRF_eta(seed, nonce)) for each nonce, whatever uninitialised bytes the gathers read. poly_getnoise_eta1, which only test_speed.c calls, reads uninitialised bytes for K = 2.", "quantifier": "every 32-byte seed, all nonces, all three parameter sets", "why_tests_cant": "Quantifies over all seeds and memory contents.", "anchors": ["avx2/poly.c:poly_getnoise_eta1_4x", "avx2/poly.c:poly_getnoise_eta1122_4x", "avx2/poly.c:poly_getnoise_eta2", "avx2/poly.c:poly_getnoise_eta1"]}
{"id": "C48", "title": "AVX2 key generation is ML-KEM.KeyGen_internal", "statement": "crypto_kem_keypair_derand of the AVX2 build writes exactly the keys of ML-KEM.KeyGen_internal for the given coins and returns 0; it returns whenever the sampling of the standard ends.", "quantifier": "all 64-byte coins, all three parameter sets", "why_tests_cant": "2^512 coins.", "anchors": ["avx2/kem.c:crypto_kem_keypair_derand", "avx2/indcpa.c:indcpa_keypair_derand"]}
{"id": "C49", "title": "AVX2 encapsulation is ML-KEM.Encaps_internal", "statement": "crypto_kem_enc_derand of the AVX2 build writes exactly the ciphertext and secret of ML-KEM.Encaps_internal for every public key string and message and returns 0; it returns whenever the sampling ends.", "quantifier": "all public key strings of the right length, all 32-byte messages, all three parameter sets", "why_tests_cant": "Quantifies over all key strings, including ones that no key generation produces.", "anchors": ["avx2/kem.c:crypto_kem_enc_derand", "avx2/indcpa.c:indcpa_enc"]}
{"id": "C50", "title": "AVX2 decapsulation is ML-KEM.Decaps_internal", "statement": "crypto_kem_dec of the AVX2 build writes exactly the secret of ML-KEM.Decaps_internal for every secret key string and every ciphertext string and returns 0; it returns whenever the sampling ends.", "quantifier": "all secret key strings and all ciphertext strings of the right lengths, all three parameter sets", "why_tests_cant": "Quantifies over all malformed keys and ciphertexts.", "anchors": ["avx2/kem.c:crypto_kem_dec", "avx2/indcpa.c:indcpa_dec"]}
{"id": "C51", "title": "The AVX2 and the reference build give identical results", "statement": "For the same arguments, keypair_derand, enc_derand and dec of the two builds either both have not returned within the bound on sampling rounds, or both return the same bytes in all output buffers and the same value, on valid and on malformed inputs.", "quantifier": "all coins, key strings, ciphertext strings, all contents of the output buffers, all three parameter sets", "why_tests_cant": "A differential test covers finitely many inputs; a difference on unreduced keys or malformed ciphertexts would be an implementation fingerprint.", "anchors": ["avx2/kem.c", "ref/kem.c"]}
{"id": "C52", "title": "The AVX2 KEM calls have no undefined behaviour, write exactly their outputs and reject implicitly", "statement": "No KEM call of the AVX2 build accesses memory out of bounds, misaligned or (up to masked bytes) uninitialised, or overflows; it changes exactly the documented bytes; decapsulation returns 0 and writes the derived key for a ciphertext equal to its re-encryption and SHAKE256(z, c) otherwise.", "quantifier": "all inputs of the right lengths, all three parameter sets", "why_tests_cant": "Absence of undefined behaviour for all inputs; vector stores past the nominal end are overwritten later and invisible in tests.", "anchors": ["avx2/kem.c", "avx2/indcpa.c", "avx2/poly.c", "avx2/polyvec.c"]}
{"id": "C53", "title": "Uninitialised bytes read by the gathers have no influence", "statement": "The results of all AVX2 KEM calls are the same for any two contents of the uninitialised buffer bytes that the four-way absorb reads and masks.", "quantifier": "all inputs, all pairs of contents", "why_tests_cant": "Depends on stack contents, which a test does not control.", "anchors": ["avx2/fips202x4.c:keccakx4_absorb_once", "avx2/indcpa.c:gen_matrix", "avx2/poly.c:poly_getnoise_eta1_4x"]}
{"id": "C54", "title": "The builds interoperate", "statement": "A key pair generated by either build, a secret encapsulated by either build and decapsulated by either build: if the noise is within the decoding threshold both sides hold the same secret.", "quantifier": "all coins, all eight combinations of builds, all three parameter sets", "why_tests_cant": "Quantifies over all coins.", "anchors": ["ref/kem.c", "avx2/kem.c"]}
{"id": "C55", "title": "The randomised calls of both builds are ML-KEM KeyGen and Encaps on operating-system bytes", "statement": "For every behaviour of the getrandom system call (short reads, EINTR, failure, no answer) crypto_kem_keypair and crypto_kem_enc of the AVX2 build end as those of the reference build do; when the operating system delivers the 64 (32) bytes, in whatever pieces, both write the keys of KeyGen_internal(d, z) (the ciphertext and secret of Encaps_internal(ek, m)) on exactly these bytes, in order, and consume exactly that many.", "quantifier": "all schedules of system call returns, all delivered bytes, all public keys, all three parameter sets", "why_tests_cant": "Short reads and interrupts of getrandom are rare and not under the control of a test; quantifies over all schedules.", "anchors": ["ref/kem.c:crypto_kem_keypair", "ref/kem.c:crypto_kem_enc", "ref/randombytes.c", "avx2/kem.c"]}
{"id": "C56", "title": "The AVX2 calls leak nothing secret through branches and addresses", "statement": "Two runs of an AVX2 KEM call branch alike and access the same addresses in the same order, including the vector loads and stores, the table of the rejection sampling and the gathers, whenever the public seed rho of the matrix is the same: coins, secret key, ciphertext, shared secret, the outcome of the re-encryption comparison and the contents of uninitialised memory are arbitrary on both sides.", "quantifier": "all pairs of inputs of key generation, encapsulation and decapsulation with equal rho, all three parameter sets", "why_tests_cant": "A property of pairs of runs; timing tests sample few pairs and miss rare branches.", "anchors": ["avx2/kem.c", "avx2/indcpa.c", "avx2/rejsample.c", "avx2/poly.c", "avx2/verify.c"]}
{"id": "C57", "title": "The randomised calls leak only the system call results and the public seed", "statement": "For every behaviour of the operating system, what crypto_kem_keypair leaks through branches and addresses is determined by the sequence of system call results and the public seed rho, and what crypto_kem_enc leaks by the system call results and the seed in the public key; the random bytes themselves are arbitrary. Reference and AVX2 build.", "quantifier": "all schedules of system call results, all pairs of random byte streams (with equal rho for key generation), all pairs of public keys with equal seed, all three parameter sets", "why_tests_cant": "A property of pairs of runs over all random streams and system call schedules.", "anchors": ["ref/kem.c:crypto_kem_keypair", "ref/kem.c:crypto_kem_enc", "ref/randombytes.c", "avx2/kem.c"]}
{"id": "C58", "title": "The public-key encryption calls of both builds compute K-PKE", "statement": "indcpa_keypair_derand, indcpa_enc and indcpa_dec of the reference and the AVX2 build, called on their own with arbitrary coins, keys, messages, ciphertexts and pointer offsets, write exactly the outputs of K-PKE.KeyGen, K-PKE.Encrypt and K-PKE.Decrypt of FIPS 203; the two builds leave identical memory; decrypting an honest ciphertext gives the message back if and only if the noise is within the decoding threshold.", "quantifier": "all coins, messages, key strings and ciphertext strings of the right length, all offsets, all contents of output buffers, all three parameter sets, all fuel, all values of uninitialised bytes", "why_tests_cant": "The KEM never calls indcpa_enc with coins independent of the message and key; arbitrary keys and ciphertexts cannot be enumerated.", "anchors": ["ref/indcpa.c:indcpa_keypair_derand", "ref/indcpa.c:indcpa_enc", "ref/indcpa.c:indcpa_dec", "avx2/indcpa.c"]}
{"id": "C59", "title": "Rejection sampling is exactly uniform, with a known failure probability", "statement": "On uniformly distributed bytes in place of the XOF output, SampleNTT returns every polynomial for exactly the same number of byte strings; the number of strings of 3N bytes with too few candidates is sum_{j<256} C(2N,j) 3329^j 767^(2N-j), hence below 2^-261 of all for 280 iterations (the figure of FIPS 203 appendix B), below 2^-105 for the four blocks and between 1/121 and 1/120 for the three blocks of the code. The same uniformity for rej_uniform of the reference build and for rej_uniform_avx.", "quantifier": "all polynomials, all numbers of iterations, all byte strings (counted)", "why_tests_cant": "Uniformity over 3329^256 polynomials and probabilities like 2^-261 cannot be sampled.", "anchors": ["ref/indcpa.c:rej_uniform", "ref/indcpa.c:gen_matrix", "avx2/rejsample.c:rej_uniform_avx"]}
{"id": "C60", "title": "Bound on the probability of decryption failure", "statement": "If the PRF outputs are replaced by independent uniformly distributed byte strings, then for every public matrix and every message the part of the byte strings for which K-PKE decryption does not give the message back is at most 2^-42 for ML-KEM-512, 2^-45 for ML-KEM-768 and 2^-83 for ML-KEM-1024. The noise counted is the exact one, with both rounding errors of the compression; for given byte strings decryption returns the message exactly when the noise is within the threshold.", "quantifier": "all matrices (also adversarial ones), all messages, all byte strings of the noise (counted)", "why_tests_cant": "An event of probability 2^-42 or less is not met by sampling, and the matrix and message range over all values.", "anchors": ["ref/indcpa.c:indcpa_enc", "ref/indcpa.c:indcpa_dec", "ref/poly.c:poly_getnoise_eta1", "ref/cbd.c", "ref/poly.c:poly_compress"]}
{"id": "C61", "title": "The NIST generator of the KAT programs is CTR_DRBG", "statement": "randombytes_init and randombytes of ref/nistkat/rng.c compute, over any block cipher in place of AES-256, Instantiate and Generate of CTR_DRBG (SP 800-90A, no derivation function, no additional input): same state, same output bytes, nothing else written, for any sequence of requests. Requests of 2^31 bytes or more and the request after the counter has reached 2^31-1 are undefined behaviour (signed overflow), which is proved too. With the OpenSSL calls made one by one, each of which may fail, the functions either end the program (only if a call can fail) or give the same results with every cipher context freed; no result of a failed call is used.", "quantifier": "all entropy inputs and personalization strings, all states, all sequences of request lengths, all ciphers", "why_tests_cant": "The KAT files fix one entropy input and four request lengths; counter carries across all 16 bytes, the last partial block and the overflows need inputs no test run reaches.", "anchors": ["ref/nistkat/rng.c:randombytes_init", "ref/nistkat/rng.c:randombytes", "ref/nistkat/rng.c:AES256_CTR_DRBG_Update", "ref/nistkat/rng.c:AES256_ECB", "ref/nistkat/rng.h", "ref/nistkat/rng.c:handleErrors"]}
{"id": "C62", "title": "The seed expander is AES in counter mode, whatever the cut into requests", "statement": "After seedexpander_init with a maximal length below 2^32, any sequence of calls of seedexpander gives consecutive bytes of the stream AES(seed, diversifier ‖ maxlen ‖ block number); a request that would reach the maximal length returns RNG_BAD_REQ_LEN and changes nothing, so the last announced byte can never be obtained (off by one); null buffer and maxlen >= 2^32 are refused without effect. The same holds with OpenSSL calls that may fail, unless the program ends.", "quantifier": "all seeds, diversifiers, maximal lengths, all sequences of request lengths, all ciphers", "why_tests_cant": "No program of the repository calls it; the cut of the stream into requests has unboundedly many cases.", "anchors": ["ref/nistkat/rng.c:seedexpander_init", "ref/nistkat/rng.c:seedexpander"]}
{"id": "C63", "title": "The test vector program prints what FIPS 203 and SHAKE128 determine, for both builds", "statement": "test_vectors.c, for any number of tests and linked to either build, writes exactly the text the specification gives (keys, ciphertexts and shared secrets of ML-KEM in hexadecimal, with coins taken in order from the SHAKE128 stream of the empty string), returns 0 with empty stderr if all shared secrets agree, and otherwise stops at the first test where they differ with ERROR and -1. No undefined behaviour; both builds write the same.", "quantifier": "all three parameter sets, every number of tests (the program has 10000), any content of the uninitialised buffers of the AVX2 build", "why_tests_cant": "A run checks one number of tests and compares hash sums of the output; that the two builds print the same for any number of vectors, and never read an uninitialised byte on the way, is not visible in a run.", "anchors": ["ref/test/test_vectors.c:main", "ref/test/test_vectors.c:randombytes", "avx2/test/test_vectors.c"]}
{"id": "C64", "title": "The functional test program decides what it claims to decide", "statement": "test_kyber.c, with any number of rounds, linked to either build and to any randombytes that delivers a byte stream, writes and returns what the specification says: per round one correct exchange, one decapsulation with a random key, one with a ciphertext changed in one byte by a nonzero value. It returns 0 exactly if in every round the first gives equal secrets and the other two different ones. No undefined behaviour (in particular the changed position is inside the ciphertext for every value of pos).", "quantifier": "all parameter sets, byte streams, generator states, numbers of rounds, bounds on the search for a nonzero byte", "why_tests_cant": "This is the test; whether its verdict means what it should for all random inputs cannot be seen by running it.", "anchors": ["ref/test/test_kyber.c:test_keys", "ref/test/test_kyber.c:test_invalid_sk_a", "ref/test/test_kyber.c:test_invalid_ciphertext", "ref/test/test_kyber.c:main", "avx2/test/test_kyber.c"]}
{"id": "C65", "title": "The KAT generator writes the files that FIPS 203 and SP 800-90A determine, and reads back what it wrote", "statement": "PQCgenKAT_kem.c, for any number of records below 2^31 - 1 and linked to either build, writes exactly the request file, response file and messages of the specification: seeds from CTR_DRBG with entropy 0..47, per record keys, ciphertext and shared secret of ML-KEM with the coins CTR_DRBG gives for the seed, in upper-case hexadecimal. It returns 0 if all shared secrets agree, -4 with the message at the first record where they do not, -1 if a file cannot be opened. FindMarker stops after the first occurrence of the marker (of its first 49 bytes), ReadHex stores the number with the digits it finds modulo 256^Length, and reads back every field fprintBstr writes. ReadHex with Length 0 writes a byte nevertheless. No undefined behaviour otherwise.", "quantifier": "all parameter sets, numbers of records, block ciphers in place of AES-256, initial DRBG contents, contents of the uninitialised buffers of the AVX2 build; for FindMarker and ReadHex all files, markers and buffer sizes", "why_tests_cant": "A run shows one pair of files; the parser's behaviour on arbitrary files (overlapping partial markers, too many or too few digits, empty lines, end of file) and the equality with the standards for all records is not covered by it.", "anchors": ["ref/nistkat/PQCgenKAT_kem.c:main", "ref/nistkat/PQCgenKAT_kem.c:FindMarker", "ref/nistkat/PQCgenKAT_kem.c:ReadHex", "ref/nistkat/PQCgenKAT_kem.c:fprintBstr"]}
{"id": "C66", "title": "The timing report is the median and the mean of the differences of the counter readings", "statement": "print_results, for every sequence of readings of length at least two, prints exactly the title, the median and the average of the differences of successive readings less the measured overhead, all modulo 2^64, and measures the overhead only while the static variable is 2^64 - 1; with fewer than two readings it prints the error message and nothing else. cpucycles_overhead returns the minimum of the differences of its pairs of readings. The comparison function given to qsort is a total order. For an odd number of differences the printed median has at most half of them below and at most half above; the average is exact if the sum is below 2^64. Where it is not (wrapped sums, a difference below the overhead) witnesses are given; without the guard median reads out of bounds and average divides by zero.", "quantifier": "all counters, all numbers of readings below 2^64, all titles, all qsort functions that meet the C standard", "why_tests_cant": "The readings of a time stamp counter are not reproducible, and no run shows what is printed for every sequence of readings or for every qsort.", "anchors": ["ref/test/speed_print.c:print_results", "ref/test/speed_print.c:median", "ref/test/speed_print.c:average", "ref/test/cpucycles.c:cpucycles_overhead"]}
{"id": "C67", "title": "What the benchmark program prints, and where it is undefined", "statement": "test_speed.c linked to the reference build: with the buffer key initialised it has no undefined behaviour and, if it returns, prints exactly the twenty reports of the readings of the counter and returns 0. As it is written it has undefined behaviour for every generator, counter and parameter set as soon as the first key generation finishes: indcpa_enc reads the uninitialised key as the message. Linked to the AVX2 build it has undefined behaviour earlier: for K = 2 in poly_getnoise_eta1, for K = 3 and 4 in polyvec_decompress, which reads bytes of ct that nothing has written; with ct and key initialised and K = 3 or 4 it has none and prints the same reports.", "quantifier": "all parameter sets, both builds, all counters, qsort functions, numbers of tests, generators that deliver a stream, contents of the initialised buffers and of the masked-out uninitialised bytes", "why_tests_cant": "The program runs and prints plausible numbers: reading an uninitialised buffer has no visible effect in a run, and the printed times differ from run to run.", "anchors": ["ref/test/test_speed.c:main", "avx2/test/test_speed.c:main"]}
{"id": "C68", "title": "Definedness of the AVX2 vector code does not depend on data", "statement": "Two calls of a vector program on objects with the same elements initialised have the same outcome up to the values computed: the same undefined behaviour, or both return after the same sequence of memory accesses with the same elements of the result initialised. Each polynomial function of the AVX2 build (both transforms, unpack, Montgomery form, reduction, sum, difference, product, compression, decompression, serialisation, messages, binomial sampling) returns with its whole result initialised for all values of its initialised arguments, without any bound on the coefficients; with one coefficient uninitialised the transform is undefined.", "quantifier": "all vector programs and objects; for the functions all coefficients, bytes, offsets, destinations initialised or not", "why_tests_cant": "Tests can neither run all values of 256 coefficients nor observe the reading of uninitialised memory.", "anchors": ["avx2/ntt.S", "avx2/invntt.S", "avx2/basemul.S", "avx2/shuffle.S", "avx2/fq.S", "avx2/poly.c", "avx2/polyvec.c", "avx2/cbd.c"]}
{"id": "C69", "title": "The BMI variant of the AVX2 rejection sampling is equivalent", "statement": "rej_uniform_avx compiled with BMI defined (masks computed with pdep and pext instead of read from the table) finds exactly the 12-bit numbers below q in order, at most 256, without access outside of its buffers; gen_matrix linked with it returns exactly the same array as with the default variant, or both are still running; hence it is the matrix of FIPS 203. The computed masks agree with the table in all entries that are used, and differ in others. The three derandomised KEM calls linked with it have on all buffers the same outcome as those of the default build (value, undefined behaviour or still running), and leak no more.", "quantifier": "all 504-byte buffers; every 32-byte seed, all three parameter sets, both orientations, every bound on the number of blocks; all argument buffers of the KEM calls, pairs of runs for the leakage", "why_tests_cant": "The variant is not compiled by default, so no test of the package runs it, and tests cannot cover all buffers.", "anchors": ["avx2/rejsample.c:rej_uniform_avx", "avx2/indcpa.c:gen_matrix", "avx2/kem.c:crypto_kem_keypair_derand", "avx2/kem.c:crypto_kem_enc_derand", "avx2/kem.c:crypto_kem_dec"]}
{"id": "C70", "title": "Arguments that share memory", "statement": "With all arguments of a KEM call as offsets into one memory: crypto_kem_enc_derand writes the ciphertext and then the shared secret of FIPS 203 and nothing else, however its arguments overlap; if the outputs are apart both are right, if the secret lies in the ciphertext buffer the bytes sent contain it. crypto_kem_dec writes exactly the shared secret of FIPS 203 however its arguments overlap. crypto_kem_keypair_derand writes exactly the keys of FIPS 203 if the two keys and the second half of the coins are apart (the first half may lie anywhere); it is undefined if the public key overlaps its copy in the secret key or the second half of the coins overlaps its copy; if that half lies in the public key the stored rejection secret is part of the public key; if the public key ends where its copy begins the decryption key is overwritten. The same for the functions below: the hash functions, prf, rkprf, indcpa_enc and indcpa_dec are right wherever their arguments lie in one memory; indcpa_keypair_derand writes the secret key and then the public key, whatever they cover; cmov of ref is right unless its destination begins inside its source, where it is wrong, while cmov of avx2 has restrict and is undefined as soon as one byte is shared.", "quantifier": "all memories and offsets within bounds, all keys, coins and ciphertexts, three parameter sets, both builds, every fuel", "why_tests_cant": "Tests use separate buffers; the pairs of offsets are too many to try, and an overlapping memcpy need not show.", "anchors": ["ref/kem.c:crypto_kem_keypair_derand", "ref/kem.c:crypto_kem_enc_derand", "ref/kem.c:crypto_kem_dec", "ref/indcpa.c:indcpa_keypair_derand", "ref/indcpa.c:indcpa_enc", "avx2/indcpa.c:indcpa_keypair_derand", "avx2/indcpa.c:indcpa_enc", "ref/verify.c:cmov", "avx2/verify.c:cmov", "ref/indcpa.c:indcpa_dec", "ref/fips202.c:shake256", "ref/fips202.c:sha3_256", "ref/symmetric-shake.c:kyber_shake256_rkprf"]}
{"id": "C71", "title": "Decryption failure for a uniform matrix", "statement": "If the matrix (or the XOF output it is sampled from) and the PRF outputs are independent and uniformly distributed, K-PKE decryption gives back every message (also one chosen with knowledge of the matrix and the noise) except for a part of the pairs of at most 2^-123 for ML-KEM-512, 2^-148 for ML-KEM-768 and 2^-161 for ML-KEM-1024. So for all but a 2^-61, 2^-74, 2^-80 part of the matrices the part of the noise that fails for some message is at most 2^-62, 2^-74, 2^-81.", "quantifier": "all pairs of a matrix over R_q and byte strings of the noise (counted), every message for each pair", "why_tests_cant": "An event of probability 2^-123 or less is never met by sampling.", "anchors": ["ref/indcpa.c:indcpa_enc", "ref/indcpa.c:indcpa_dec", "ref/indcpa.c:gen_matrix", "ref/polyvec.c:polyvec_compress", "ref/poly.c:poly_compress"]}
{"id": "C72", "title": "Binding of the shared secret", "statement": "Two decapsulations under one secret key (honest or not) with different ciphertexts that return the same secret give an explicit collision of SHA3-512, of SHAKE256, or between the two; two under keys with different public keys, right stored hashes and different rejection secrets give such a collision or one of SHA3-256; two encapsulations with the same secret have the same public key and message or give a collision. The condition on the rejection secrets is needed: any two secret keys with the same one share the secret for some ciphertext. At most 2^256 ciphertexts are accepted under any secret key.", "quantifier": "all secret keys, public keys, ciphertexts and messages, three parameter sets, calls of either build in any combination", "why_tests_cant": "Finding such pairs by testing would mean finding hash collisions; the ciphertext for two keys with the same rejection secret is shown to exist by counting.", "anchors": ["ref/kem.c:crypto_kem_dec", "ref/kem.c:crypto_kem_enc_derand", "avx2/kem.c:crypto_kem_dec", "avx2/kem.c:crypto_kem_enc_derand"]}
{"id": "C73", "title": "Announced sizes", "statement": "The sizes of api.h and of the META files are those of params.h and of FIPS 203. Each derandomised call, of either build, with output buffers of at least these sizes and initialised inputs of these sizes has no undefined behaviour, and when it returns all bytes of the announced sizes of its outputs are written and the result is 0. With a smaller output buffer, or an input with one missing or uninitialised byte, no call returns.", "quantifier": "all buffers of all sizes, with every byte initialised or not, three parameter sets, both builds, all contents of padding (AVX2)", "why_tests_cant": "Tests use buffers of the right sizes; that no byte less would do, and that no input byte is left unread, needs a statement about all buffers.", "anchors": ["ref/api.h", "avx2/api.h", "ref/kem.c:crypto_kem_keypair_derand", "ref/kem.c:crypto_kem_enc_derand", "ref/kem.c:crypto_kem_dec", "avx2/kem.c:crypto_kem_keypair_derand", "avx2/kem.c:crypto_kem_enc_derand", "avx2/kem.c:crypto_kem_dec"]}
{"id": "C74", "title": "Polynomial arithmetic in place", "statement": "poly_add, poly_sub and polyvec_add with arguments anywhere in one memory do exactly what they do on separate objects, and change nothing outside the result, as soon as the result does not begin inside an operand after its first coefficient; this covers all in-place calls of the code. The condition is needed: for every shift of 1 to 255 coefficients there are coefficients on which poly_add with the result at that shift gives another sum. poly_basemul_montgomery is right if the result does not overlap an operand and wrong in place.", "quantifier": "all memories, all contents (also uninitialised cells and sums that overflow), all offsets of the three arguments, three parameter sets", "why_tests_cant": "A write through one pointer changes what a later read through another pointer sees; whether this happens depends on the offsets and, for the result, on the coefficients.", "anchors": ["ref/poly.c:poly_add", "ref/poly.c:poly_sub", "ref/poly.c:poly_basemul_montgomery", "ref/ntt.c:basemul", "ref/polyvec.c:polyvec_add", "ref/indcpa.c:indcpa_enc", "ref/indcpa.c:indcpa_dec"]}
{"id": "C75", "title": "K-PKE hides its message if Module-LWE is hard", "statement": "For K-PKE of FIPS 203, with a uniform matrix and independent uniform bytes in place of the PRF outputs, the distance between the two chosen-plaintext games is a sum of four Module-LWE advantages, with no other term. The four distinguishers are written down and run the attack once: two for the k x k instance that is the public key, two for the (k+1) x k instance that is the ciphertext. K-PKE.KeyGen and K-PKE.Encrypt of FIPS 203, which the code computes (C01, C02), have the form used in the games.", "quantifier": "all attacks with any finite set of coins, all parameter sets (also others than the three of FIPS 203)", "why_tests_cant": "Security is a statement about all attacks; a test can run one.", "anchors": ["ref/indcpa.c:indcpa_keypair_derand", "ref/indcpa.c:indcpa_enc", "ref/indcpa.c:indcpa_dec"]}
{"id": "C76", "title": "ML-KEM withstands chosen-ciphertext attacks if Module-LWE is hard", "statement": "With G and J as random oracles (and the idealisation of C75), the distance of the two chosen-ciphertext games for ML-KEM is at most four Module-LWE advantages of explicit distinguishers plus (2 qJ + qG) / 2^256 plus 3 (qG + 1) times the decryption failure probability, which is at most 2^-123, 2^-148 and 2^-161 for the three parameter sets. qG and qJ bound the queries to G and J; the number of decapsulation queries is unbounded. The first step holds for the same construction over any public-key encryption. Decaps_internal of FIPS 203, which the code computes (C03), is the decapsulation of the game.", "quantifier": "all adaptive attacks, all numbers of queries, three parameter sets", "why_tests_cant": "Security is a statement about all attacks; the terms are far below what sampling could see.", "anchors": ["ref/kem.c:crypto_kem_keypair_derand", "ref/kem.c:crypto_kem_enc_derand", "ref/kem.c:crypto_kem_dec"]}
{"id": "C77", "title": "The table of zetas", "statement": "The table of ref/ntt.c has the powers of the root of unity 17 in bit-reversed order, in Montgomery form, as centred representatives; and the generator that the file gives in a comment, run on any object of 128 cells, has no undefined behaviour and writes exactly this table.", "quantifier": "all entries; all contents of the object that the generator writes to", "why_tests_cant": "The generator is a comment, so no test runs it; a wrong entry of a table that is consistent with its own inverse would only show against another implementation.", "anchors": ["ref/ntt.c:init_ntt", "ref/ntt.c:zetas", "ref/ntt.c:fqmul"]}
{"id": "C78", "title": "Moving bytes in and out of the four interleaved Keccak states", "statement": "The exported functions of the four-way Keccak that the library does not call itself do what their names say: AddByte, AddBytes, OverwriteBytes, OverwriteWithZeroes, ExtractBytes, ExtractAndAddBytes change or read exactly the given bytes of the given state, InitializeAll clears the states, and AddLanesAll, OverwriteLanesAll, ExtractLanesAll, ExtractAndAddLanesAll do the same for the first lanes of all four states with four buffers at a common distance; the shuffles of the four-lane paths transpose correctly and bytes between the buffers keep their values. The needed conditions are stated: a call on bytes that processes a full lane is defined exactly when the address of that lane is a multiple of 8, so that an aligned buffer with an offset that is not a multiple of 8 is undefined. Finding: lane offsets are computed modulo 2^29, so with offset 2^29 all four states receive the data of the first.", "quantifier": "all states, buffers, offsets, lengths and lane counts up to 25", "why_tests_cant": "The library calls none of these functions, so its tests do not reach them; on x86 the misaligned accesses happen to work unless the compiler relies on alignment.", "anchors": ["avx2/keccak4x/KeccakP-1600-times4-SIMD256.c:KeccakP1600times4_AddBytes", "avx2/keccak4x/KeccakP-1600-times4-SIMD256.c:KeccakP1600times4_AddLanesAll", "avx2/keccak4x/KeccakP-1600-times4-SIMD256.c:KeccakP1600times4_OverwriteBytes", "avx2/keccak4x/KeccakP-1600-times4-SIMD256.c:KeccakP1600times4_OverwriteLanesAll", "avx2/keccak4x/KeccakP-1600-times4-SIMD256.c:KeccakP1600times4_OverwriteWithZeroes", "avx2/keccak4x/KeccakP-1600-times4-SIMD256.c:KeccakP1600times4_ExtractBytes", "avx2/keccak4x/KeccakP-1600-times4-SIMD256.c:KeccakP1600times4_ExtractLanesAll", "avx2/keccak4x/KeccakP-1600-times4-SIMD256.c:KeccakP1600times4_ExtractAndAddBytes", "avx2/keccak4x/KeccakP-1600-times4-SIMD256.c:KeccakP1600times4_ExtractAndAddLanesAll"]}
{"id": "C79", "title": "The permutations and the absorbing loops of the four-way Keccak", "statement": "PermuteAll_24rounds and PermuteAll_12rounds, on the 800 bytes of the states, apply Keccak-p[1600, 24] = Keccak-f[1600] and Keccak-p[1600, 12] (the last 12 rounds) to each of the four states. KeccakF1600times4_FastLoop_Absorb and KeccakP1600times4_12rounds_FastLoop_Absorb absorb exactly the blocks that fit, with a permutation after each block, and return the number of bytes consumed, for all lane counts including the separate code for 21 lanes. Findings: the code for 21 lanes advances four pointers and forms pointers beyond the end of a buffer that ends with the data, which is undefined; a serial offset of 0 does not end; a serial offset beyond the data is undefined.", "quantifier": "all states, lane counts up to 25, offsets, buffers and lengths", "why_tests_cant": "The library does not call the loops, so its tests do not reach them; pointers beyond the end have no effect on common platforms.", "anchors": ["avx2/keccak4x/KeccakP-1600-times4-SIMD256.c:KeccakP1600times4_PermuteAll_12rounds", "avx2/keccak4x/KeccakP-1600-times4-SIMD256.c:KeccakP1600times4_PermuteAll_24rounds", "avx2/keccak4x/KeccakP-1600-times4-SIMD256.c:KeccakF1600times4_FastLoop_Absorb", "avx2/keccak4x/KeccakP-1600-times4-SIMD256.c:KeccakP1600times4_12rounds_FastLoop_Absorb"]}
{"id": "C80", "title": "Chosen-plaintext security of K-PKE with its seeds", "statement": "K-PKE as FIPS 203 has it - matrix from a public seed, noise of keys and encryptions from PRF on secret 32-byte seeds - with the algorithms shown equal to those of the standard: for every chosen-plaintext attack the distance of its two games is exactly a sum of advantages of explicit distinguishers, each running the attack once: four against PRF (SHAKE256) and four against Module-LWE with a matrix from a seed. With matrices for seeds this is Module-LWE.", "quantifier": "all parameter sets, all functions from seeds to matrices, all attacks", "why_tests_cant": "Security is about all attacks; a test runs one.", "anchors": ["ref/indcpa.c:indcpa_keypair_derand", "ref/indcpa.c:indcpa_enc", "ref/indcpa.c:indcpa_dec", "ref/indcpa.c:gen_matrix", "ref/poly.c:poly_getnoise_eta1"]}
{"id": "C81", "title": "Chosen-ciphertext security of ML-KEM with its seeds", "statement": "For ML-KEM as FIPS 203 has it (matrix and noise from seeds) every chosen-ciphertext attack with at most qG queries to G and qJ to J has advantage at most the PRF and Module-LWE advantages of C80 of an explicit reduction, plus (2 qJ + qG)/2^256, plus 3 (qG + 1) times the failure probability, which is at most 2^-123, 2^-148, 2^-161 plus the advantages of explicit tests that look for decryption failures. The KEM of the game is the code, in both builds: crypto_kem_keypair_derand makes its keys, crypto_kem_enc_derand computes its encapsulation and crypto_kem_dec its decapsulation.", "quantifier": "all attacks, any number of decapsulation queries, all functions from seeds to matrices; for the code all inputs for which the sampling of the matrix ends", "why_tests_cant": "Security is about all attacks; a test runs one.", "anchors": ["ref/kem.c:crypto_kem_keypair_derand", "ref/kem.c:crypto_kem_enc_derand", "ref/kem.c:crypto_kem_dec", "ref/symmetric-shake.c:kyber_shake256_prf", "avx2/kem.c:crypto_kem_keypair_derand", "avx2/kem.c:crypto_kem_enc_derand", "avx2/kem.c:crypto_kem_dec"]}
{"id": "C82", "title": "Chosen-ciphertext security of ML-KEM with G on all its inputs", "statement": "As C81, but for the whole of FIPS 203 with G a random function: the key pair comes from G(d || k) for a uniform d, secrets and coins from G(m || H(ek)) for any function H, and the attack may ask G on every input of these forms. The bound is that of C81, on average over the answers that do not concern the key pair, plus 2 qK/2^256 for qK queries of the form d || k. The algorithms of the game are KeyGen_internal, Encaps_internal and Decaps_internal of FIPS 203 when G is SHA3-512 and H is SHA3-256.", "quantifier": "all attacks, any number of decapsulation queries, all functions from seeds to matrices, all functions H", "why_tests_cant": "Security is about all attacks; a test runs one.", "anchors": ["ref/kem.c:crypto_kem_keypair_derand", "ref/kem.c:crypto_kem_enc_derand", "ref/kem.c:crypto_kem_dec", "ref/indcpa.c:indcpa_keypair_derand"]}
{"id": "C83", "title": "The randomised calls with arguments that share memory", "statement": "With the arguments of a randomised KEM call as offsets into one memory and the coins in a local array: crypto_kem_enc writes the ciphertext and then the shared secret of FIPS 203 for the next 32 bytes of the operating system and nothing else, however its arguments overlap; if the outputs are apart both are right, if the secret lies in the ciphertext buffer the bytes sent contain it. crypto_kem_keypair writes exactly the keys of FIPS 203 for the next 64 bytes if the two keys are apart; it is undefined exactly if the public key overlaps the place in the secret key it is copied to; for all other positions the result is the three writes in order, so that a public key that ends where its copy begins makes the decryption key public, and one over the last 64 bytes of the secret key contains the secret of implicit rejection. Both abort, whatever the arguments, if the operating system fails first.", "quantifier": "all memories and offsets within bounds, all keys, all byte streams and call results of the operating system, three parameter sets, both builds, every fuel", "why_tests_cant": "Tests use separate buffers; the pairs of offsets are too many to try, an overlapping memcpy need not show, and keys are drawn at random.", "anchors": ["ref/kem.c:crypto_kem_keypair", "ref/kem.c:crypto_kem_enc", "ref/kem.c:crypto_kem_keypair_derand", "ref/kem.c:crypto_kem_enc_derand", "ref/randombytes.c:randombytes"]}
{"id": "C84", "title": "Ciphertexts of K-PKE are pseudorandom and anonymous", "statement": "For K-PKE of FIPS 203 with its matrix from a public seed and its noise from PRF: the advantage with which an attack that knows the public key and chooses the message tells a ciphertext from the encoding of uniform u and v (which depends on no key) equals the sum of the advantages of six explicit distinguishers that run the attack once, three against PRF and three against Module-LWE. So the advantage with which an attack that knows two public keys and chooses the message tells for which of them a ciphertext was made equals a difference of two such sums, where the other key pair is made by the distinguisher.", "quantifier": "all attacks with finite coins, all parameter sets, all functions from seeds to matrices, both messages", "why_tests_cant": "A statement about all attacks and about probabilities far too small to observe.", "anchors": ["ref/indcpa.c:indcpa_enc", "ref/indcpa.c:indcpa_keypair_derand", "avx2/indcpa.c:indcpa_enc"]}
{"id": "C85", "title": "Ciphertexts are not random strings", "statement": "In a uniform string of the length of a ciphertext the compressed coefficients of u are independent uniform codes; in the encoding of uniform u and v they are independent codes of uniform elements of Z_q. As q is no multiple of 2^d, 257 of the 1024 codes belong to 4 values instead of 3 (d = 10), and 1281 of the 2048 codes to 2 instead of 1 (d = 11). Counting these codes tells the encoding from a random string with advantage at least 3/8 (ML-KEM-512), 1/2 (ML-KEM-768), 9/10 (ML-KEM-1024), and so, by C84, ciphertexts of K-PKE up to the advantages against PRF and Module-LWE.", "quantifier": "all functions from seeds to matrices, both messages, three parameter sets; exact averages over all ciphertexts and all strings", "why_tests_cant": "Averages over 2^6144 strings and more; a test sees single ciphertexts, each of which is a possible random string.", "anchors": ["ref/poly.c:poly_compress", "ref/polyvec.c:polyvec_compress", "ref/indcpa.c:pack_ciphertext", "ref/indcpa.c:indcpa_enc"]}
{"id": "C86", "title": "Encapsulations of ML-KEM are pseudorandom against chosen-ciphertext attacks", "statement": "In the game of C82 (G and J random functions, key pairs from G, decapsulations of all other ciphertexts): an attack tells an encapsulation, with its secret or with an independent one, from the encoding of uniform u and v with an independent secret by at most the advantages of the six distinguishers of C84 and the eight of C82 (that run the attack once, on average over the answers that do not concern the key pair) plus (2 qK + 2 qJ + qG)/2^256 plus (3 qG + 2) times the probability of decryption failures (2^-123, 2^-148, 2^-161 for the three parameter sets, plus the advantages of C81). The general form holds for every KEM built like this and every simulated ciphertext.", "quantifier": "all attacks, any number of decapsulation queries, all functions from seeds to matrices, all functions H", "why_tests_cant": "Security is about all attacks; a test runs one.", "anchors": ["ref/kem.c:crypto_kem_enc_derand", "ref/kem.c:crypto_kem_dec", "ref/kem.c:crypto_kem_keypair_derand", "ref/indcpa.c:indcpa_enc", "avx2/kem.c:crypto_kem_enc_derand"]}
{"id": "C87", "title": "ML-KEM is anonymous against chosen-ciphertext attacks", "statement": "An attack that knows two public keys, gets an encapsulation with its secret for one of them, may ask G and J anywhere and both decapsulations of all other ciphertexts, tells for which key it was made by at most the sum of the bounds of C86 for two attacks that make the other key pair themselves. These ask one more key generation, and one query to G and to J more for each decapsulation with the own key pair: (4 (qK + 1) + 4 (qJ + qD) + 2 (qG + qD))/2^256 plus (6 (qG + qD) + 4) times the probability of failures, plus the advantages against PRF and Module-LWE. The probability of each guess equals exactly that of the attack with an own key pair.", "quantifier": "all attacks, all functions from seeds to matrices, all functions H", "why_tests_cant": "Anonymity is about all attacks; a test runs one.", "anchors": ["ref/kem.c:crypto_kem_enc_derand", "ref/kem.c:crypto_kem_dec", "ref/kem.c:crypto_kem_keypair_derand", "ref/indcpa.c:indcpa_enc", "avx2/kem.c:crypto_kem_enc_derand"]}
{"id": "C88", "title": "Known answers: the first test vectors", "statement": "For each of the three parameter sets the first test vector of test_vectors.c (encapsulation key, decapsulation key, ciphertext, shared secret, and the key for a random ciphertext) is given in literal bytes that were computed outside Lean, by a program that reproduces the hash sums of all 10000 vectors in SHA256SUMS. The algorithms of the standard, crypto_kem_keypair_derand, crypto_kem_enc_derand and crypto_kem_dec of ref/, and those of avx2/ for every content of the uninitialised bytes, write exactly these bytes and return 0. For the ciphertext with one bit changed decapsulation writes another literal key. test_vectors.c with one test prints exactly this text and returns 0 for both builds, and the text of the program with 10000 tests begins with it. The noise of the known answer is within the decoding threshold, so that the premises of the correctness theorem are satisfiable for every parameter set.", "quantifier": "all parameter sets, all buffers of sufficient size, all contents of uninitialised memory", "why_tests_cant": "A test of the compiled program compares one run on one machine; the theorem ties the model, the specification and the literals together for every buffer and every content of uninitialised memory, and shows that the specification is the intended function and not one that merely agrees with the model.", "anchors": ["ref/kem.c:crypto_kem_keypair_derand", "ref/kem.c:crypto_kem_enc_derand", "ref/kem.c:crypto_kem_dec", "avx2/kem.c:crypto_kem_keypair_derand", "avx2/kem.c:crypto_kem_enc_derand", "avx2/kem.c:crypto_kem_dec", "ref/test/test_vectors.c:main", "avx2/test/test_vectors.c:main", "SHA256SUMS"]}
{"id": "C89", "title": "Encapsulation keys and random strings", "statement": "The modulus check of FIPS 203, section 7.2, accepts a string of the length of an encapsulation key if and only if its 12-bit integers are below q, if and only if it encodes a vector over Z_q and a seed, and if and only if the reduction of C31 does not change it. The public keys that crypto_kem_keypair_derand writes pass the check, in both builds. Of all strings exactly the fraction (3329/4096)^(256 k) passes, less than 2^-153, 2^-229, 2^-306, so the check tells keys from random strings with advantage 1 minus this. From a random string that passes, every test tells keys exactly as well as the distinguishers made from it break PRF and Module-LWE.", "quantifier": "all key strings, all seeds, all functions from seeds to matrices, all tests; three parameter sets; exact averages over all keys and all strings", "why_tests_cant": "Averages over 2^6400 strings; hardly any string a test draws passes the check, and the comparison with random strings that pass is about all tests.", "anchors": ["ref/kem.c:crypto_kem_keypair_derand", "ref/indcpa.c:pack_pk", "ref/indcpa.c:unpack_pk", "avx2/kem.c:crypto_kem_keypair_derand", "avx2/indcpa.c:pack_pk"]}
{"id": "C90", "title": "What the parts of a secret key are for", "statement": "A secret key is s, ek, h, z. The keys that crypto_kem_keypair_derand writes pass the hash check of FIPS 203, section 7.3; crypto_kem_dec does not make it and decapsulates with every string of the right length. Two secret keys that differ in z only both accept a ciphertext and return the same secret, or both reject it and return the rejection values of their z. Secret keys whose integers for s and t agree modulo q, with the same seed, h and z, return the same secret for every ciphertext. If only h differs, a ciphertext accepted under the first gives different secrets, or an explicit collision of SHA3-512. A ciphertext that two keys with the same z reject gives the same secret however else they differ.", "quantifier": "all secret key strings, honest or not, and all ciphertext strings; three parameter sets; each call by either build", "why_tests_cant": "The keys and ciphertexts are arbitrary strings; that the decision to accept never depends on z, and that the encoding of a residue never matters, are about pairs of runs.", "anchors": ["ref/kem.c:crypto_kem_dec", "ref/kem.c:crypto_kem_keypair_derand", "avx2/kem.c:crypto_kem_dec", "avx2/kem.c:crypto_kem_keypair_derand", "ref/indcpa.c:unpack_sk"]}
{"id": "C91", "title": "Programs that use the KEM", "statement": "A program makes any number of calls of crypto_kem_keypair, crypto_kem_enc and crypto_kem_dec one after the other; which call comes next, and with which keys and ciphertexts, may depend in any way on the results so far; each call goes to either build. It ends, is aborted, or has not ended exactly as with ML-KEM.KeyGen, Encaps and Decaps of FIPS 203 on the bytes of the operating system, with the same value and the operating system in the same state; nothing is undefined, and no program can tell the builds apart by results. Two programs that make the same sequence of calls as long as the seeds of their keys agree leak the same through branches and addresses of all calls together, whatever their secret keys, messages, ciphertexts and shared secrets. A key pair that was generated can be used without longer sampling loops.", "quantifier": "all programs with arguments of the announced lengths, all behaviours of the operating system, every assignment of builds to calls, all contents of uninitialised memory; three parameter sets; for the leakage all pairs of runs", "why_tests_cant": "A test is one program with one stream of random bytes; adaptive programs and pairs of runs of them cannot be enumerated.", "anchors": ["ref/kem.c:crypto_kem_keypair", "ref/kem.c:crypto_kem_enc", "ref/kem.c:crypto_kem_dec", "avx2/kem.c:crypto_kem_keypair", "avx2/kem.c:crypto_kem_enc", "avx2/kem.c:crypto_kem_dec", "ref/randombytes.c:randombytes"]}
{"id": "C92", "title": "What decryption without the comparison gives away", "statement": "There are 3k ciphertexts of the announced length, the same for all keys, such that the messages indcpa_dec of either build writes for them determine the secret key of every key pair indcpa_keypair_derand of either build makes: an explicit formula gives the secret key from the messages. 2k ciphertexts never suffice: however each is chosen from the answers before, two different secret keys with small coefficients give the same answers. Who only learns whether the decryption of a ciphertext is a given message gets the secret key with 1536k fixed questions. So crypto_kem_dec without the comparison of the ciphertexts, which would return the first 32 bytes of G(message, H(ek)) for every ciphertext, gives away the secret vector with 1536k ciphertexts and hashes that need the public key only, unless two named strings collide under this hash.", "quantifier": "all key pairs of the standard and of both builds, also all secret keys with coefficients between -eta and eta; for the lower bound all adaptive strategies; three parameter sets", "why_tests_cant": "A test can recover some keys; that the same ciphertexts recover every key, and that no strategy does with 2k, is a statement about all keys and all strategies.", "anchors": ["ref/indcpa.c:indcpa_dec", "ref/indcpa.c:indcpa_keypair_derand", "avx2/indcpa.c:indcpa_dec", "avx2/indcpa.c:indcpa_keypair_derand", "ref/kem.c:crypto_kem_dec"]}
{"id": "C93", "title": "Flipped ciphertext bits and repeated coins in K-PKE", "statement": "Flipping the highest bit of coefficient n of v in a ciphertext flips bit n of the message that indcpa_dec of either build writes, and no other bit, for every secret key string and every ciphertext string, unless the value that is rounded to this bit is 832 or -832 modulo q. So an encryption that decrypts correctly, with noise other than 832 and -832 at this place, can be turned without any key into a ciphertext of the message with one chosen bit flipped. If indcpa_enc of one of the builds is called twice with the same public key and the same coins, the ciphertexts agree in u, and an explicit formula gives the second message from the first message and the two ciphertexts. (ML-KEM needs its comparison of ciphertexts and its derivation of the coins from the message.)", "quantifier": "all secret keys, ciphertexts and places n; all key strings, messages and coins for which the sampling of the matrix ends; three parameter sets, both builds", "why_tests_cant": "The claims are about all keys, ciphertexts, messages and coins.", "anchors": ["ref/indcpa.c:indcpa_dec", "ref/indcpa.c:indcpa_enc", "avx2/indcpa.c:indcpa_dec", "avx2/indcpa.c:indcpa_enc"]}
{"id": "C94", "title": "Names and types across the source files", "statement": "In every executable of the two Makefiles each external name has exactly one definition, each name used has one, and no definition takes the place of a library function the program calls. The three namespace macros never give two names the same spelling, for whatever arguments. Any of the shared libraries can be loaded together in any order: each name is found in the library of its own namespace, and randombytes is the only name the KEM libraries leave to the application besides the hash libraries. The functions of api.h are defined in the KEM libraries with the types written there. Every function is declared with the type it is defined with, for each of the usual data models, except for randombytes in PQCgenKAT_kem and the four-state permutation in all programs of avx2/; C leaves a program with such declarations undefined. The declarations without a definition are nttpack_avx and cmov_int16 in avx2/. The hash library of avx2/ is written to a file with the name of that of ref/ and has none of the names that the KEM libraries of ref/ need. No library has an object of static storage duration that can be written, so calls share no memory; the executables keep only the objects of the test files and of nistkat/rng.c.", "quantifier": "all arguments of the macros; all lists of loaded libraries; all executables and libraries, three parameter sets, both builds, three data models", "why_tests_cant": "A linker does not compare types, and a test run loads the libraries in one order only.", "anchors": ["ref/Makefile", "avx2/Makefile", "ref/params.h:KYBER_NAMESPACE", "avx2/params.h:KYBER_NAMESPACE", "ref/fips202.h:FIPS202_NAMESPACE", "avx2/fips202x4.c:KeccakF1600_StatePermute4x", "ref/nistkat/rng.c:randombytes", "ref/api.h", "avx2/ntt.h:nttpack_avx"]}
{"id": "C95", "title": "Chosen-ciphertext security of ML-KEM with many key pairs and many encapsulations", "statement": "In the game of C82 with n key pairs and N encapsulations (each for one of the key pairs, all with the same random functions G and J), an attack that knows all public keys, may ask G and J anywhere and every key pair for the decapsulations of all ciphertexts that were not made for it, tells the N secrets from independent ones by at most the sum over the encapsulations of the bounds of C82 for N attacks. These run the attack once and make all other key pairs and encapsulations themselves, by n more queries for key generations, N + qD more to G and qD more to J: N ((2 (qK + n) + 2 (qJ + qD) + qG + qD + N)/2^256 + 3 (qG + qD + N + 1) times the probability of failures), plus the advantages against PRF and Module-LWE. Whichever of the other encapsulations come with their secrets, the probability of a guess equals exactly that of such an attack. With one key pair and one encapsulation the game is that of C82.", "quantifier": "all numbers of key pairs and encapsulations, all assignments of encapsulations to key pairs, all attacks, all functions from seeds to matrices, all functions H", "why_tests_cant": "Security against many keys at once is about all attacks; a test runs one, on a few keys.", "anchors": ["ref/kem.c:crypto_kem_enc_derand", "ref/kem.c:crypto_kem_dec", "ref/kem.c:crypto_kem_keypair_derand", "avx2/kem.c:crypto_kem_enc_derand"]}
{"id": "C96", "title": "The comparison in decapsulation must cover every byte of the ciphertext", "statement": "Every byte of a ciphertext has a bit, the same one for all keys and ciphertexts, that K-PKE decryption ignores when each value it rounds is within 620 of the value of a bit (832 is the threshold). For every key pair, every encapsulation with noise within that margin and every byte position there is therefore another ciphertext, different in that byte only, for which decapsulation gives the shared secret with any comparison that accepts equal strings and does not look at that byte; with the comparison of the standard and of the code it gives the rejection secret. In particular verify with any length below KYBER_CIPHERTEXTBYTES would not do: with length n, in both builds, it is the comparison of the first n bytes.", "quantifier": "all key pairs, messages, byte positions, comparisons, lengths; three parameter sets; both builds of verify", "why_tests_cant": "Tests with a few changed ciphertexts pass if the comparison leaves out a byte that none of them changes, and most changes of a byte do change the message; the other ciphertext has to be chosen.", "anchors": ["ref/kem.c:crypto_kem_dec", "avx2/kem.c:crypto_kem_dec", "ref/verify.c:verify", "avx2/verify.c:verify"]}
{"id": "C97", "title": "What the test script decides", "statement": "Executed as a file, runtests.sh performs exactly this: for ref, and for avx2 if the architecture is amd64 and the system is not osx, make clean, make, for each parameter set test_kyber under valgrind, test_kyber, and test_vectors with its output to tvecs, then shasum -c; it ends with 0 exactly if all these commands return 0, and otherwise with the status of the first that does not, after which none is performed. make finds CC=/usr/bin/gcc on amd64 and arm64. If it ends with 0, the output of test_vectors has the sum listed in SHA256SUMS for each directory and parameter set. It then has not the sum that the META file states, for any of them. Run as `sh runtests.sh` it ends with 0 whatever the commands return. The variable nproc has no effect. The programs run are goals of make that make clean has removed before. runlcov.sh likewise performs exactly its 18 commands and ends with 0 exactly if they do.", "quantifier": "all hosts (effects, status and output of all commands), all environments, with and without -e", "why_tests_cant": "A script that misses a failure looks the same as one that finds none, until there is one.", "anchors": ["runtests.sh", "runlcov.sh", "SHA256SUMS", "Kyber512_META.yml", "ref/Makefile", "avx2/Makefile"]}
{"id": "C98", "title": "What make leaves out of date", "statement": "After any history of edits, removals and builds, make of a target leaves it made from the present versions of all its prerequisites, and from the present versions of all files it reads if the target was removed first. The files that a command reads and its rule does not list are exactly: randombytes.h, reduce.h and fips202.h for the KEM libraries of ref; randombytes.h and reduce.h for all programs of ref; fips202.h and fips202x4.h for the KEM libraries of avx2; fips202.h for libpqcrystals_fips202x4_avx2.so; fips202x4.h for the Keccak object file of avx2; none for the other targets. After an edit of a file, make brings a target that has been made up to date with it exactly if the file is not among these; otherwise make does nothing. A program of avx2 made after an edit of fips202x4.h has the new header and the old object file. The source lists of the META files have all sources that the Makefiles link, and of the files they include only randombytes.h is missing.", "quantifier": "both Makefiles, all targets, all files, all histories", "why_tests_cant": "The test script cleans first; the stale library appears only in an incremental build after an edit of one of these headers.", "anchors": ["ref/Makefile", "avx2/Makefile", "Common_META.yml", "Kyber512_META.yml", "Kyber768_META.yml", "Kyber1024_META.yml"]}
{"id": "C99", "title": "The hash calls of ML-KEM do not meet", "statement": "All of G, H, J, the XOF and PRF are the one function KECCAK. Two calls of ML-KEM that give KECCAK the same capacity and bits are the same call: the same purpose (seed expansion, coins, hash of the key, rejection, matrix entry, noise) and the same values, over all parameter sets together; likewise for the padded bits, and for the calls with one block (all but H and J) also the first states of the permutation differ. Hence for any choice of answers to all calls there is a function in the place of KECCAK that gives them, and a random function gives independent uniform answers. With one function of 64 bytes, chosen uniformly on the inputs of G and J, in the place of KECCAK, the algorithms of FIPS 203 are those of the chosen-ciphertext game with many keys and encapsulations, its probabilities are those with separate random functions, and the bounds of C95 hold. The results of key generation, encapsulation and decapsulation depend on KECCAK only through the listed calls, and in one run no input occurs twice. Beginnings of inputs are not separate: the first block of J(z,c) can be the block of PRF(z,n), for every z and n.", "quantifier": "all parameter sets, all values of the proper lengths, all functions in the place of KECCAK", "why_tests_cant": "A repeated counter or two purposes with a common input give valid-looking outputs; nothing fails.", "anchors": ["ref/symmetric.h", "ref/symmetric-shake.c", "ref/indcpa.c", "ref/kem.c", "ref/fips202.c"]}
