{"id": "C01", "title": "Key generation follows the Saber specification", "statement": "crypto_kem_keypair, fed with any 96 random bytes, returns 0 and writes exactly the key pair that the mathematical Saber specification (ring arithmetic in Z_q[X]/(X^256+1), FIPS 202 hashes, little-endian bit packing) assigns to those bytes: pk = pack10(round(A^T s)) || seed_A and sk = pack13(s) || pk || SHA3-256(pk) || z.", "quantifier": "every value of the random bytes drawn, for each of the three parameter sets LightSaber, Saber, FireSaber", "why_tests_cant": "KATs check 100 seeds; the random tape has 2^768 values and every carry/wrap path of the multiplication must agree.", "anchors": ["Reference_Implementation_KEM/kem.c:crypto_kem_keypair", "Reference_Implementation_KEM/SABER_indcpa.c:indcpa_kem_keypair"]}
{"id": "C02", "title": "Encapsulation follows the Saber specification", "statement": "crypto_kem_enc, for any public key byte string of the right length and any 32 random bytes, returns 0 and writes exactly the ciphertext and shared secret the specification assigns to them.", "quantifier": "every public key byte string (also malformed or adversarial ones), every random tape, three parameter sets", "why_tests_cant": "Adversarial public keys are never in the KATs; the input space is astronomically large.", "anchors": ["Reference_Implementation_KEM/kem.c:crypto_kem_enc", "Reference_Implementation_KEM/SABER_indcpa.c:indcpa_kem_enc"]}
{"id": "C03", "title": "Decapsulation follows the Saber specification", "statement": "crypto_kem_dec, for any ciphertext and any secret key byte strings of the right length, returns 0 and writes exactly the 32 bytes the specification assigns to them (including on invalid ciphertexts).", "quantifier": "every ciphertext byte string and every secret key byte string, three parameter sets", "why_tests_cant": "Invalid ciphertexts and corrupted keys cannot be enumerated.", "anchors": ["Reference_Implementation_KEM/kem.c:crypto_kem_dec", "Reference_Implementation_KEM/SABER_indcpa.c:indcpa_kem_dec"]}
{"id": "C04", "title": "No undefined behaviour in keypair/encaps/decaps", "statement": "For input and output buffers of the documented sizes, none of the three KEM entry points reads or writes outside an array, reads an uninitialised local, overflows a signed integer or shifts a signed integer illegally, whatever the bytes are.", "quantifier": "every content of every input buffer, three parameter sets", "why_tests_cant": "Sanitizers only see the executed inputs; overflow of signed intermediates depends on data values.", "anchors": ["Reference_Implementation_KEM/kem.c", "Reference_Implementation_KEM/SABER_indcpa.c", "Reference_Implementation_KEM/poly.c", "Reference_Implementation_KEM/poly_mul.c", "Reference_Implementation_KEM/pack_unpack.c", "Reference_Implementation_KEM/cbd.c", "Reference_Implementation_KEM/fips202.c", "Reference_Implementation_KEM/verify.c"]}
{"id": "C05", "title": "Encapsulation then decapsulation agree on the key", "statement": "If the accumulated rounding noise of the honest exchange is inside the decoding interval at all 256 positions, then decapsulating the ciphertext produced by encapsulation with the matching secret key gives the same 32-byte shared secret.", "quantifier": "every key-generation tape and encapsulation tape satisfying the noise bound, three parameter sets", "why_tests_cant": "Tests only sample seeds; the agreement must follow from the noise bound for all seeds.", "anchors": ["Reference_Implementation_KEM/kem.c:crypto_kem_enc", "Reference_Implementation_KEM/kem.c:crypto_kem_dec"]}
{"id": "C06", "title": "Exact decryption-failure criterion", "statement": "Public-key decryption of an honest encryption returns message bit i correctly if and only if the noise polynomial (a fixed expression of the rounding errors, s and s') has its i-th coefficient in an explicit half-open interval modulo p.", "quantifier": "every message, matrix seed, secret vector, ephemeral vector and coefficient index", "why_tests_cant": "Failures have probability below 2^-120 and are never observed by tests.", "anchors": ["Reference_Implementation_KEM/SABER_indcpa.c:indcpa_kem_enc", "Reference_Implementation_KEM/SABER_indcpa.c:indcpa_kem_dec", "Reference_Implementation_KEM/SABER_indcpa.c:h1", "Reference_Implementation_KEM/SABER_indcpa.c:h2"]}
{"id": "C07", "title": "Implicit rejection", "statement": "If re-encrypting the decrypted message does not reproduce the received ciphertext byte for byte, decapsulation still returns 0 and its key is SHA3-256(z || SHA3-256(c)), where z is the last 32 bytes of the secret key; it does not depend on any other part of the secret key.", "quantifier": "every ciphertext and secret key whose re-encryption differs in at least one byte", "why_tests_cant": "Needs all invalid ciphertexts, including those differing in a single bit.", "anchors": ["Reference_Implementation_KEM/kem.c:crypto_kem_dec", "Reference_Implementation_KEM/verify.c:verify", "Reference_Implementation_KEM/verify.c:cmov"]}
{"id": "C08", "title": "A ciphertext is accepted only if it is the exact honest encryption", "statement": "Decapsulation derives the key from the decrypted message (non-rejection branch) if and only if the received ciphertext equals, byte for byte, the deterministic encryption of that message under the embedded public key; in particular any modification of an accepted ciphertext that decrypts to the same message is rejected.", "quantifier": "every ciphertext, every secret key", "why_tests_cant": "Universal over all bit flips of all ciphertexts.", "anchors": ["Reference_Implementation_KEM/kem.c:crypto_kem_dec", "Reference_Implementation_KEM/verify.c:verify"]}
{"id": "C09", "title": "verify is an exact comparison for every length", "statement": "verify(a,b,len) returns 0 if the first len bytes agree and 1 otherwise, for every length.", "quantifier": "all byte strings of every length", "why_tests_cant": "Unbounded lengths; a fold that loses a byte or saturates would only show up on special data.", "anchors": ["Reference_Implementation_KEM/verify.c:verify"]}
{"id": "C10", "title": "cmov is an exact conditional move", "statement": "cmov(r,x,len,1) replaces the first len bytes of r by those of x, cmov(r,x,len,0) leaves r unchanged, bytes past len never change, and nothing is accessed out of bounds.", "quantifier": "all byte strings, all lengths, both flag values", "why_tests_cant": "Unbounded lengths and contents.", "anchors": ["Reference_Implementation_KEM/verify.c:cmov"]}
{"id": "C11", "title": "Polynomial multiplication is ring multiplication modulo q", "statement": "The multiply-accumulate routine adds the product a*b in Z[X]/(X^256+1) to the accumulator, correctly modulo 2^13 in each of the 256 coefficients, for arbitrary 16-bit operands (no smallness assumption), in spite of the inexact right shifts in the Toom-Cook interpolation.", "quantifier": "all pairs of 256-coefficient arrays of arbitrary 16-bit values and all accumulators", "why_tests_cant": "2^8192 operand pairs; rounding losses of the interpolation show only on special carries.", "anchors": ["Reference_Implementation_KEM/poly_mul.c:poly_mul_acc", "Reference_Implementation_KEM/poly_mul.c:toom_cook_4way", "Reference_Implementation_KEM/poly_mul.c:karatsuba_simple"]}
{"id": "C12", "title": "Precision of the multiplication is exactly 13 bits", "statement": "The multiplication result is in general not correct modulo 2^14: there are operands for which a coefficient is wrong at bit 13, so 13 bits is the strongest universally valid precision.", "quantifier": "existence of a counterexample for 14 bits; all inputs for 13 bits", "why_tests_cant": "Random tests would not tell whether a larger modulus is safe for all inputs.", "anchors": ["Reference_Implementation_KEM/poly_mul.c:toom_cook_4way"]}
{"id": "C13", "title": "64-coefficient multiplication is exact modulo 2^16", "statement": "The inner Karatsuba routine computes the full 127-coefficient product of two 64-coefficient polynomials exactly modulo 2^16.", "quantifier": "all pairs of 64-coefficient arrays of 16-bit values", "why_tests_cant": "2^2048 operand pairs.", "anchors": ["Reference_Implementation_KEM/poly_mul.c:karatsuba_simple"]}
{"id": "C14", "title": "Matrix-vector and inner products", "statement": "The matrix-vector routine adds A*s (or A^T*s when the transpose flag is 1) to the accumulator and the inner-product routine adds sum b_j*s_j, over Z_q[X]/(X^256+1) modulo q, for arbitrary 16-bit operands.", "quantifier": "all matrices, vectors and accumulators, both flag values, three ranks", "why_tests_cant": "Transposition errors are invisible when matrix is symmetric-ish or ranks are equal; must hold for all matrices.", "anchors": ["Reference_Implementation_KEM/poly.c:MatrixVectorMul", "Reference_Implementation_KEM/poly.c:InnerProd"]}
{"id": "C15", "title": "Key exchange values agree before rounding", "statement": "For every matrix A and vectors s, s', the value computed from A^T s by the encryptor and the value computed from A s' by the decryptor are equal in the ring: <A^T s, s'> = <s, A s'>.", "quantifier": "all matrices and vectors", "why_tests_cant": "Algebraic identity over an enormous space.", "anchors": ["Reference_Implementation_KEM/poly.c:MatrixVectorMul", "Reference_Implementation_KEM/poly.c:InnerProd"]}
{"id": "C16", "title": "13-bit packing round trip", "statement": "Packing a polynomial vector into secret key bytes and unpacking it returns every coefficient modulo 2^13; unpacking any byte string and packing it again returns the same bytes; bit n of the byte stream is bit n mod 13 of coefficient n div 13.", "quantifier": "all coefficient arrays and all byte strings, at every offset", "why_tests_cant": "Needs all bit patterns at all positions.", "anchors": ["Reference_Implementation_KEM/pack_unpack.c:POLVECq2BS", "Reference_Implementation_KEM/pack_unpack.c:BS2POLVECq"]}
{"id": "C17", "title": "10-bit packing round trip", "statement": "Same as the previous property for the 10-bit packing used in public keys and ciphertexts.", "quantifier": "all coefficient arrays and all byte strings, at every offset", "why_tests_cant": "Needs all bit patterns at all positions.", "anchors": ["Reference_Implementation_KEM/pack_unpack.c:POLVECp2BS", "Reference_Implementation_KEM/pack_unpack.c:BS2POLVECp"]}
{"id": "C18", "title": "Compressed-coefficient packing round trip (3, 4 and 6 bits)", "statement": "Same property for the second ciphertext component, for each of the three widths selected by the parameter set.", "quantifier": "all coefficient arrays and all byte strings, three widths", "why_tests_cant": "Needs all bit patterns at all positions.", "anchors": ["Reference_Implementation_KEM/pack_unpack.c:POLT2BS", "Reference_Implementation_KEM/pack_unpack.c:BS2POLT"]}
{"id": "C19", "title": "Message encoding round trip", "statement": "Expanding 32 message bytes into 256 bits and collecting them again is the identity; collecting uses only the lowest bit of each coefficient.", "quantifier": "all messages and all coefficient arrays", "why_tests_cant": "2^256 messages.", "anchors": ["Reference_Implementation_KEM/pack_unpack.c:BS2POLmsg", "Reference_Implementation_KEM/pack_unpack.c:POLmsg2BS"]}
{"id": "C20", "title": "Secret sampling is the centred binomial map", "statement": "Each secret coefficient is HW(x) - HW(y), where x and y are the two consecutive MU/2-bit fields of the input bit stream, stored modulo 2^16; it lies in [-MU/2, MU/2] and, over uniform input bits, value v is hit by exactly binomial(MU, MU/2 + v) of the 2^MU bit patterns.", "quantifier": "all input buffers, MU in {6, 8, 10}", "why_tests_cant": "Distribution and range statement over all inputs.", "anchors": ["Reference_Implementation_KEM/cbd.c:cbd", "Reference_Implementation_KEM/poly.c:GenSecret"]}
{"id": "C21", "title": "Public matrix expansion", "statement": "Entry (i,j) of the public matrix is the 13-bit little-endian unpacking of bytes [(i*L+j)*416, (i*L+j+1)*416) of SHAKE128(seed), so every coefficient is in [0, q) and distinct entries use disjoint parts of the stream.", "quantifier": "all seeds, all ranks, all indices", "why_tests_cant": "2^256 seeds.", "anchors": ["Reference_Implementation_KEM/poly.c:GenMatrix"]}
{"id": "C22", "title": "Secret vector expansion", "statement": "Polynomial i of the secret vector is the binomial sample of bytes [i*c, (i+1)*c) of SHAKE128(seed), c = MU*32.", "quantifier": "all seeds, all ranks, all indices", "why_tests_cant": "2^256 seeds.", "anchors": ["Reference_Implementation_KEM/poly.c:GenSecret", "Reference_Implementation_KEM/cbd.c:cbd"]}
{"id": "C23", "title": "Keccak permutation is Keccak-f[1600] of FIPS 202", "statement": "The unrolled permutation equals the composition of the 24 rounds theta, rho, pi, chi, iota of FIPS 202, with round constants given by the FIPS LFSR.", "quantifier": "all 2^1600 states", "why_tests_cant": "A wrong rotation or lane would usually be caught by a KAT but equality for all states is not.", "anchors": ["Reference_Implementation_KEM/fips202.c:KeccakF1600_StatePermute", "Reference_Implementation_KEM/fips202.c:KeccakF_RoundConstants"]}
{"id": "C24", "title": "SHA3-256 and SHA3-512 equal FIPS 202 for every message", "statement": "sha3_256 and sha3_512 write the first 32/64 bytes of the FIPS 202 sponge with pad10*1 and suffix 01 over the input, for every input length, and write no other byte.", "quantifier": "all byte strings of every length", "why_tests_cant": "Padding corner cases (length = rate-1, rate, multiples) for unbounded lengths.", "anchors": ["Reference_Implementation_KEM/fips202.c:sha3_256", "Reference_Implementation_KEM/fips202.c:sha3_512", "Reference_Implementation_KEM/fips202.c:keccak_absorb"]}
{"id": "C25", "title": "SHAKE128 equals FIPS 202 for every input and output length", "statement": "shake128(out, outlen, in, inlen) writes the first outlen bytes of the FIPS 202 XOF SHAKE128 on the input, for every inlen and outlen, and no other byte.", "quantifier": "all byte strings, all output lengths", "why_tests_cant": "Unbounded lengths in both directions.", "anchors": ["Reference_Implementation_KEM/fips202.c:shake128", "Reference_Implementation_KEM/fips202.c:keccak_squeezeblocks"]}
{"id": "C26", "title": "SHAKE128 output is a stream", "statement": "A shorter SHAKE128 output is a prefix of a longer one for the same input.", "quantifier": "all inputs, all pairs of output lengths", "why_tests_cant": "Unbounded lengths; block-boundary errors.", "anchors": ["Reference_Implementation_KEM/fips202.c:shake128"]}
{"id": "C27", "title": "Hashing in place is safe", "statement": "Calling a hash function with input and output in the same object, e.g. sha3_256(buf, buf, 32) or shake128(seed, 32, seed, 32), gives the digest of the original content of the input however the two overlap, and changes nothing else; this holds for sha3_256, sha3_512, shake128 and for the functions of the 90s variants (SHA-256, SHA-512, AES-256 in counter mode, also with AES-NI), of the Cortex-M0 port and of the four-fold implementation.", "quantifier": "all contents, lengths and positions of input and output", "why_tests_cant": "Aliasing order must be right for all contents.", "anchors": ["Reference_Implementation_KEM/kem.c:crypto_kem_enc", "Reference_Implementation_KEM/SABER_indcpa.c:indcpa_kem_keypair", "Variants/uSaber-90s/ref/SABER_indcpa.c:indcpa_kem_keypair", "Variants/uSaber-90s/ref/aes256ctr.c:aes256ctr_prf"]}
{"id": "C28", "title": "RNG consumption is fixed", "statement": "Key generation makes exactly three 32-byte requests to randombytes in the order seed_A, seed_s, z, encapsulation makes exactly one 32-byte request, decapsulation makes none; outputs depend on the RNG only through those bytes.", "quantifier": "every RNG state and implementation", "why_tests_cant": "A statement over all RNG behaviours.", "anchors": ["Reference_Implementation_KEM/kem.c", "Reference_Implementation_KEM/SABER_indcpa.c"]}
{"id": "C29", "title": "Raw RNG output is not published", "statement": "The public key and the ciphertext depend on the first key-generation random block only through its SHAKE128 digest and on the encapsulation random block only through its SHA3-256 digest.", "quantifier": "all pairs of random tapes with equal digests", "why_tests_cant": "A non-interference statement over pairs of executions.", "anchors": ["Reference_Implementation_KEM/SABER_indcpa.c:indcpa_kem_keypair", "Reference_Implementation_KEM/kem.c:crypto_kem_enc"]}
{"id": "C30", "title": "Secret key layout and sizes", "statement": "The secret key is s || pk || SHA3-256(pk) || z with the embedded public key byte-identical to the returned public key; output lengths equal the constants of api.h for all three parameter sets (672/992/1312 pk, 1568/2304/3040 sk, 736/1088/1472 ct).", "quantifier": "all tapes, three parameter sets", "why_tests_cant": "Offsets must be right for all contents.", "anchors": ["Reference_Implementation_KEM/api.h", "Reference_Implementation_KEM/SABER_params.h", "Reference_Implementation_KEM/kem.c:crypto_kem_keypair"]}
{"id": "C31", "title": "DRBG output and state update", "statement": "randombytes(x, n) writes the first n bytes of AES_K(V+1) || AES_K(V+2) || ..., then replaces (K,V) by the SP 800-90A CTR_DRBG update, V being a 128-bit big-endian counter that wraps; it always returns 0.", "quantifier": "all DRBG states, all lengths, any block cipher in place of AES", "why_tests_cant": "Unbounded lengths and all counter values including wrap-around.", "anchors": ["Reference_Implementation_KEM/rng.c:randombytes", "Reference_Implementation_KEM/rng.c:AES256_CTR_DRBG_Update", "Reference_Implementation_KEM/rng.c:randombytes_init"]}
{"id": "C32", "title": "DRBG history safety", "statement": "Over any history of calls starting from initialisation, fewer than 2^31-1 calls to randombytes cause no undefined behaviour; the (2^31-1)-th call overflows the signed reseed counter.", "quantifier": "all call histories", "why_tests_cant": "2^31 calls are outside of any test.", "anchors": ["Reference_Implementation_KEM/rng.c:randombytes", "Reference_Implementation_KEM/rng.h:AES256_CTR_DRBG_struct"]}
{"id": "C33", "title": "Seed expander budget", "statement": "Over any history of requests to an initialised seed expander with budget maxlen < 2^32, the total number of bytes ever returned is at most maxlen-1 (the last byte is never delivered), a rejected request changes nothing, the 32-bit block counter never wraps.", "quantifier": "all request histories, all budgets", "why_tests_cant": "Quantifies over unbounded histories.", "anchors": ["Reference_Implementation_KEM/rng.c:seedexpander", "Reference_Implementation_KEM/rng.c:seedexpander_init"]}
{"id": "C34", "title": "Seed expander output does not depend on chunking", "statement": "The concatenation of the outputs of any sequence of accepted requests is the prefix of the fixed key stream AES_K(ctr) || AES_K(ctr+1) || ...; hence any two ways of splitting the same total give the same bytes.", "quantifier": "all request sequences", "why_tests_cant": "Unbounded sequences of lengths.", "anchors": ["Reference_Implementation_KEM/rng.c:seedexpander"]}
{"id": "C35", "title": "uSaber: sampling and 12-bit packing", "statement": "In the uSaber variant each secret coefficient is in [-2, 1], uniform over the four 2-bit patterns, and the 12-bit packing of secret keys round-trips in both directions; with q = 2^12 the scheme functions follow the uSaber specification.", "quantifier": "all inputs, three ranks", "why_tests_cant": "All bit patterns.", "anchors": ["Variants/uSaber-90s/ref/cbd.c", "Variants/uSaber-90s/ref/pack_unpack.c", "Variants/uSaber-90s/ref/SABER_indcpa.c"]}
{"id": "C36", "title": "Cortex-M4 streaming implementation computes the same keys and ciphertexts", "statement": "The M4 key generation, encryption and decryption (streamed matrix expansion, unreduced unpacking, fused re-encryption and comparison) give the same bytes as the reference implementation for the same random bytes.", "quantifier": "all tapes, public keys, ciphertexts", "why_tests_cant": "Interoperability must hold for all inputs, including non-canonical values left by unreduced unpacking.", "anchors": ["Cortex-M_Implementation_KEM/Cortex-M4/src/saber/m4-striding/SABER_indcpa.c", "Cortex-M_Implementation_KEM/Cortex-M4/src/saber/m4-striding/poly.c", "Cortex-M_Implementation_KEM/Cortex-M4/src/saber/m4-striding/pack_unpack.c", "Cortex-M_Implementation_KEM/Cortex-M4/src/saber/m4-striding/kem.c"]}
{"id": "C37", "title": "Cortex-M4 in-place ciphertext comparison", "statement": "The fused re-encrypt-and-compare routine returns a zero fail flag if and only if the re-encryption equals the received ciphertext byte for byte, and the flag is always 0 or 1.", "quantifier": "all ciphertexts and messages", "why_tests_cant": "Universal over all ciphertext differences.", "anchors": ["Cortex-M_Implementation_KEM/Cortex-M4/src/saber/m4-striding/SABER_indcpa.c:indcpa_kem_enc_cmp", "Cortex-M_Implementation_KEM/Cortex-M4/src/saber/m4-striding/pack_unpack.c:POLp2BS_cmp", "Cortex-M_Implementation_KEM/Cortex-M4/src/saber/m4-striding/pack_unpack.c:POLT2BS_cmp"]}
{"id": "C38", "title": "Cortex-M4 compressed secret key", "statement": "The 4-bit secret compression loses nothing on any value the sampler can output: unpacking a packed secret restores the coefficient (sign-extended).", "quantifier": "all coefficients in the sampler range, all positions", "why_tests_cant": "All bit patterns.", "anchors": ["Cortex-M_Implementation_KEM/Cortex-M4/src/saber/m4-striding/pack_unpack.c:POLmu2BS", "Cortex-M_Implementation_KEM/Cortex-M4/src/saber/m4-striding/pack_unpack.c:BS2POLmu"]}
{"id": "C39", "title": "Cortex-M4 striding interpolation: signed arithmetic", "statement": "Whether the C interpolation of the M4 striding multiplier is free of signed overflow for all inputs (it is not: the products with the modular inverses overflow a 32-bit int for reachable operand values), and that with wrap-around semantics it computes the product modulo 2^13.", "quantifier": "all operand pairs", "why_tests_cant": "Overflow depends on data values, and compilers may exploit it on some inputs only.", "anchors": ["Cortex-M_Implementation_KEM/Cortex-M4/src/saber/m4-striding/poly_mul.c:toom_cook_4way_striding"]}
{"id": "C40", "title": "Cortex-M0 decapsulation stays inside its buffers", "statement": "Whether decryption in the M0 port writes only the 32 message bytes (it does not: 256 16-bit words are written to a 64-byte stack buffer for every input).", "quantifier": "all ciphertexts and keys", "why_tests_cant": "Stack overflow may silently pass tests.", "anchors": ["Cortex-M_Implementation_KEM/Cortex-M0/saber-ref-mem/src/encode.c:ExtractKeyBits", "Cortex-M_Implementation_KEM/Cortex-M0/saber-ref-mem/src/SABER_indcpa.c:indcpa_kem_dec", "Cortex-M_Implementation_KEM/Cortex-M0/saber-ref-mem/src/kem.c:crypto_kem_dec"]}
{"id": "C41", "title": "Cortex-M0 packing and multiplication", "statement": "The M0 port's in-place Karatsuba multiplication, packing and incremental matrix generation compute the same values as the reference; its 3-bit packing does not round trip.", "quantifier": "all inputs", "why_tests_cant": "All bit patterns; buffer carry-over between incremental squeezes must be right at every block boundary.", "anchors": ["Cortex-M_Implementation_KEM/Cortex-M0/saber-ref-mem/src/poly_mul.c", "Cortex-M_Implementation_KEM/Cortex-M0/saber-ref-mem/src/pack_unpack.c", "Cortex-M_Implementation_KEM/Cortex-M0/saber-ref-mem/src/SABER_indcpa.c"]}
{"id": "C42", "title": "KAT hex I/O round trip", "statement": "Reading back with ReadHex a byte string printed by fprintBstr returns the same bytes for every content and length.", "quantifier": "all byte strings", "why_tests_cant": "Unbounded lengths.", "anchors": ["Reference_Implementation_KEM/test/PQCgenKAT_kem.c:ReadHex", "Reference_Implementation_KEM/test/PQCgenKAT_kem.c:fprintBstr"]}
{"id": "C43", "title": "SHA-256 and SHA-512 of the 90s variant", "statement": "sha256 and sha512 of the 90s variant equal FIPS 180-4 for every message length below 2^61 bytes.", "quantifier": "all byte strings of every length", "why_tests_cant": "Padding corner cases for unbounded lengths.", "anchors": ["Variants/uSaber-90s/ref/sha256.c", "Variants/uSaber-90s/ref/sha512.c"]}
{"id": "C44", "title": "AES-256-CTR of the 90s variant", "statement": "The bit-sliced AES-256 in counter mode equals FIPS 197 AES-256 in big-endian counter mode for every key, nonce and output length.", "quantifier": "all keys, nonces, output lengths", "why_tests_cant": "2^256 keys; bit-sliced S-box must be right for all 256 values in all 64 positions.", "anchors": ["Variants/uSaber-90s/ref/aes256ctr.c"]}
{"id": "C45", "title": "Cortex-M0 multiplication: signed overflow", "statement": "Whether the M0 port's polynomial multiplication stays inside int arithmetic for every pair of operands it is called with (it does not: the product of two uint16_t values is computed in int and overflows for reachable operands, for instance a public polynomial with all coefficients q-1 and a secret with all coefficients -1).", "quantifier": "all operand pairs", "why_tests_cant": "Overflow depends on data values and compilers may exploit it on some inputs only; a wrapped result looks right in tests.", "anchors": ["Cortex-M_Implementation_KEM/Cortex-M0/saber-ref-mem/src/poly_mul.c:school_book_mul2_16", "Cortex-M_Implementation_KEM/Cortex-M0/saber-ref-mem/src/poly_mul.c:pol_mul"]}
{"id": "C46", "title": "Cortex-M0 key generation equals the reference", "statement": "For the same random bytes, crypto_kem_keypair of the M0 port produces the public and secret key of the specification of Saber, over whatever function its sponge is linked with, and, if that function is Keccak-f[1600], the same keys as the reference implementation, whatever its static variables contain from earlier calls; by the letter of the C standard the only thing that can go wrong is a signed overflow in the multiplication.", "quantifier": "all random bytes, all earlier contents of the static buffers", "why_tests_cant": "2^768 random inputs; stale static state depends on the history of calls.", "anchors": ["Cortex-M_Implementation_KEM/Cortex-M0/saber-ref-mem/src/kem.c:crypto_kem_keypair", "Cortex-M_Implementation_KEM/Cortex-M0/saber-ref-mem/src/SABER_indcpa.c:indcpa_kem_keypair"]}
{"id": "C47", "title": "Cortex-M0 encapsulation and interoperability", "statement": "What encapsulation of the M0 port computes for every public key; for the same message, coins and key its ciphertext equals that of the reference implementation exactly when no coefficient of <b,s'> is in 60..63 modulo 64 (so the two do not interoperate, with a witness); and decryption into a buffer of 512 bytes recovers message bit i exactly when the noise of the exchange is in range at coefficient i.", "quantifier": "all public keys, messages, coins and static buffer contents", "why_tests_cant": "Rare coefficient values decide; tests of the port against itself do not show the difference to the specification.", "anchors": ["Cortex-M_Implementation_KEM/Cortex-M0/saber-ref-mem/src/kem.c:crypto_kem_enc", "Cortex-M_Implementation_KEM/Cortex-M0/saber-ref-mem/src/SABER_indcpa.c:indcpa_kem_enc", "Cortex-M_Implementation_KEM/Cortex-M0/saber-ref-mem/src/encode.c", "Cortex-M_Implementation_KEM/Cortex-M0/saber-ref-mem/src/SABER_indcpa.c:indcpa_kem_dec"]}
{"id": "C48", "title": "Cortex-M0 random bytes", "statement": "What randombytes of the M0 port returns for every request size and every sequence of hardware words; if the hardware words have 16 bits, half of the bytes of every 32-byte seed are zero (so the seeds have at most 128 bits of entropy).", "quantifier": "all request sizes, offsets and hardware word sequences", "why_tests_cant": "A statement about the entropy for every hardware output.", "anchors": ["Cortex-M_Implementation_KEM/Cortex-M0/saber-ref-mem/src/prng.c:randombytes"]}
{"id": "C49", "title": "Cortex-M0 cSHAKE customisation is ignored", "statement": "cshake128_simple and cshake256_simple of the M0 port return, for every customisation value, the same sponge output with suffix bits 00: the customisation value has no effect.", "quantifier": "all inputs, output lengths and customisation values", "why_tests_cant": "All customisation values and inputs of all lengths.", "anchors": ["Cortex-M_Implementation_KEM/Cortex-M0/saber-ref-mem/src/fips202.c:cshake128_simple", "Cortex-M_Implementation_KEM/Cortex-M0/saber-ref-mem/src/fips202.c:cshake256_simple"]}
{"id": "C50", "title": "Cortex-M4 Karatsuba assembly (striding version)", "statement": "For all contents of the four arrays of 64 coefficients, of the stack and of the registers, the assembly routine kara_strd_mem_asm terminates, returns to its caller, stores the product of its two operands modulo Y^64+1 and 2^16 in the result array, accesses only the four arrays and 60 bytes of stack, and preserves the stack pointer and r4-r11. Consequently the striding multiplication (C code and assembly together) is correct modulo 2^13, and the Cortex-M4 KEM built from it computes the same keys, ciphertexts and shared secrets as the reference.", "quantifier": "all array contents, register contents and stack contents", "why_tests_cant": "2^2048 operand pairs; a wrong register, offset or half in one of 1500 instructions can show for few operands only.", "anchors": ["Cortex-M_Implementation_KEM/Cortex-M4/src/saber/m4-striding/kara.s:kara_strd_mem_asm", "Cortex-M_Implementation_KEM/Cortex-M4/src/saber/m4-striding/kara.s:schoolbook_gen", "Cortex-M_Implementation_KEM/Cortex-M4/src/saber/m4-striding/poly_mul.c:toom_cook_4way_striding"]}
{"id": "C51", "title": "Cortex-M4 Toom-Cook assembly (tc4kara version)", "statement": "For all contents of the three arrays of 256 coefficients, of the stack and of the registers, the assembly routine toom_cook_4way_mem_asm terminates, returns to its caller, adds the product of its operands in Z[X]/(X^256+1) to the result array modulo 2^13, leaves the operands unchanged, accesses only the three arrays and 3552 bytes of stack, and preserves the stack pointer and r4-r11. Consequently the Cortex-M4 KEM built from it computes the same keys, ciphertexts and shared secrets as the reference, and the two Cortex-M4 multiplications agree modulo 2^13.", "quantifier": "all array contents, register contents and stack contents", "why_tests_cant": "2^8192 operand pairs; the interpolation divides by shifts that lose up to three bits, so a wrong shift, constant or carry shows for few operands only.", "anchors": ["Cortex-M_Implementation_KEM/Cortex-M4/src/saber/m4-tc4kara/asm_funcs.S:toom_cook_4way_mem_asm", "Cortex-M_Implementation_KEM/Cortex-M4/src/saber/m4-tc4kara/mult_toom4_256_16.s:karatsuba_64x64", "Cortex-M_Implementation_KEM/Cortex-M4/src/saber/m4-tc4kara/mult_toom4_256_16.s:schoolbook_16x16", "Cortex-M_Implementation_KEM/Cortex-M4/src/saber/m4-tc4kara/poly_mul.c:poly_mul"]}
{"id": "C52", "title": "Cortex-M0 Keccak permutation in assembly", "statement": "For all contents of the 200-byte state, of the registers and of the stack, the assembly routine KeccakF1600_StatePermute of the M0 port terminates, returns to its caller, applies the 24 rounds of Keccak-f[1600] to the state in bit-interleaved representation (even bits of a lane in one word, odd bits in the next), accesses only the state, its table of constants and 64 bytes of stack, and preserves the stack pointer and r4-r12.", "quantifier": "all states, register contents and stack contents", "why_tests_cant": "2^1600 states; the routine keeps lanes in rotating places for four rounds at a time, so a wrong offset or rotation can be hidden by the place a lane happens to be in.", "anchors": ["Cortex-M_Implementation_KEM/Cortex-M0/saber-ref-mem/src/asm_KeccakF-1600.S:KeccakF1600_StatePermute", "Cortex-M_Implementation_KEM/Cortex-M0/saber-ref-mem/src/asm_KeccakF-1600.S:KeccakP1600_StatePermute", "Cortex-M_Implementation_KEM/Cortex-M0/saber-ref-mem/src/asm_KeccakF-1600.S:KeccakRound0"]}
{"id": "C53", "title": "Cortex-M0 hash functions as built", "statement": "Whether the hash functions of the M0 build are those of FIPS 202 and its keys those of the reference implementation (they are not: the C code absorbs and squeezes plain lanes while the linked assembly permutes bit-interleaved lanes; the exact function that SHAKE128, SHA3-256 and SHA3-512 become is given for every input, with a witness of the difference, and the resulting public keys differ from the reference for the same random bytes). Key generation, encapsulation and decryption of the build are those of C46 and C47 over this function.", "quantifier": "all inputs, lengths, random bytes, register and stack contents", "why_tests_cant": "The port is consistent with itself, so a test that only exchanges keys within the port cannot notice; what the functions compute instead must be stated for all inputs.", "anchors": ["Cortex-M_Implementation_KEM/Cortex-M0/saber-ref-mem/Makefile:SABER_SRC", "Cortex-M_Implementation_KEM/Cortex-M0/saber-ref-mem/src/fips202.c:keccak_absorb", "Cortex-M_Implementation_KEM/Cortex-M0/saber-ref-mem/src/fips202.c:keccak_squeezeblocks", "Cortex-M_Implementation_KEM/Cortex-M0/saber-ref-mem/src/asm_KeccakF-1600.S:KeccakF1600_StatePermute", "Cortex-M_Implementation_KEM/Cortex-M0/saber-ref-mem/src/kem.c:crypto_kem_keypair"]}
{"id": "C54", "title": "AVX2 polynomial multiplication", "statement": "For every number of pairs of polynomials with arbitrary 16-bit coefficients, and whatever the working arrays contain, evaluating, multiplying and interpolating with the AVX2 routines gives the sum of the products in Z[X]/(X^256+1) modulo 2^13, agrees modulo 2^13 with the reference multiplication, and accesses nothing outside of its arrays.", "quantifier": "all polynomials, numbers of pairs and contents of the working arrays", "why_tests_cant": "2^8192 pairs of polynomials; the routine loses 3 bits of precision in the interpolation and moves coefficients through transpositions and lane permutations, where a wrong lane affects only some coefficients.", "anchors": ["AVX_Implementation_KEM/polymul/toom-cook_4way.c:toom_cook_4way_avx_n1", "AVX_Implementation_KEM/polymul/toom-cook_4way.c:TC_eval", "AVX_Implementation_KEM/polymul/toom-cook_4way.c:TC_interpol", "AVX_Implementation_KEM/polymul/scm_avx.c:schoolbook_avx_new2", "AVX_Implementation_KEM/polymul/matrix.c:transpose_n1", "AVX_Implementation_KEM/SABER_indcpa.c:indcpa_kem_keypair"]}
{"id": "C55", "title": "AVX2 KEM equals the reference", "statement": "For all three parameter sets, all random bytes, all keys and all ciphertexts, crypto_kem_keypair, crypto_kem_enc and crypto_kem_dec of the AVX2 implementation return what the specification says and what the reference implementation returns, so keys, ciphertexts and shared secrets of the two can be mixed, and have no undefined behaviour on buffers of the documented sizes.", "quantifier": "all parameter sets, random sources, buffers, keys and ciphertexts", "why_tests_cant": "Keys and ciphertexts range over all byte strings of the documented sizes, including ones that no honest party produces, for which both implementations must agree as well (implicit rejection).", "anchors": ["AVX_Implementation_KEM/kem.c:crypto_kem_keypair", "AVX_Implementation_KEM/kem.c:crypto_kem_enc", "AVX_Implementation_KEM/kem.c:crypto_kem_dec", "AVX_Implementation_KEM/SABER_indcpa.c:indcpa_kem_keypair", "AVX_Implementation_KEM/SABER_indcpa.c:indcpa_kem_enc", "AVX_Implementation_KEM/SABER_indcpa.c:indcpa_kem_dec", "AVX_Implementation_KEM/pack_unpack.c", "AVX_Implementation_KEM/cbd.c:cbd"]}
{"id": "C56", "title": "AES-NI key stream", "statement": "crypto_stream_aes256ctr(out, outlen, n, k) writes outlen bytes of the AES-256 key stream in counter mode with a 128-bit big-endian counter that starts at the nonce, for every key, nonce and length; saber_aes256ctr_prf, which calls it with the zero nonce, returns what the portable code of the ref directory returns; neither accesses memory outside of its buffers.", "quantifier": "all keys, nonces, lengths and contents of the buffers", "why_tests_cant": "2^384 keys and nonces; the carry between the two halves of the counter happens for few nonces only (and is in fact lost when the lower half of the nonce is a multiple of 8, which no call of the KEM meets).", "anchors": ["Variants/uSaber-90s/avx2/crypto_stream_aes256ctr.c:crypto_stream_aes256ctr", "Variants/uSaber-90s/avx2/crypto_stream_aes256ctr.c:aesni_key256_expand", "Variants/uSaber-90s/avx2/crypto_stream_aes256ctr.c:aesni_encrypt8", "Variants/uSaber-90s/avx2/symmetric-aes.c:saber_aes256ctr_prf"]}
{"id": "C57", "title": "AVX2 90s KEM equals the portable one", "statement": "For all three parameter sets, all random bytes, keys and ciphertexts, crypto_kem_keypair, crypto_kem_enc and crypto_kem_dec of Variants/uSaber-90s/avx2 return what the specification of Saber-90s says and what the ref directory returns in a build with Saber90s and without uSaber, if the SHA-2 functions of the linked OpenSSL are correct. The default builds of the two directories are different schemes.", "quantifier": "all parameter sets, random sources, buffers, keys, ciphertexts and correct SHA-2 libraries", "why_tests_cant": "Keys and ciphertexts range over all byte strings of the documented sizes, and the two directories use different code for the multiplication, the packing and AES.", "anchors": ["Variants/uSaber-90s/avx2/kem.c", "Variants/uSaber-90s/avx2/SABER_indcpa.c", "Variants/uSaber-90s/avx2/symmetric.h", "Variants/uSaber-90s/avx2/SABER_params.h", "Variants/uSaber-90s/ref/SABER_params.h"]}
{"id": "C58", "title": "Four-fold hash functions", "statement": "sha3_256x4, sha3_512x4 and shake256x4 write, for each of the four messages, the digest or output stream that FIPS 202 defines for this message, independently of the other three, and access nothing outside of the buffers; the four-fold permutation applies Keccak-f[1600] to each of its four states.", "quantifier": "all quadruples of messages and buffers, all lengths and offsets", "why_tests_cant": "Messages and lengths are unbounded, and a mistake in one of the 24 rounds or lanes may depend on the data of the other lanes.", "anchors": ["Variants/SaberX4_avx2/fips202x4.c:keccak_absorb4x", "Variants/SaberX4_avx2/fips202x4.c:keccak_squeezeblocks4x", "Variants/SaberX4_avx2/fips202x4.c:sha3_256x4", "Variants/SaberX4_avx2/fips202x4.c:sha3_512x4", "Variants/SaberX4_avx2/fips202x4.c:shake256x4", "Variants/SaberX4_avx2/keccak4x/KeccakP-1600-times4-SIMD256.c"]}
{"id": "C59", "title": "Four-fold SHAKE128", "statement": "shake128x4 writes outlen bytes of the SHAKE128 output stream of each of the four messages and accesses nothing outside of the buffers. (False of the code: whenever outlen is not a multiple of 168, which holds for all calls in the directory, it writes 168 bytes to local arrays of 136 bytes. True for multiples of 168, and for all lengths if the arrays had 168 bytes.)", "quantifier": "all quadruples of messages and buffers, all lengths and offsets", "why_tests_cant": "The overrun hits the stack frame of the function itself; the output looks right unless the compiler places something else there.", "anchors": ["Variants/SaberX4_avx2/fips202x4.c:shake128x4", "Variants/SaberX4_avx2/SABER_indcpa.c:GenMatrix4x", "Variants/SaberX4_avx2/SABER_indcpa.c:GenSecret4x", "Variants/SaberX4_avx2/SABER_indcpa.c:indcpa_kem_keypair"]}
{"id": "C60", "title": "Four-fold packing", "statement": "The four-fold packing functions of SaberX4 write for each of the four vectors the same bytes as the single packing function of the reference implementation (10-bit and 13-bit form) at the given place and nothing else; the four-fold unpacking function returns for each byte string the vector it encodes, so that unpacking inverts packing in each of the four slots.", "quantifier": "all quadruples of vectors of polynomials, byte strings and offsets", "why_tests_cant": "2^(13*3*256*4) inputs; the hand-written shift sequences differ between coefficients and slots.", "anchors": ["Variants/SaberX4_avx2/pack_unpack.c:POLVEC2BSX4", "Variants/SaberX4_avx2/pack_unpack.c:BS2POLVECX4"]}
{"id": "C61", "title": "A batched KEM call equals four single calls", "statement": "crypto_kem_keypair, crypto_kem_enc and crypto_kem_dec of SaberX4 return, in four consecutive slots of each buffer, what four successive calls of the reference implementation return, with the same use of the random generator, and what the Saber specification defines. (Subject to the defect C59, C62: the statement is for the program in which the local arrays of shake128x4 have 168 bytes; of the code as it stands every call is undefined.)", "quantifier": "all random generators that deliver bytes, all buffers, keys, ciphertexts (valid or not) and implicit-rejection outcomes", "why_tests_cant": "All keys, ciphertexts and random inputs; an error that mixes two slots may show only when the data of the slots differ in a special way.", "anchors": ["Variants/SaberX4_avx2/kem.c:crypto_kem_keypair", "Variants/SaberX4_avx2/kem.c:crypto_kem_enc", "Variants/SaberX4_avx2/kem.c:crypto_kem_dec", "Variants/SaberX4_avx2/SABER_indcpa.c:indcpa_kem_keypair", "Variants/SaberX4_avx2/SABER_indcpa.c:indcpa_kem_enc", "Variants/SaberX4_avx2/SABER_indcpa.c:indcpa_kem_dec"]}
{"id": "C62", "title": "The batched KEM stays inside of its buffers", "statement": "No call of crypto_kem_keypair, crypto_kem_enc or crypto_kem_dec of SaberX4 with buffers of the documented sizes accesses memory outside of an object. (False of the code: every call of each of the three functions writes 32 bytes past the end of the local arrays of shake128x4. True if these arrays had 168 bytes.)", "quantifier": "all random generators, buffers, keys and ciphertexts", "why_tests_cant": "A stack overrun inside of a frame is silent in most builds, so that no finite number of runs shows that it occurs always or never.", "anchors": ["Variants/SaberX4_avx2/fips202x4.c:shake128x4", "Variants/SaberX4_avx2/kem.c:crypto_kem_keypair", "Variants/SaberX4_avx2/kem.c:crypto_kem_enc", "Variants/SaberX4_avx2/kem.c:crypto_kem_dec"]}
{"id": "C63", "title": "Secrets are independent centred binomial samples", "statement": "If the bytes handed to the secret sampler are uniformly distributed, the coefficients of the secret that it writes are independent and each has the centred binomial distribution with parameter mu: for every target secret, the number of byte strings from which it is sampled is the product of the binomial coefficients of its entries. Likewise every row of the public matrix is unpacked from exactly one byte string, so that its entries are independent and uniform modulo 2^13.", "quantifier": "all three parameter sets, all target secrets and matrix rows, over all 2^(8n) byte strings", "why_tests_cant": "The statement counts over 2^5120 or more byte strings; a statistical test sees marginals of a sample, not independence.", "anchors": ["Reference_Implementation_KEM/cbd.c:cbd", "Reference_Implementation_KEM/poly.c:GenSecret", "Reference_Implementation_KEM/poly.c:GenMatrix", "Reference_Implementation_KEM/pack_unpack.c:BS2POLVECq"]}
{"id": "C64", "title": "Decryption failures are rare for every matrix", "statement": "For every public matrix, the fraction of the byte strings for the two secrets for which decryption does not return the encrypted message is at most 2^-10 (LightSaber), 2^-13 (Saber) and 2^-18 (FireSaber). The only assumption is that the bytes from which the secrets are sampled are uniformly distributed; the rounding errors are those that the code makes.", "quantifier": "all three parameter sets, all matrices, over all pairs of byte strings", "why_tests_cant": "The bound is about every matrix and about a set of at least 2^10240 pairs of byte strings; failures are too rare to be met by tests.", "anchors": ["Reference_Implementation_KEM/SABER_indcpa.c:indcpa_kem_enc", "Reference_Implementation_KEM/SABER_indcpa.c:indcpa_kem_dec", "Reference_Implementation_KEM/poly.c:GenSecret"]}
{"id": "C65", "title": "The failure probability of the parameter sets", "statement": "If the rounding errors of the two public vectors and the part of v' that is cut off are replaced by independent uniformly distributed values, decryption fails with probability at most 2^-115 (LightSaber), 2^-131 (Saber) and 2^-160 (FireSaber); the parameter search asks for 2^-100, 2^-128 and 2^-160.", "quantifier": "all three parameter sets, over all draws of secrets and rounding errors", "why_tests_cant": "An event of probability 2^-115 is never observed.", "anchors": ["Scripts/Python_Scripts/select_params/select_params.py", "Scripts/Python_Scripts/select_params/proba_util.py", "Reference_Implementation_KEM/SABER_params.h"]}
{"id": "C66", "title": "Branches and memory addresses do not depend on secrets", "statement": "Key generation, encapsulation and decapsulation take the same branches, run the same loop iterations and access the same array elements in the same order in every call with buffers of the documented sizes, whatever the keys, the ciphertext, the random bytes and the previous contents of the buffers are. In particular an accepted and a rejected ciphertext cause the same sequence. The same holds for uSaber and the 90s variants with their bitsliced AES and SHA-2.", "quantifier": "all parameter sets and variants, all secret keys, public keys, ciphertexts and delivered random bytes", "why_tests_cant": "A timing test compares a sample of inputs on one machine; the claim is that no input at all changes the sequence.", "anchors": ["Reference_Implementation_KEM/kem.c:crypto_kem_dec", "Reference_Implementation_KEM/kem.c:crypto_kem_enc", "Reference_Implementation_KEM/kem.c:crypto_kem_keypair", "Reference_Implementation_KEM/verify.c:verify", "Reference_Implementation_KEM/verify.c:cmov", "Variants/uSaber-90s/ref/aes256ctr.c", "Variants/uSaber-90s/ref/sha256.c"]}
{"id": "C67", "title": "The five generators of SaberX4 do not disturb each other and are not independent", "statement": "SaberX4's random number file offers randombytes and randombytes0 to randombytes3. After randombytes_init with any seed, and for every interleaving of requests, each of the five returns exactly what a stand-alone CTR_DRBG instantiated with that seed returns for the requests made to it alone. So randombytes returns the bytes of the reference generator whatever the others are asked for, and two entry points that get the same requests return the same bytes: they must not be used as independent sources.", "quantifier": "all seeds and personalization strings, all block ciphers, all histories of requests to the five entry points (at most 2^31 - 2 each, below 2^31 bytes)", "why_tests_cant": "A test runs a few interleavings; the claim is about every history.", "anchors": ["Variants/SaberX4_avx2/rng.c:randombytes_init", "Variants/SaberX4_avx2/rng.c:randombytes0", "Variants/SaberX4_avx2/rng.c:randombytes3", "Variants/SaberX4_avx2/rng.h"]}
{"id": "C68", "title": "The assembly functions run in constant time", "statement": "The multiplications in assembly for the Cortex-M4 (Karatsuba, the two Toom-Cook routines and polymul_asm) and the Keccak permutation in assembly for the Cortex-M0 access the same memory positions in the same order, execute the same conditional instructions and run the same number of loop iterations in every call, whatever the arrays, the registers and the stack contain.", "quantifier": "all contents of the operand arrays, of the state, of the registers and of the stack", "why_tests_cant": "A timing test compares a sample of inputs; a dependency on one of 2^1600 states would not be seen.", "anchors": ["Cortex-M_Implementation_KEM/Cortex-M4/src/saber/m4-striding/kara.s:kara_strd_mem_asm", "Cortex-M_Implementation_KEM/Cortex-M4/src/saber/m4-tc4kara/asm_funcs.S", "Cortex-M_Implementation_KEM/Cortex-M0/saber-ref-mem/src/asm_KeccakF-1600.S:KeccakF1600_StatePermute", "Cortex-M_Implementation_KEM/Cortex-M4/src/saber/m4-tc4kara/mult_toom4_256_16.s:polymul_asm", "Cortex-M_Implementation_KEM/Cortex-M4/src/saber/m4-striding/tc.s:toom_cook_4way_striding_asm"]}
{"id": "C69", "title": "Branches and memory addresses of the Cortex-M0 build do not depend on secrets", "statement": "Key generation, encapsulation and decryption of the Cortex-M0 port, linked with its Keccak assembly, take the same branches, run the same loop iterations and access the same memory positions in the same order in every call with buffers of sufficient size, whatever the keys, the ciphertext, the random bytes, the registers, the stack and the static variables left by earlier calls contain. Decryption needs a message buffer of 512 bytes; decapsulation passes 64 and has no defined run (C40).", "quantifier": "all keys, ciphertexts, delivered random bytes, register, stack and static contents", "why_tests_cant": "A timing test compares a sample of inputs on one board; the claim is that no input changes the sequence. The matrix generator carries static state from call to call, so all histories matter.", "anchors": ["Cortex-M_Implementation_KEM/Cortex-M0/saber-ref-mem/src/SABER_indcpa.c:indcpa_kem_dec", "Cortex-M_Implementation_KEM/Cortex-M0/saber-ref-mem/src/SABER_indcpa.c:GenMatrix_poly", "Cortex-M_Implementation_KEM/Cortex-M0/saber-ref-mem/src/kem.c:crypto_kem_enc", "Cortex-M_Implementation_KEM/Cortex-M0/saber-ref-mem/src/kem.c:crypto_kem_keypair", "Cortex-M_Implementation_KEM/Cortex-M0/saber-ref-mem/src/asm_KeccakF-1600.S"]}
{"id": "C70", "title": "Branches and memory addresses of both Cortex-M4 builds do not depend on secrets", "statement": "Key generation, encapsulation and decapsulation of the Cortex-M4 port, for all three parameter sets, with full or compressed secret keys, and with either multiplication (C code with Karatsuba assembly, or Toom-Cook assembly), take the same branches, run the same loop iterations, access the same memory positions and call the hash library with the same positions and lengths in the same order in every call with buffers of the documented sizes, whatever the keys, the ciphertext, the random bytes, the registers and the stack contain. In particular decapsulation shows nothing of whether the ciphertext was accepted.", "quantifier": "all parameter sets, both builds, all keys, ciphertexts, delivered random bytes, register and stack contents", "why_tests_cant": "A timing test compares a sample of inputs on one board; the claim is that no input changes the sequence.", "anchors": ["Cortex-M_Implementation_KEM/Cortex-M4/src/saber/m4-striding/kem.c:crypto_kem_dec", "Cortex-M_Implementation_KEM/Cortex-M4/src/saber/m4-striding/SABER_indcpa.c:indcpa_kem_enc_cmp", "Cortex-M_Implementation_KEM/Cortex-M4/src/saber/m4-striding/poly_mul.c:toom_cook_4way_striding", "Cortex-M_Implementation_KEM/Cortex-M4/src/saber/m4-striding/kara.s", "Cortex-M_Implementation_KEM/Cortex-M4/src/saber/m4-tc4kara/asm_funcs.S", "Cortex-M_Implementation_KEM/Cortex-M4/src/saber/m4-striding/cbd.c:cbd"]}
{"id": "C71", "title": "Branches and memory addresses of the AVX2 code do not depend on secrets", "statement": "Key generation, encapsulation and decapsulation of AVX_Implementation_KEM and of Variants/uSaber-90s/avx2, for all three parameter sets, take the same branches, run the same loop iterations and access the same array and vector positions in the same order in every call with buffers of the documented sizes, whatever the keys, the ciphertext and the random bytes are. In particular decapsulation shows nothing of whether the ciphertext was accepted. The AES-NI key stream of the 90s variant branches on its nonce, but not on the key.", "quantifier": "all parameter sets, all keys, ciphertexts and delivered random bytes, all libraries for SHA-256 and SHA-512", "why_tests_cant": "A timing test compares a sample of inputs on one machine; the claim is that no input changes the sequence.", "anchors": ["AVX_Implementation_KEM/kem.c:crypto_kem_dec", "AVX_Implementation_KEM/SABER_indcpa.c:indcpa_kem_enc", "AVX_Implementation_KEM/SABER_indcpa.c:indcpa_kem_dec", "AVX_Implementation_KEM/polymul/toom-cook_4way.c", "AVX_Implementation_KEM/verify.c:cmov", "Variants/uSaber-90s/avx2/crypto_stream_aes256ctr.c:crypto_stream_aes256ctr", "Variants/uSaber-90s/avx2/symmetric-aes.c"]}
{"id": "C72", "title": "Branches and memory addresses of SaberX4 do not depend on secrets", "statement": "With the temporary arrays of shake128x4 enlarged to the rate of SHAKE-128 (without that every call writes outside of them, C62), the batched crypto_kem_keypair, crypto_kem_enc and crypto_kem_dec of SaberX4 take the same branches, run the same loop iterations and access the same array positions in the same order in every call with buffers of the documented sizes, whatever the four keys, ciphertexts and the random bytes are. In particular a batch of decapsulations does not show which of its ciphertexts were accepted.", "quantifier": "all keys, ciphertexts, delivered random bytes and generators", "why_tests_cant": "A timing test compares a sample of inputs on one machine; the claim is that no input changes the sequence.", "anchors": ["Variants/SaberX4_avx2/kem4x.c:crypto_kem_dec4x", "Variants/SaberX4_avx2/kem.c:crypto_kem_dec", "Variants/SaberX4_avx2/SABER_indcpa.c:indcpa_kem_enc", "Variants/SaberX4_avx2/pack_unpack.c:POLVEC2BSX4", "Variants/SaberX4_avx2/fips202x4.c:shake128x4"]}
{"id": "C73", "title": "Branches and addresses of the random number generator show the carries of its counter and nothing else", "statement": "Two calls of randombytes for the same number n of bytes take the same branches and access the same positions if and only if at each of the ceil(n/16)+3 counter increments the same number of bytes of the counter V wraps from 255 to 0. The key, the delivered bytes and the contents of the arrays are not shown; if the lowest byte of V does not wrap during the call, nothing is shown. As V is secret, randombytes is not constant-time: every call tells whether the lowest byte of V is 255. randombytes_init shows nothing about the entropy, and a history of seedexpander requests shows nothing about the seed.", "quantifier": "all keys, counters, buffers, lengths, block ciphers with 16-byte blocks, histories of expander requests", "why_tests_cant": "An equivalence about all pairs of states; a difference in timing appears in one of 256 states only.", "anchors": ["Reference_Implementation_KEM/rng.c:randombytes", "Reference_Implementation_KEM/rng.c:AES256_CTR_DRBG_Update", "Reference_Implementation_KEM/rng.c:randombytes_init", "Reference_Implementation_KEM/rng.c:seedexpander"]}
{"id": "C74", "title": "The known-answer program writes the files it should and reports any disagreement", "statement": "The main function of PQCgenKAT_kem.c, linked with any of the four desktop implementations (reference, AVX2, the variants in C, the 90s variants with AVX2), for every parameter set, has no undefined behaviour, writes as request file exactly the numbered seeds that the generator delivers after its initialisation with the bytes 0..47, and reads all of them back. If the two shared secrets of every entry agree it returns 0 and the response file is the header followed by, for each seed, the seed, public key, secret key, ciphertext and shared secret which the scheme defines for the bytes the generator delivers from that seed. Otherwise it returns -4 and the file ends with the first entry whose secrets differ. It never returns the error codes for a failing key generation or a missing line. The reference implementation, the AVX2 implementation and the variants built without switches write identical files; the two directories of the 90s variants never do, since the AVX2 one prints the name without the suffix -90s.", "quantifier": "all parameter sets and switches, block ciphers, initial states of the generator, numbers of entries up to 2^31-2", "why_tests_cant": "The program is itself the test; a run covers one cipher, one number of entries and never the branches for a disagreement.", "anchors": ["Reference_Implementation_KEM/test/PQCgenKAT_kem.c:main", "AVX_Implementation_KEM/test/PQCgenKAT_kem.c:main", "Variants/uSaber-90s/ref/test/PQCgenKAT_kem.c:main", "Variants/uSaber-90s/avx2/test/PQCgenKAT_kem.c:main", "Variants/uSaber-90s/avx2/api.h:CRYPTO_ALGNAME"]}
{"id": "C75", "title": "The probability functions of the parameter scripts compute the laws they are named after", "statement": "If two dictionaries hold the laws of two independent random variables, law_convolution and law_product return the laws of their sum and product. iter_law_convolution(A, n) returns the law of the sum of n independent copies except for the values below 2^-300 that it drops: no value is too large and at most (4n+1)(2nb+1)2^-300 is missing in total, where b bounds the keys. build_centered_binomial_law with half of MU is the distribution of the secrets that the code samples. build_mod_switching_error_law is the law of the error of rounding to the nearest multiple of q/p with ties to even multiples; it is not the law of the rounding error of the code, which has the error 4 with probability 1/8 and never -4, where the script has 1/16 each. convolution_remove_dependency(A, A, q, p) is the law of the difference of two copies, the second drawn among those congruent to the first modulo q/p. distmean and distvariance are mean and variance.", "quantifier": "all laws of random variables on finite sets, numbers of copies, moduli; exact arithmetic", "why_tests_cant": "The functions are defined for every law; the claims are identities between sums over arbitrary finite probability spaces and a bound on the dropped mass.", "anchors": ["Scripts/Python_Scripts/select_params/proba_util.py:law_convolution", "Scripts/Python_Scripts/select_params/proba_util.py:law_product", "Scripts/Python_Scripts/select_params/proba_util.py:iter_law_convolution", "Scripts/Python_Scripts/select_params/proba_util.py:clean_dist", "Scripts/Python_Scripts/select_params/proba_util.py:build_centered_binomial_law", "Scripts/Python_Scripts/select_params/proba_util.py:build_mod_switching_error_law", "Scripts/Python_Scripts/select_params/proba_util.py:convolution_remove_dependency", "Scripts/Python_Scripts/select_params/proba_util.py:distmean"]}
{"id": "C76", "title": "What the parameter search prints, and what its tail probability is", "statement": "tail_probability(D, t) returns the probability that the absolute value is at least t and less than the largest value of the variable; so it is not the documented probability that the absolute value is greater than t: values of absolute value at least the maximum are missing and the value t is counted. The three calls of search_params in the script raise no exception and print, for every log p from 10 to 12 such that the security estimate suffices for it and all smaller ones, exactly the pair with the smallest log T for which 256 times the failure probability is positive and at most 2^-100, 2^-128 or 2^-160; a failure probability of 0 is rejected. The printed sizes for the parameters of the code are the sizes of its public keys and ciphertexts.", "quantifier": "all laws, thresholds, security estimates, the three parameter sets; exact arithmetic", "why_tests_cant": "The security estimate is an arbitrary function, and the statement about tails ranges over all laws.", "anchors": ["Scripts/Python_Scripts/select_params/proba_util.py:tail_probability", "Scripts/Python_Scripts/select_params/select_params.py:search_params", "Scripts/Python_Scripts/select_params/select_params.py:main"]}
{"id": "C77", "title": "Secrets of uSaber are uniform, and the failure probability of the variants", "statement": "On uniformly distributed bytes the coefficients that the sampler of uSaber writes are independent and uniformly distributed on [-2, 1]: every sequence of such coefficients comes from exactly one byte string. Decryption of an honest encryption returns a wrong message exactly if the exchange fails for the bytes that the code expands from its seeds. If the secret bytes, the rounding errors and the part cut off are independent and uniformly distributed, the fraction of failures is at most 2^-186 for uLightSaber, 2^-168 for uSaber and 2^-152 for uFireSaber; without the option uSaber the bounds of Saber hold; all of this with both sets of symmetric functions.", "quantifier": "all builds, all byte strings, all sequences of coefficients, all seeds and messages", "why_tests_cant": "The probability is far too small to be seen in an experiment, and the law is a statement about all 2^512 inputs of the sampler.", "anchors": ["Variants/uSaber-90s/ref/poly.c:GenSecret", "Variants/uSaber-90s/ref/SABER_indcpa.c:indcpa_kem_dec", "Variants/uSaber-90s/ref/SABER_params.h"]}
{"id": "C78", "title": "polymul_asm stores the product of two polynomials", "statement": "For all arrays a and b of 256 sixteen-bit words, polymul_asm (declared in poly_mul.h; its calls in the C code are commented out) returns to its caller with the 511 coefficients of the product of a and b modulo q = 2^13 in the result array, whatever the array, the registers and the stack held before; a and b are left as they were, no access is made outside the three arrays and 3792 bytes of stack, and the registers that the procedure call standard requires to be preserved are. Subtracting the upper half from the lower half gives the product in Z[X]/(X^256+1) modulo q.", "quantifier": "all arrays a and b, all contents of the result array, of the stack and of the other registers", "why_tests_cant": "The interpolation loses one to three bits in each division by a power of two; that the lost bits cancel modulo q for all 2^8192 pairs of inputs cannot be seen from samples, and neither can the absence of stray accesses in 8500 instructions.", "anchors": ["Cortex-M_Implementation_KEM/Cortex-M4/src/saber/m4-tc4kara/mult_toom4_256_16.s:polymul_asm", "Cortex-M_Implementation_KEM/Cortex-M4/src/saber/m4-tc4kara/mult_toom4_256_16.s:karatsuba_64x64", "Cortex-M_Implementation_KEM/Cortex-M4/src/saber/m4-tc4kara/poly_mul.h:polymul_asm"]}
{"id": "C79", "title": "toom_cook_4way_striding_asm does not multiply", "statement": "The header of the striding multiplication declares an assembly function for the product of two polynomials, toom_cook_4way_striding_asm, beside the C function that is used (its call in the C code is commented out). It does not compute the product: for all inputs it adds to res, modulo q = 2^13, the product of a and b with the coefficients 4j+1 and 4j+2 exchanged in both, and beside it the two halves of one of its own return addresses to the coefficients 0 and 1, a coefficient of a partial product to the coefficient 2, and a halfword left in a register to the coefficients 7, 11, ..., 255. So for a = b = 0 the result is wrong wherever the code is linked, and X times X^3 has the coefficient 0 at X^4. The function returns to its caller, leaves a unchanged, overwrites b, stays within the three arrays and 1772 bytes of stack and preserves the registers that the procedure call standard requires.", "quantifier": "all arrays a, b and res, all contents of the registers and the stack, all addresses of the code", "why_tests_cant": "No test calls the function, and its result depends on the address at which it is linked; that no address makes it a multiplication is a statement about all of them.", "anchors": ["Cortex-M_Implementation_KEM/Cortex-M4/src/saber/m4-striding/tc.s:toom_cook_4way_striding_asm", "Cortex-M_Implementation_KEM/Cortex-M4/src/saber/m4-striding/kara.s:kara_strd_mem_asm", "Cortex-M_Implementation_KEM/Cortex-M4/src/saber/m4-striding/poly_mul.h:toom_cook_4way_striding_asm"]}
{"id": "C80", "title": "Encryption hides the message if rounded products look random", "statement": "Whoever sees a public key, chooses two messages of 32 bytes, sees the encryption of one of them and guesses which one it was, is right with a probability that differs from one half by at most the sum of two advantages: in telling the vector of a public key (the rounded product of the expanded matrix and an expanded secret) from random numbers, and in telling the rounded products A s and <c, s> from random numbers. Whoever sees a public key and the encryption of a random message finds the message with a probability of at most 2^-256 plus twice these advantages. So encryption adds nothing that gives the message away beyond the two rounding problems on which the scheme is built: not the second rounding, not the bits cut off, not the public key reused as the vector of the second problem. This holds for all parameter sets and for uSaber and the 90s variants.", "quantifier": "all parameter sets, all variants, all attackers (functions of the public key, of the ciphertext and of their own random choices), all contents of the output buffers; probabilities over the random bytes of key generation, the coins, the message or the bit, and the choices of the attacker", "why_tests_cant": "It is a statement about every possible attacker. A test can only show that one particular attack does not work.", "anchors": ["Reference_Implementation_KEM/SABER_indcpa.c:indcpa_kem_keypair", "Reference_Implementation_KEM/SABER_indcpa.c:indcpa_kem_enc", "Variants/uSaber-90s/ref/SABER_indcpa.c:indcpa_kem_enc"]}
{"id": "C81", "title": "An eavesdropper learns nothing about the shared secret, with SHA3-512 as a random function", "statement": "Whoever sees a public key and a ciphertext of crypto_kem_enc, and asks at most q questions to the hash function that gives the first key and the coins (SHA3-512, a random function here), tells the first key of the ciphertext from a random string, and the shared secret from the hash of a random string, at most with an advantage of 2q(g + 2(a1 + a2)): g is the probability of the most frequent SHA3-256 hash of 32 random bytes, a1 and a2 are advantages in the two rounding problems of C80. Key generation, encapsulation and decapsulation of the code compute what the game computes, with SHA3-512 in place of the random function. This holds for all parameter sets and for uSaber and the 90s variants with their hash functions.", "quantifier": "all parameter sets, all variants, all eavesdroppers with at most q questions, all q > 0; probabilities over the random bytes of key generation and encapsulation, the random function and the choices of the eavesdropper", "why_tests_cant": "It is a statement about every possible eavesdropper and about all functions in place of a hash function.", "anchors": ["Reference_Implementation_KEM/kem.c:crypto_kem_keypair", "Reference_Implementation_KEM/kem.c:crypto_kem_enc", "Reference_Implementation_KEM/kem.c:crypto_kem_dec", "Variants/uSaber-90s/ref/kem.c:crypto_kem_enc"]}
{"id": "C82", "title": "The shared secret looks random to an attacker with decapsulations of other ciphertexts", "statement": "Whoever sees a public key, a ciphertext and a string of 32 bytes, and may have every other ciphertext decapsulated by the owner of the secret key, tells whether the string is the shared secret of the ciphertext or random at most with an advantage of 2 qG (g + 2(a1 + a2)) + 2 (qG d + qD r) + (3(qF + qD) + 1)/2^256. Here qG, qF and qD bound the numbers of questions to SHA3-512, to SHA3-256 on 64 bytes (both random functions) and for decapsulations; d is the probability of a wrong decryption of the worst message and r that of the most frequent ciphertext of the worst message, both on the average over the keys; g, a1 and a2 are as in C81. In particular re-encryption and implicit rejection do their work: an attacker gains nothing from decapsulations but what it gains from wrong decryptions and from guessing. This holds for all parameter sets and for uSaber and the 90s variants with their hash functions.", "quantifier": "all parameter sets, all variants, all attackers with bounded numbers of questions, adaptively chosen; probabilities over the random bytes of key generation and encapsulation, the two random functions and the choices of the attacker", "why_tests_cant": "It is a statement about every possible attacker and every sequence of adaptively chosen ciphertexts.", "anchors": ["Reference_Implementation_KEM/kem.c:crypto_kem_keypair", "Reference_Implementation_KEM/kem.c:crypto_kem_enc", "Reference_Implementation_KEM/kem.c:crypto_kem_dec", "Reference_Implementation_KEM/verify.c", "Variants/uSaber-90s/ref/kem.c:crypto_kem_dec"]}
{"id": "C83", "title": "The lattice experiment tests the lattice of the scheme and counts what it found", "statement": "sanity_check.sage runs without a failed assertion. Its instances have secrets in [-2,2], errors in [-4,3] and public values A = aG + e modulo q. For every subset of coordinates the rows given to the lattice reduction generate exactly the lattice of all (x, z, y) with x = z A - y G modulo q at these coordinates, which has determinant q^m and contains the planted secret; a run that ends with the secret vector or its negative counts as a success. The script prints exactly one summary line for each number of samples n, n+2, ..., 2n, each block size 2, 4, ..., 20 and both kinds of noise; the line is about all inputs, its number of successes is the number of inputs whose secret shows up in a shortest row at or before that block size, and these numbers do not decrease along the block sizes. With rounding the script rounds to the nearest multiple of 8 with halves downwards, unlike Saber, which rounds them upwards: the two differ exactly for values equal to 4 modulo 8.", "quantifier": "all degrees n, all moduli q > 0, all numbers of inputs, all random draws and every behaviour of the lattice reduction that returns at least one row", "why_tests_cant": "The script is random and its outcome depends on a lattice reduction; a run shows some numbers, not whether the lattice is the right one or the count is correct.", "anchors": ["Scripts/Sage_Scripts/sanity_check.sage"]}
{"id": "C84", "title": "The test programs report the first failed exchange, and only in their output", "statement": "test/test_kex runs without undefined behaviour for every number of rounds below 2^29. Its exchanges are determined: the random bytes come from one CTR_DRBG instantiated with the bytes 0 to 47, so every run tests the same keys, whatever the time or the generator's state. If all exchanges agree it prints the number of rounds and the average time of each function (total of 64-bit clock differences modulo 2^64, divided by the number of rounds); otherwise it stops after the first exchange whose two secrets differ with the line '----- ERR CCA KEM ------', which ends the output exactly if some exchange fails. The exit status is 0 in both cases, so a build script cannot tell a failed test from a passed one. Three of the printed times of the reference program are always 0. test/kem prints the bytes of the two secrets of the first exchange side by side up to and including the first difference, then a message if there is one, and exits with 0.", "quantifier": "all parameter sets, the four programs test_kex (reference, AVX2, uSaber-90s/ref with all its builds, uSaber-90s/avx2), two programs kem, all block ciphers in place of AES-256, all numbers of rounds, all clock readings, all states of the generator before", "why_tests_cant": "These are the tests; what they do when an exchange fails is not seen in runs in which none fails.", "anchors": ["Reference_Implementation_KEM/test/test_kex.c:test_kem_cca", "Reference_Implementation_KEM/test/kem.c", "AVX_Implementation_KEM/test/test_kex.c", "Variants/uSaber-90s/ref/test/test_kex.c", "Variants/uSaber-90s/ref/test/kem.c", "Variants/uSaber-90s/avx2/test/test_kex.c"]}
{"id": "C85", "title": "Lines of the measurement program reach the host complete, whatever the speed of the serial port", "statement": "UART_SendTrace with at most 20 characters sends these characters, '0x', the eight hexadecimal digits of the number and the end of line, after everything sent before and without losing a byte, however slowly the serial port empties its queue; 20 is the limit: with more characters a slow port loses the end of the line. UART_SendWord never loses a byte; UART_Write, which does not wait, loses none exactly as long as there is room in the queue. The host script evaluate.py reads the lines of the two programs of main.c and prints exactly the seven numbers that the board measured, each with its label. UART_Read stores what it receives if the buffer is large enough and otherwise writes outside of it. The message of rng_enable is sent with its terminating zero byte.", "quantifier": "all speeds of the serial port (any number of bytes sent between any two accesses), all strings and lengths, all 32-bit numbers, all states of the queue", "why_tests_cant": "A byte is lost only if the port is slower than the processor at that moment; a run sees one timing.", "anchors": ["Cortex-M_Implementation_KEM/Cortex-M0/saber-ref-mem/src/uart.c:UART_SendTrace", "Cortex-M_Implementation_KEM/Cortex-M0/saber-ref-mem/src/uart.c:UART_Write", "Cortex-M_Implementation_KEM/Cortex-M0/saber-ref-mem/src/uart.c:UART_SendWord", "Cortex-M_Implementation_KEM/Cortex-M0/saber-ref-mem/src/uart.c:UART_Read", "Cortex-M_Implementation_KEM/Cortex-M0/saber-ref-mem/src/main.c:main", "Cortex-M_Implementation_KEM/Cortex-M0/saber-ref-mem/src/prng.c:rng_enable", "Cortex-M_Implementation_KEM/Cortex-M0/saber-ref-mem/evaluate.py"]}
{"id": "C86", "title": "What the stack measurement of the Cortex-M0 program measures", "statement": "The number reported for a call is the distance from the start of the stack down to the lowest byte, within 10368 bytes, that the call leaves with a value other than 42, whatever was in memory before. It is never more than what the call writes to. It is exact if the lowest byte written holds a value other than 42 after the call; otherwise it may be any smaller number. Writes further down than 10368 bytes are not seen. The host prints these numbers for the four measurements.", "quantifier": "all sequences of bytes that a call writes to memory, all contents of memory before, all positions of the stack, all speeds of the serial port", "why_tests_cant": "The report is compared with nothing; it is wrong only for calls that leave particular values at particular addresses.", "anchors": ["Cortex-M_Implementation_KEM/Cortex-M0/saber-ref-mem/src/main.c:stack_count", "Cortex-M_Implementation_KEM/Cortex-M0/saber-ref-mem/src/main.c:WRITE_CANARY", "Cortex-M_Implementation_KEM/Cortex-M0/saber-ref-mem/src/main.c:main", "Cortex-M_Implementation_KEM/Cortex-M0/saber-ref-mem/evaluate.py"]}
{"id": "C87", "title": "What the time measurement of the Cortex-M0 program measures", "statement": "After setup_tick_count, an operation of fewer than 2^24 clocks is reported exactly, as its clocks minus those of an empty measurement, whatever the interrupts do, and any number of measurements can follow each other; the host prints these numbers. A longer operation is reported wrongly: one clock too few for each interrupt, and one for each clock that an interrupt waits for its handler. If the timer is stopped when an interrupt waits, the report (or, if the interrupt is not served then, the next report) is about 2^24 clocks too large. Calling start_tick_count twice stops the timer: the report no longer depends on the time.", "quantifier": "all durations, all moments at which the interrupt handler is run, all durations of the calibration below 2^24 clocks, all speeds of the serial port", "why_tests_cant": "The error depends on the moment of an interrupt and on the duration of its entry; the windows are a few clocks out of 2^24.", "anchors": ["Cortex-M_Implementation_KEM/Cortex-M0/saber-ref-mem/src/benchmark.c:start_tick_count", "Cortex-M_Implementation_KEM/Cortex-M0/saber-ref-mem/src/benchmark.c:end_tick_count", "Cortex-M_Implementation_KEM/Cortex-M0/saber-ref-mem/src/benchmark.c:setup_tick_count", "Cortex-M_Implementation_KEM/Cortex-M0/saber-ref-mem/src/benchmark.c:SysTick_Handler", "Cortex-M_Implementation_KEM/Cortex-M0/saber-ref-mem/src/main.c:main", "Cortex-M_Implementation_KEM/Cortex-M0/saber-ref-mem/evaluate.py"]}
{"id": "C88", "title": "Threads that ask for random bytes at the same time", "statement": "randombytes keeps its state in a global variable and takes no lock. Under any interleaving of any number of calls, each call writes only the bytes asked for, stays within its buffers, and ends after a bounded number of its own accesses (the only other outcome is an overflow of the reseed counter). But any number of threads that call it at the same time can all get the same bytes; so threads that make key pairs can all get the same key pair, and threads that encapsulate for the same public key can all get the same ciphertext and shared secret.", "quantifier": "all numbers of threads, all requested lengths, all states of the generator, all interleavings of the accesses to it, all parameter sets", "why_tests_cant": "The tests use one thread; which schedules occur is not under a test's control.", "anchors": ["Reference_Implementation_KEM/rng.c:randombytes", "Reference_Implementation_KEM/rng.c:AES256_CTR_DRBG_Update", "Reference_Implementation_KEM/rng.c:DRBG_ctx", "Reference_Implementation_KEM/kem.c:crypto_kem_keypair", "Reference_Implementation_KEM/kem.c:crypto_kem_enc"]}
{"id": "C89", "title": "The global vectors of the AVX2 implementations", "statement": "The functions of the AVX2 implementations keep constants in global variables that every call assigns again. Whatever these variables hold at first, however many threads make calls, and however the accesses are interleaved, every word of them that a call uses is the word of the intended constant; so a call's results do not depend on other calls through these variables.", "quantifier": "all initial contents of the variables, all numbers of threads and calls, all interleavings of accesses to 64-bit words, all orders of use within a call", "why_tests_cant": "The tests use one thread, and the variables have been assigned by earlier calls.", "anchors": ["AVX_Implementation_KEM/SABER_indcpa.c:indcpa_kem_keypair", "AVX_Implementation_KEM/SABER_indcpa.c:indcpa_kem_enc", "AVX_Implementation_KEM/SABER_indcpa.c:indcpa_kem_dec", "AVX_Implementation_KEM/SABER_indcpa.c:load_values", "Variants/uSaber-90s/avx2/SABER_indcpa.c:load_values", "Variants/SaberX4_avx2/SABER_indcpa.c:init_aux_avx"]}
{"id": "C90", "title": "The global scratch array of the Cortex-M0 multiplication", "statement": "The polynomial multiplication of the Cortex-M0 port keeps sums in a global array. Whatever earlier calls left in it, a call returns res + a*b modulo 2^16 and X^256+1. A call that is interrupted between its nine products by a handler that itself multiplies is right for four of the nine moments, and wrong for the other five in general: the result is the right one plus a product that depends on the second factor of the handler's last call and is stated exactly. So the function is not reentrant.", "quantifier": "all operands, all contents of the scratch array, all of the nine moments, all sequences of multiplications made by the handler", "why_tests_cant": "The tests make one call at a time, and an interrupt would have to come in one of the five windows.", "anchors": ["Cortex-M_Implementation_KEM/Cortex-M0/saber-ref-mem/src/poly_mul.c:kara_tmp_top", "Cortex-M_Implementation_KEM/Cortex-M0/saber-ref-mem/src/poly_mul.c:unrolled_kara_mem_top", "Cortex-M_Implementation_KEM/Cortex-M0/saber-ref-mem/src/poly_mul.c:pol_mul"]}
{"id": "C91", "title": "The byte functions of the Cortex-M0 Keccak assembly", "statement": "The other functions of the Keccak assembly that the Cortex-M0 build links work on the bit-interleaved state of the permutation. KeccakF1600_StateInitialize sets the string of 1600 bits that the state represents to zero, KeccakF1600_StateComplementBit complements exactly the given bit, KeccakF1600_StateXORBytes adds the given bytes to the string from the given byte on, and KeccakF1600_StateExtractBytes writes the bytes of the string from the given byte on; for every offset and length that stay within the state and whatever the alignment of the data. Each of them returns to its caller, preserves r4-r11 and the stack pointer, and changes no other memory than its object and a few bytes below the stack pointer. After any history of such calls the state represents the string that the calls define.", "quantifier": "all states, data, offsets, lengths, bit positions, addresses of the state, the data, the stack and the tables (apart from each other), contents of the other registers and the memory, histories of calls", "why_tests_cant": "Offsets, lengths and alignments select between seven paths of the code (partial lanes at both ends, aligned and unaligned loops), and the effects on registers, stack and neighbouring memory are not visible in outputs.", "anchors": ["Cortex-M_Implementation_KEM/Cortex-M0/saber-ref-mem/src/asm_KeccakF-1600.S:KeccakF1600_Initialize", "Cortex-M_Implementation_KEM/Cortex-M0/saber-ref-mem/src/asm_KeccakF-1600.S:KeccakF1600_StateInitialize", "Cortex-M_Implementation_KEM/Cortex-M0/saber-ref-mem/src/asm_KeccakF-1600.S:KeccakF1600_StateComplementBit", "Cortex-M_Implementation_KEM/Cortex-M0/saber-ref-mem/src/asm_KeccakF-1600.S:KeccakF1600_StateXORBytes", "Cortex-M_Implementation_KEM/Cortex-M0/saber-ref-mem/src/asm_KeccakF-1600.S:KeccakF1600_StateExtractBytes"]}
{"id": "C92", "title": "Implementations can be mixed", "statement": "The reference, the AVX2 and the Cortex-M4 implementation (the last with any hash library and multiplication that meet their contracts, with and without compressed secret keys) interoperate. With the same random bytes they make the same public key, the same ciphertext and the same shared secret, and consume the same randomness; secret keys are the same bytes if the format is the same, and lead to the same shared secret for every ciphertext in any case. If one of them makes a key pair, another encapsulates with a generator of its own, and a third that reads the secret key format of the first decapsulates, all succeed and the shared secrets agree whenever the noise of the exchange is in range.", "quantifier": "all pairs and triples of implementations, parameter sets, random generators and their states, random bytes, initial contents of buffers, public keys, ciphertexts (honest or not)", "why_tests_cant": "Test programs of the repository run each implementation against itself; equality of two implementations on all keys, ciphertexts and random bytes cannot be sampled.", "anchors": ["Reference_Implementation_KEM/kem.c:crypto_kem_keypair", "Reference_Implementation_KEM/kem.c:crypto_kem_enc", "Reference_Implementation_KEM/kem.c:crypto_kem_dec", "AVX_Implementation_KEM/kem.c:crypto_kem_keypair", "AVX_Implementation_KEM/kem.c:crypto_kem_enc", "AVX_Implementation_KEM/kem.c:crypto_kem_dec", "Cortex-M_Implementation_KEM/Cortex-M4/src/saber/m4-striding/kem.c"]}
{"id": "C93", "title": "Arguments of the KEM functions may share memory", "statement": "With the arguments of crypto_kem_keypair, crypto_kem_enc and crypto_kem_dec pointing into one object: decapsulation may put the shared secret anywhere, also over the ciphertext or the secret key, and gives the secret for the original inputs. Encapsulation is right if the ciphertext overlaps neither the public key nor the shared secret; the shared secret may be put over the public key. Key generation is right if the two keys do not overlap, and also if the public key is put where the secret key contains it. No byte outside of the outputs changes. Encapsulation must not put the ciphertext in the place of the public key: the return code is still 0, but the ciphertext is an encryption for a public key whose vector is the first part of that ciphertext. Key generation must not put the public key into the place of the secret vector: the return code is still 0, but the public key replaces a part of the secret vector. For every other overlap of the two keys, key generation returns 0 and gives exactly what the writes of the secret vector, the public key, its copy (byte by byte upwards), the hash and the random part in this order leave in the object. The AVX2 implementation does the same as the reference implementation for every placement of the buffers. All of this, except for the comparison with AVX2, also holds for every build of the variants uSaber and Saber-90s.", "quantifier": "all contents of the object, all offsets in it that meet the stated conditions, parameter sets, random generators and random bytes", "why_tests_cant": "Tests use separate buffers; the order of reads and writes matters only for overlapping ones, and every offset and content is a different case.", "anchors": ["Reference_Implementation_KEM/kem.c:crypto_kem_keypair", "Reference_Implementation_KEM/kem.c:crypto_kem_enc", "Reference_Implementation_KEM/kem.c:crypto_kem_dec", "Reference_Implementation_KEM/SABER_indcpa.c:indcpa_kem_keypair", "Reference_Implementation_KEM/SABER_indcpa.c:indcpa_kem_enc", "AVX_Implementation_KEM/kem.c:crypto_kem_keypair", "AVX_Implementation_KEM/kem.c:crypto_kem_enc", "AVX_Implementation_KEM/kem.c:crypto_kem_dec", "AVX_Implementation_KEM/SABER_indcpa.c:indcpa_kem_enc", "Variants/uSaber-90s/ref/kem.c:crypto_kem_dec", "Variants/uSaber-90s/ref/kem.c:crypto_kem_enc", "Variants/uSaber-90s/ref/kem.c:crypto_kem_keypair", "Variants/uSaber-90s/ref/SABER_indcpa.c:indcpa_kem_keypair", "Variants/uSaber-90s/ref/SABER_indcpa.c:indcpa_kem_enc"]}
