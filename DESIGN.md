# Formal model of SABER in Lean 4 — design

Source under study: `/repo` (KULeuven-COSIC/SABER). Nothing in `/repo` is built or run; it is read as text.
Project: `/verif/lean` (Lake). Root module `Verif.lean`.

## 1. Layout

| module | content |
|---|---|
| `Verif/CSem.lean` | the C execution monad: undefined behaviour is an explicit outcome |
| `Verif/Spec/*.lean` | small independent specifications (bit streams, ring Z[X]/(X^256+1), FIPS 202, Saber, CTR_DRBG) |
| `Verif/Model/*.lean` | the model, function by function; each definition cites file and lines |
| `Verif/Proof/*.lean` | helper lemmas |
| `Verif/Props/*.lean` | the property theorems (one per claim or group of claims), each with a non-vacuity `example` |

## 2. Modelling decisions

* **UB is an outcome.** `CM α := Except UB α`. Array read/write out of bounds, signed overflow, and illegal left
  shift of a signed value give `.error`. A theorem `f x = .ok y` therefore says both that `f` has no such UB on
  `x` and what it computes. Arrays are `List (BitVec w)` of the C object's size; a pointer into an object is a
  pair (object, offset), so bounds are those of the whole C object. Uninitialised locals are modelled as arrays whose
  content is a *parameter* (`junk`): theorems quantify over it, so a result that depended on it could not be proved.
* **Integers.** `uint8_t/16/32/64` are `BitVec 8/16/32/64`. `int` expressions are computed in `Int` with a range check
  (`ckInt`) at each arithmetic operator that could overflow; bit operations whose operands are visibly non-negative
  and small (packing) are computed in `Nat` and truncated at the store. `>>` of a negative `int` is the arithmetic
  shift (implementation-defined in C, so on all targets of this code) — trusted. `int` is 32 bits — trusted.
* **Loops** `for (i = 0; i < n; i++)` become `loop n s body`; in-place updates return the new array.
* **Externals.** `randombytes` is a parameter when the KEM is modelled (state monad over an abstract RNG);
  `rng.c` is modelled separately with AES-256 (OpenSSL) as a parameter `aes : key → block → block`.
* **Parameter sets.** `SABER_L` is a parameter with the three legal values; MU and ET are computed as in
  `SABER_params.h`.

## 3. Properties: what is modelled, how it is proved

| id | model | method |
|---|---|---|
| C01–C03 | kem.c, SABER_indcpa.c complete | refinement to `Spec.Saber` by composing C11, C14, C16–C25 |
| C04 | all of the above in `CM` | the same theorems: result is `.ok` |
| C05, C06 | spec level | algebra over `ZMod`/`Int`; rounding bounds; lifted to the model through C01–C03. That the hypothesis on the noise is met is shown on the first test vector of `KAT/LightSaber`: `Proof/VectorData.lean` (generated) has its intermediate values, each checked by the kernel (one permutation or one product at a time) and related to the specification by the lemmas of `Proof/Vector.lean`; the keys, ciphertext and shared secret are those of the file |
| C07, C08 | kem.c, verify.c | from C03 and exactness of verify/cmov |
| C09, C10 | verify.c | induction on length |
| C11–C13 | poly_mul.c | loop invariants give convolution sums; polynomial identities over Z/2^16; interpolation with 2-adic precision tracking; witness by kernel evaluation for C12 |
| C14, C15 | poly.c | composition, ring identities |
| C16–C19 | pack_unpack.c | bit-stream specification, bit by bit; round trips from the specification |
| C20 | cbd.c | arithmetic on the bit fields; the counting statement by evaluation of the complete table |
| C21, C22 | poly.c | composition |
| C23–C27 | fips202.c; for C27 also the functions of fips202.c, sha256.c, sha512.c and aes256ctr.c on one object that holds input and output (`Model/InPlace.lean`; AES-NI, Cortex-M0 and SaberX4 in `Model/InPlacePorts.lean`) | symbolic equality of the unrolled double round with two FIPS rounds, lane/bit correspondence, loop invariants for sponge |
| C28, C29 | kem.c with abstract RNG | parametricity in the RNG: result is a function of the drawn bytes |
| C30 | kem.c | list lemmas |
| C31–C34 | rng.c with abstract AES | state machine; induction over request history |
| C35 | uSaber-90s/ref | the same methods, q = 2^12 |
| C36–C39 | Cortex-M4 C code; assembly routines as parameters with stated contract | refinement to the reference model / spec; UB witness |
| C52 | the permutation of asm_KeccakF-1600.S, macro by macro, on the machine of C50 | each round run once on symbolic words by the kernel, simulation theorem, induction over the loop; bit-level semantics of the bit-interleaved representation against `Spec/Keccak.lean` |
| C53 | the Cortex-M0 C code linked with C52 | C46, C47 and the sponge theorems at the function `m0Permutation` of `Spec/M0.lean`; kernel evaluation of one SHAKE block on each side for the witness |
| C50 | kara.s, instruction by instruction, on a model of the ARMv7E-M instructions it uses | one run of the routine on symbolic operands, evaluated by the kernel, and a simulation theorem from symbolic to concrete runs; composed with C36, C39 |
| C51 | asm_funcs.S (`toom_cook_4way_mem_asm`) and mult_toom4_256_16.s, instruction by instruction, on the same machine; the C library's `memset` with value 0 by its effect | as C50, in two steps: `karatsuba_64x64` on symbolic operands, moved to any place in memory; then the outer routine on linear forms modulo `2^k` that record the precision lost by each shift, with a variable for the bit a halving drops; composed with C36 |
| C54, C55 | AVX2 code: the sequences of assignments with intrinsics are modelled by their syntax and run by an interpreter; the rest as in the reference model | symbolic run of each routine evaluated by the kernel (lane permutations, linear forms modulo `2^k` for the interpolation) and simulation theorem; composition to `Spec.Saber` |
| C56, C57 | `crypto_stream_aes256ctr.c` with the AES-NI instructions as functions on 16 bytes; KEM: the model of C55 over these symmetric functions | invariant of the loop over 128-byte chunks with an explicit formula for the counter; AES-256 is injective for a fixed key (inverse of each round), which gives the negation of the 128-bit counter claim |
| C58, C59 | SaberX4_avx2: the four-fold permutation statement by statement on vectors of four 64-bit words, fips202x4.c with families of four buffers | simulation of the four lanes by four runs of the reference sponge; UB theorem for all inputs |
| C60–C62 | SaberX4_avx2: pack_unpack.c (functions that are called), SABER_indcpa.c, kem4x.c on families of four buffers; the size of the local arrays of `shake128x4` is a parameter | blocks of the shift sequences by bit-vector extensionality; lane-wise simulation by the AVX2 KEM of C55; the overrun by running the code up to the first `shake128x4` for arbitrary inputs |
| C63 | `cbd`, `GenSecret`, `BS2POLVECq` of the reference model on all byte strings | byte strings are in bijection with families of bit patterns (pack/unpack round trips); counting over products |
| C64, C65 | `Spec/Noise.lean` (tied to the code by C06 and `C64_fails_iff`), counting in `Spec/Fraction.lean`; C65 is about the idealised exchange of `Spec/Failure.lean`, not about the code alone: independent uniform rounding errors are an assumption | generating function of the noise as a product over independent coefficients; exponential Markov inequality (for FireSaber with a quadratic correction), union over the 256 coefficients; one inequality between natural numbers per parameter set, evaluated by the kernel |
| C66 | the models of the reference implementation and of uSaber/90s over a semantics with a record of array indices, branches, loop iterations and calls of `randombytes` (`Model/Leak`, generated from the models by `tools/leakgen.py`) | erasure: without the record the functions are the models; relational rules: two runs without undefined behaviour have the same record; the functional theorems exclude undefined behaviour |
| C67 | `Variants/SaberX4_avx2/rng.c` with its five states (`Model/X4/Rng.lean`) | induction over the history; each entry point is the reference `randombytes` on its own state, C31 gives the answers |
| C68 | the programs of C50–C52, C78 and C79 with a list of what a run shows: object, position and size of every memory access, whether a conditional instruction is executed, direction of loop branches (`Model/Arm/Obs.lean`, `ObsMul.lean`) | the machine is generic in the domain of data words: a run over "unknown" words (evaluated by the kernel) simulates every concrete run and has the same list |
| C69 | the Cortex-M0 model with events (`Model/Leak/M0.lean`, generated), linked with the events of the Keccak assembly (`Model/Leak/M0Linked.lean`) | as C66; the counters of the matrix generator (static variables) are tracked as public values |
| C70 | the Cortex-M4 model with events (`Model/Leak/M4.lean`, generated), linked with the events of the two multiplications (`Model/Leak/M4Linked.lean`); calls of the hash library are one event each | as C66; the multiplications by C68; the comparison of the re-encryption by lists of equal lengths |
| C71 | the AVX2 model with events (`Model/Leak/Avx.lean`, generated; `Model/Leak/AvxMachine.lean` for the vector statements), with the symmetric functions of either directory; calls of OpenSSL are one event each | as C66; the vector statements of the multiplication have fixed positions, so one induction over statements covers them |
| C72 | the SaberX4 model with events (`Model/Leak/X4.lean`, generated; `Model/Leak/X4Machine.lean` for the groups of four statements) | as C66 |
| C73 | `rng.c` with events (`Model/Leak/Rng.lean`), carries of a counter (`Spec/Carry.lean`) | relational rule `D` that characterises when two runs have equal events, also in front of further events; equivalence by induction over the blocks |
| C74 | `main` of PQCgenKAT_kem.c over an abstract KEM API, instantiated with the four desktop implementations (`Model/KatMain.lean`); the two files as byte strings (`Spec/KatFile.lean`) | printing and scanning inverse to each other, `FindMarker`/`ReadHex` by C42, the generator by C20-C22, the KEM functions by C01-C03, C35, C55, C57; induction over the entries |
| C75, C76 | proba_util.py and `search_params` of select_params.py with dictionaries as lists of items and rational numbers (`Model/Proba.lean`); laws of random variables (`Spec/Law.lean`) | sums over keys are means over the probability space; invariant `Below` for the repeated convolution with dropped values; counting for the rounding error; induction over the loops of the search |
| C77 | the sampler `uniformRow`, `GenSecret` and the PKE of `Model/U`; the idealised exchange of `Spec/UFailure.lean` (assumption: independent uniform rounding errors) | byte strings are families of two-bit patterns; the generating function of the noise: the signs of the negacyclic product pair every factor with its mirror image, so it is the same for all coefficients; Markov inequality and one inequality between natural numbers per rank |
| C78 | the 8.5k instructions of `polymul_asm` (`Model/Arm/PolymulS.lean`, generated) on the machine of `Model/Arm/Machine.lean`, with `karatsuba_64x64` run as a called function | symbolic run over linear forms modulo 2^32 (`PDom`), with a new variable for each product of `karatsuba_64x64` (replaced by its proved contract) and for each right shift; the interpolation is solved over the integers with the lost bits as unknowns: they cancel modulo 2^13 |
| C79 | the 5.4k lines of tc.s (`Model/Arm/TcS.lean`, generated) on the machine of `Model/Arm/Machine.lean`, with `kara_strd_mem_asm` run as a called function; after the last call `lr` holds a number `ra`, the return address, because the code goes on to compute with it | symbolic run over linear forms modulo 2^16; the called function is replaced by a contract proved for arguments at arbitrary places (`Proof/Arm/KaraAt.lean`); the part before the last call is simulated twice, because a register of which the called function says nothing is used as data |
| C80 | the game of an attacker against `indcpa_kem_keypair` and `indcpa_kem_enc` as functions of the random bytes (`wins`, `finds`); the two rounding problems as differences of fractions (`Spec/Hiding.lean`) | two steps: the vector of the public key is replaced by random numbers, then the two rounded products of the ciphertext; the low ten bits of a uniform vector modulo q are uniform modulo p, and the second part of the ciphertext consists of bits of the rounded product; in the last game the message is added to uniform numbers; counting over finite types |
| C81 | eavesdroppers as trees of questions to a random function (`Alg`), the games `seesKey`, `seesSecret` (`Spec/Rom.lean`); the random function stands for SHA3-512 (SHA-512) on 64 bytes; `C81_code` shows that the code is the game with the hash functions of the code | the value of a random function at one place is a random value with which the function is changed there; whoever does not ask there sees no difference; whoever asks there has found the message, which is C80 with messages that are hashes |
| C82 | attackers as trees of three kinds of questions (`Cca`), the games `ccaReal`, `ccaOther` with the decapsulation `decapsWith` (`Spec/Cca.lean`); a second random function stands for SHA3-256 (SHA-256) on 64 bytes, independent of the hash function `h` on other lengths; `C81_code` is the tie to the code | the secret of rejection is replaced by a function of its own; decapsulation is answered from the questions asked before (induction on the tree of questions: a question with a wrong decryption, or a ciphertext that fits a message not asked for, is the only difference); then C81; then back |
| C83 | the functions of sanity_check.sage over integer polynomials modulo `x^n + 1`; random draws and the lattice reduction are parameters; the lattice, the two roundings and `FoundWith` are specified in `Spec/Planted.lean` | the basis is a permuted triangular matrix, so its determinant is `q^m`; both inclusions of the lattice by coefficients; the summary by counting rows with equal keys |
| C84 | `main` of test_kex.c and of kem.c with the functions of the scheme as in C74, an arbitrary clock, output as characters; the last lines of the AVX2 programs (times measured inside the functions, averages with a positive number of calls) are a parameter; the exchanges are specified in `Spec/Exchange.lean` | induction on the rounds with the generator's state as invariant |
| C85 | uart.c with the transmit queue of the hardware (32 bytes, emptied at an arbitrary pace), the two programs of main.c, the reading side of evaluate.py; lines specified in `Spec/Bench.lean` | induction on the bytes with the length of the queue as invariant; a port that sends nothing as witness for the limit |
| C86 | the stack measurement of main.c on a flat memory; a call is the list of the bytes that it writes | loop invariants of the two loops |
| C87 | benchmark.c with a clock-by-clock model of the SysTick timer; the moments at which the handler runs are arbitrary | invariant that relates clocks, interrupts, waiting clocks and the counter |
| C88 | rng.c as a program of single accesses to the bytes of the global state; threads interleave these accesses in any order | the program run alone is the sequential model; lock-step schedule by induction on the program; safety and bound by an invariant of each thread |
| C89 | the assignments and uses of the global vectors of the three AVX2 implementations as accesses to 64-bit words of any number of threads | invariant: every word a thread has assigned holds its constant, and no access of any thread changes that |
| C90 | poly_mul.c of the Cortex-M0 port with the global array `kara_tmp_top` as a state, and interrupt handlers that run before each of the nine products | polynomial identity of the Karatsuba step with an error term for each product; specialised to handlers that call `pol_mul`; witness |
| C91 | the byte functions of asm_KeccakF-1600.S, instruction by instruction, on a second machine with 32-bit addresses, byte memory, inaccessible bytes and alignment faults | Hoare-style triples for straight-line code, bit-level lemmas for the interleaving masks, loop invariants by induction over the number of lanes, one theorem for each function on the FIPS 202 string; induction over histories of calls |
| C92 | a type of implementations (reference, AVX2, Cortex-M4 with a library, a multiplication and a key format) that dispatches to the models of C01–C03, C55 and C36 | every implementation meets one specification; expansion of compressed keys (C36) and agreement of the specification (C05) give the mixed exchanges |
| C93 | kem.c and SABER_indcpa.c of the reference with all arguments as offsets into one object (`Model/InPlaceKem.lean`), and those of the AVX2 implementation (`Model/InPlaceAvx.lean`); the same functions of the variants (`Model/InPlaceU.lean`); `indcpa_kem_dec`, which writes only to a local array, is the model of C02 on the object from the two pointers on | the functions of the other model read and write the one object, so their theorems give each step; slices of an object after a write elsewhere. For encapsulation and for key generation the exact result for every overlap; the loop that copies the public key is proved, by induction, to repeat the first bytes if its target begins inside of its source. The AVX2 functions are proved equal to those of the reference for all placements. |
| C40, C41 | Cortex-M0 C code | UB theorem (for all inputs), refinement, witness |
| C45 | Cortex-M0 poly_mul.c | overflow witness; the multiply-accumulate step is a parameter, so every result is proved both for wrapping arithmetic and for the letter of the C standard |
| C46–C49 | Cortex-M0 C code complete; the function linked for `KeccakF1600_StatePermute` is a parameter, the hardware register of the random number generator an arbitrary sequence of words | refinement to `Spec.Saber` / `Spec.M0`; exact condition for agreement with the reference; kernel evaluation of one SHAKE block for the witness |
| C42 | PQCgenKAT_kem.c helpers | induction |
| C43, C44 | uSaber-90s sha2, aes256ctr | refinement to FIPS 180-4 / FIPS 197 |

## 4. What is modelled and what is not

| directory of `/repo` | modelled | not modelled |
|---|---|---|
| `Reference_Implementation_KEM` | kem.c, SABER_indcpa.c, poly.c, poly_mul.c, pack_unpack.c, cbd.c, verify.c, fips202.c completely; rng.c with AES-256-ECB (OpenSSL) as a parameter; PQCgenKAT_kem.c with `main` (files as byte strings), test_kex.c and kem.c with `main` | OpenSSL, opening and naming files, terminal output of PQCgenKAT_kem.c, the timing code (cpucycles.c: an arbitrary clock) |
| `Variants/uSaber-90s/ref` | all of the above with `uSaber`/`SABER_90s` switches, sha256.c, sha512.c, aes256ctr.c | |
| `Cortex-M_Implementation_KEM/Cortex-M0` | all C code of the scheme; asm_KeccakF-1600.S (the permutation on the machine of C50, the other functions on the machine of C91); uart.c, benchmark.c, main.c (programs `SPEED` and `MEMSIZE`), evaluate.py | keccakf1600.S (present, but not used), the hardware random number register (an arbitrary sequence of words), set-up of ports and peripherals, the third program of main.c, building and flashing in evaluate.py |
| `Cortex-M_Implementation_KEM/Cortex-M4` | all C code of the scheme: kem.c, SABER_indcpa.c, poly.c, pack_unpack.c, cbd.c, verify.c, and poly_mul.c of both versions; the assembly kara.s and tc.s of the striding version, and asm_funcs.S and mult_toom4_256_16.s of the tc4kara version | the hash library (`fips202.h` of the host project, not in the repository): a parameter with the contract of `Spec/M4Lib.lean` |
| `AVX_Implementation_KEM` | kem.c, SABER_indcpa.c, pack_unpack.c (the functions that are called), cbd.c, polymul/ (toom-cook_4way.c, scm_avx.c, matrix.c); fips202.c and verify.c have the text of the reference implementation (checked by comparing tokens) and use its model | rng.c (text of the reference), sample_matrix_test.c, functions that are not called, `cshake128_simple` at the end of fips202.c |
| `Variants/uSaber-90s/avx2` | crypto_stream_aes256ctr.c (key expansion, `aesni_encrypt8`, `crypto_stream_aes256ctr`), symmetric-aes.c; kem.c, SABER_indcpa.c, pack_unpack.c, cbd.c, polymul/ have the text of `AVX_Implementation_KEM` up to the names `prf`, `hash_h`, `hash_g` and use its model | SHA-256/SHA-512 of OpenSSL (parameter with a contract), the unrollings 1, 4, 6, 7, 10, 12 of the AES macro and other functions that are not called, alignment and aliasing |
| `Variants/SaberX4_avx2` | KeccakP-1600-times4-SIMD256.c (`KeccakP1600times4_PermuteAll_24rounds`), fips202x4.c, pack_unpack.c (`POLVEC2BSX4`, `BS2POLVECX4`, `SABER_pack_4bit`, `SABER_un_pack4bit`), SABER_indcpa.c, kem4x.c, kem.c; cbd.c, polymul/, verify.c and fips202.c have the text of `AVX_Implementation_KEM` up to comments and include lines and use its model | the other functions of keccak4x/ (not called), `GenMatrix`, `GenSecret`, `BS2POLq` and the packing functions that are not called, alignment; the slices of the buffers passed to the four-fold functions are modelled as separate objects |
| `Scripts` | Python_Scripts: proba_util.py (without `gaussian_center_weight`, which is not used), `search_params`; Sage_Scripts: sanity_check.sage with the random draws and the lattice reduction as parameters | the security estimate (leaky-LWE-Estimator, not in the repository): a parameter; floating point rounding; the bandwidth lines of the printout other than the two sizes; parallel execution and printing of sanity_check.sage |

The contract of the hash library (`Fips202Lib.Correct`) includes calls in which output and input are the same object
(SABER_indcpa.c:15, kem.c): the output is that of the input before the call.

Not expressible here: the duration of instructions, caches and other physical side channels (C66 and C69 to C72 cover branches and addresses at the level of the C code, not what a compiler makes of it; C68 covers those of the assembly, and takes for granted that the duration of a single instruction does not depend on its operands); secrecy in the cryptographic sense without assumptions, which is not a property of the code alone: C80 reduces the secrecy of an encryption under a chosen-plaintext attack to two rounding problems, and C81 and C82 that of the shared secret, without and with decapsulation of other ciphertexts, in the random oracle model. That the two problems are hard, and that hash functions may be replaced by random functions, are assumptions that cannot be proved. The attackers of C81 and C82 ask classical questions, not quantum questions. No time is counted (the algorithms of the reductions run the attacker once; those of C81 and C82 draw random functions, which would be drawn value by value as they are needed, and that of C82 goes through the list of questions for every decapsulation).

Trusted reading of implementation-defined behaviour: `int` has 32 bits; `>>` of a negative `int` is the arithmetic shift; conversion
to a signed type or a signed bit-field of smaller width reduces modulo `2^w`; little-endian order where the code copies words to bytes.

The reading of the code was checked once against the known-answer files of the repository: the reference model, evaluated with
`#eval` outside of the project, reproduces record 0 for the three parameter sets.  No theorem depends on this.

## 5. Trusted base

* Lean's kernel.
* The axioms `propext`, `Classical.choice`, `Quot.sound`.  Every theorem of the project depends on a subset of these three and on
  nothing else.  There are no axioms of our own, no `sorry`, no `native_decide` or `bv_decide`.  `decide +kernel` is evaluation by the kernel.
* The reading of the C code into the model (each definition cites the lines it models).
* For C50 to C53: the meaning of the ARMv7E-M instructions in `Model/Arm/Machine.lean`, written after the ARM Architecture Reference Manual.  Memory
  is a list of objects; an access outside of an object, an odd address, arithmetic on pointers other than adding a constant, and a
  comparison of unrelated values stop the machine, so a completed run contains none of these.  Conditional branches occur only as loops
  `label: ...; bne label`; calls are `bl` to a function that returns to the return address.  The instruction lists in `Model/Arm/KaraS.lean`,
  `MultS.lean`, `ToomS.lean`, `PolymulS.lean` and `TcS.lean` (C78, C79) are generated from the source by `tools/asm2lean.py`, instruction by instruction.  `memset` (C51) sets
  its range to zero, leaves `r4`-`r11`, `sp` and everything else as it was, returns its first argument in `r0`, and makes `r1`-`r3`, `ip`, `lr` and the flags undefined: an instruction that
  reads an undefined register stops the machine.
* For C54, C55: the meaning of the AVX2 intrinsics in `Model/Avx/Machine.lean` and `Model/Avx/Indcpa.lean`, written after the Intel
  intrinsics guide.  The lists of assignments in `Model/Avx/{Scm,Toom,Matrix}.lean` are generated from the source by `tools/avx2lean.py` and `tools/avxgen.py`.
* For C85, C87: the behaviour of the transmit queue and of the SysTick timer in `Model/M0/Bench.lean`, written after the XMC1100 and ARMv6-M manuals.
* For C88, C89: threads interleave single accesses (bytes in C88, 64-bit words in C89; sequential consistency). The C standard gives unsynchronised accesses no meaning; the theorems say what happens if each access takes effect in some order.
* For C91: the meaning of the ARMv6-M instructions in `Model/Arm/Thumb.lean` is written by hand. Labels stand for addresses of code; only the six return addresses inside of the functions are numbers (any six different ones that differ from the caller's). The two tables of constants are at any address outside of the state, the stack and the output. A comparison sets the flags that `beq`, `bne` and `ble` read and no others. Histories contain the calls of these functions; the permutation is on the other machine (C52).
* For C90: interrupts come only before one of the nine calls of `unrolled_kara_mem_bottom`; its own global array `kara_tmp` is a local of the model (it holds nothing needed at these moments).
* For C56, C57: the meaning of AESENC, AESENCLAST, AESKEYGENASSIST and the SSE instructions in `Model/Avx/AesNi.lean`, written after the Intel manual; for C57 the contract `ShaLib.Correct` on OpenSSL.
  Alignment of `__m256i` objects is not modelled.  `pack_unpack.c` writes the same expressions as the reference implementation;
  `tools/cmppack.py` compares them.
* For C58–C62: the meaning of the AVX2 intrinsics in `Model/X4/Keccak.lean` and of those in `Model/X4/Vec.lean`
  (shift sequences generated by `tools/x4pack.py` into `Model/X4/Shifts.lean`); `Model/X4/Keccak.lean` is generated from the source by `tools/keccak4x2lean.py`, and
  `tools/x4check.py` checks that the groups of four statements that the model writes once differ in the index only.  Alignment is not modelled.
* The specification files `Verif/Spec/*.lean` and, where an external component is a parameter, its contract there.
