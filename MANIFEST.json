{
 "claims": [
  {
   "property": "C01",
   "status": "proved",
   "theorems": [
    "Saber.Props.C01_keypair_spec"
   ],
   "note": "All three parameter sets; every random number generator that delivers its bytes; refinement of kem.c/SABER_indcpa.c to Spec/Saber."
  },
  {
   "property": "C02",
   "status": "proved",
   "theorems": [
    "Saber.Props.C02_enc_spec"
   ],
   "note": "Every public key of the right length, not only honest ones."
  },
  {
   "property": "C03",
   "status": "proved",
   "theorems": [
    "Saber.Props.C03_dec_spec"
   ],
   "note": "Every secret key and ciphertext of the right length."
  },
  {
   "property": "C04",
   "status": "proved",
   "theorems": [
    "Saber.Props.C04_no_UB"
   ],
   "note": "The model returns .ok: no out-of-bounds access, no signed overflow, no bad shift."
  },
  {
   "property": "C05",
   "status": "proved",
   "theorems": [
    "Saber.Props.C05_agreement",
    "Saber.Props.C05_vector_noise",
    "Saber.Props.C05_vector"
   ],
   "note": "Agreement whenever the noise of the exchange is in range; the exact criterion is C06. C05_vector_noise and C05_vector show that the hypothesis is met: they evaluate the whole exchange of the first LightSaber test vector in the kernel and find the bytes of KAT/LightSaber."
  },
  {
   "property": "C06",
   "status": "proved",
   "theorems": [
    "Saber.Props.C06_failure_criterion"
   ],
   "note": "Exact: bit i is decrypted correctly iff noise coefficient i is in [-q/4, q/4) modulo q."
  },
  {
   "property": "C07",
   "status": "proved",
   "theorems": [
    "Saber.Props.C07_implicit_rejection",
    "Saber.Props.C07_rejection_key_only_z"
   ],
   "note": ""
  },
  {
   "property": "C08",
   "status": "proved",
   "theorems": [
    "Saber.Props.C08_accept",
    "Saber.Props.C08_accepted_unique"
   ],
   "note": ""
  },
  {
   "property": "C09",
   "status": "proved",
   "theorems": [
    "Saber.Props.C09_verify"
   ],
   "note": ""
  },
  {
   "property": "C10",
   "status": "proved",
   "theorems": [
    "Saber.Props.C10_cmov"
   ],
   "note": ""
  },
  {
   "property": "C11",
   "status": "proved",
   "theorems": [
    "Saber.Props.C11_poly_mul_acc",
    "Saber.Props.C11_poly_mul_acc_coeff",
    "Saber.Props.C11_Rq_coefficients"
   ],
   "note": ""
  },
  {
   "property": "C12",
   "status": "proved",
   "theorems": [
    "Saber.Props.C12_precision_13_bits"
   ],
   "note": "The product is correct modulo 2^13 for all operands (C11) and there are operands for which it is wrong modulo 2^14."
  },
  {
   "property": "C13",
   "status": "proved",
   "theorems": [
    "Saber.Props.C13_karatsuba"
   ],
   "note": ""
  },
  {
   "property": "C14",
   "status": "proved",
   "theorems": [
    "Saber.Props.C14_MatrixVectorMul",
    "Saber.Props.C14_InnerProd"
   ],
   "note": ""
  },
  {
   "property": "C15",
   "status": "proved",
   "theorems": [
    "Saber.Props.C15_exchange"
   ],
   "note": ""
  },
  {
   "property": "C16",
   "status": "proved",
   "theorems": [
    "Saber.Props.C16_pack_unpack",
    "Saber.Props.C16_unpack_pack"
   ],
   "note": ""
  },
  {
   "property": "C17",
   "status": "proved",
   "theorems": [
    "Saber.Props.C17_pack_unpack",
    "Saber.Props.C17_unpack_pack"
   ],
   "note": ""
  },
  {
   "property": "C18",
   "status": "proved",
   "theorems": [
    "Saber.Props.C18_pack_unpack",
    "Saber.Props.C18_unpack_pack"
   ],
   "note": ""
  },
  {
   "property": "C19",
   "status": "proved",
   "theorems": [
    "Saber.Props.C19_collect",
    "Saber.Props.C19_expand_collect"
   ],
   "note": ""
  },
  {
   "property": "C20",
   "status": "proved",
   "theorems": [
    "Saber.Props.C20_cbd",
    "Saber.Props.C20_distribution"
   ],
   "note": ""
  },
  {
   "property": "C21",
   "status": "proved",
   "theorems": [
    "Saber.Props.C21_GenMatrix"
   ],
   "note": ""
  },
  {
   "property": "C22",
   "status": "proved",
   "theorems": [
    "Saber.Props.C22_GenSecret"
   ],
   "note": ""
  },
  {
   "property": "C23",
   "status": "proved",
   "theorems": [
    "Saber.Props.C23_keccakF",
    "Saber.Props.C23_round_constants"
   ],
   "note": ""
  },
  {
   "property": "C24",
   "status": "proved",
   "theorems": [
    "Saber.Props.C24_sha3_256",
    "Saber.Props.C24_sha3_512"
   ],
   "note": ""
  },
  {
   "property": "C25",
   "status": "proved",
   "theorems": [
    "Saber.Props.C25_shake128"
   ],
   "note": ""
  },
  {
   "property": "C26",
   "status": "proved",
   "theorems": [
    "Saber.Props.C26_shake_stream"
   ],
   "note": ""
  },
  {
   "property": "C27",
   "status": "proved",
   "theorems": [
    "Saber.Props.C27_in_place",
    "Saber.Props.C27_in_place_variants",
    "Saber.Props.C27_calls",
    "Saber.Props.C27_in_place_aesni",
    "Saber.Props.C27_in_place_m0",
    "Saber.Props.C27_in_place_x4",
    "Saber.Props.C27_calls_ports"
   ],
   "note": "Model/InPlace.lean has the functions with one object for input and output, so that a write through the output pointer changes what a later read of the input returns. C27_calls: the calls in place in the KEM models are calls of these functions."
  },
  {
   "property": "C28",
   "status": "proved",
   "theorems": [
    "Saber.Props.C28_rng_consumption"
   ],
   "note": ""
  },
  {
   "property": "C29",
   "status": "proved",
   "theorems": [
    "Saber.Props.C29_raw_rng_not_published"
   ],
   "note": ""
  },
  {
   "property": "C30",
   "status": "proved",
   "theorems": [
    "Saber.Props.C30_layout_sizes",
    "Saber.Props.C30_sizes"
   ],
   "note": ""
  },
  {
   "property": "C31",
   "status": "proved",
   "theorems": [
    "Saber.Props.C31_cipher_exists",
    "Saber.Props.C31_init",
    "Saber.Props.C31_randombytes",
    "Saber.Props.C31_counter",
    "Saber.Props.C31_wrap"
   ],
   "note": "For every block cipher with 16-byte blocks in place of AES-256. The return code of randombytes is the constant 0 and is not in the model."
  },
  {
   "property": "C32",
   "status": "proved",
   "theorems": [
    "Saber.Props.C32_history",
    "Saber.Props.C32_overflow",
    "Saber.Props.C32_long_request"
   ],
   "note": "Both directions: no undefined behaviour up to 2^31-2 calls, signed overflow in call 2^31-1."
  },
  {
   "property": "C33",
   "status": "proved",
   "theorems": [
    "Saber.Props.C33_init_reject",
    "Saber.Props.C33_reject",
    "Saber.Props.C33_null",
    "Saber.Props.C33_C34_history"
   ],
   "note": "For every history of requests."
  },
  {
   "property": "C34",
   "status": "proved",
   "theorems": [
    "Saber.Props.C33_C34_history",
    "Saber.Props.C34_chunking"
   ],
   "note": "For every history of requests."
  },
  {
   "property": "C35",
   "status": "proved",
   "theorems": [
    "Saber.Props.C35_uniform_secret",
    "Saber.Props.C35_uniform_patterns",
    "Saber.Props.C35_pack12_unpack",
    "Saber.Props.C35_unpack12_pack",
    "Saber.Props.C35_keypair_spec",
    "Saber.Props.C35_enc_spec",
    "Saber.Props.C35_dec_spec",
    "Saber.Props.C35_no_UB",
    "Saber.Props.C35_agreement",
    "Saber.Props.C35_failure_criterion",
    "Saber.Props.C35_implicit_rejection",
    "Saber.Props.C35_plain_is_reference",
    "Saber.Props.C35_sizes"
   ],
   "note": "All twelve builds (three ranks, uSaber on/off, 90s on/off) of Variants/uSaber-90s/ref: key generation, encapsulation and decapsulation equal the specification, no undefined behaviour, exact failure criterion, and equality with the reference implementation when both options are off."
  },
  {
   "property": "C36",
   "status": "proved",
   "theorems": [
    "Saber.Props.C36_keypair_spec",
    "Saber.Props.C36_enc_spec",
    "Saber.Props.C36_dec_spec",
    "Saber.Props.C36_same_as_reference"
   ],
   "note": "All C files of the Cortex-M4 implementation, for the three parameter sets, with and without SABER_COMPRESS_SECRETKEY. The hash library of the host project and the multiplication are parameters with the contracts of Spec/M4Lib.lean; the striding multiplier in C meets its contract (C39), given the contract of its assembly subroutine."
  },
  {
   "property": "C37",
   "status": "proved",
   "theorems": [
    "Saber.Props.C37_enc_cmp",
    "Saber.Props.C37_cmp_enc"
   ],
   "note": "Value of the flag for every ciphertext, message, coins and public key (C37_enc_cmp), and agreement with the non-comparing encryption (C37_cmp_enc)."
  },
  {
   "property": "C38",
   "status": "proved",
   "theorems": [
    "Saber.Props.C38_lossless",
    "Saber.Props.C38_same_decapsulation"
   ],
   "note": "C38_lossless: restored if and only if all coefficients are in [-8,8); C38_same_decapsulation: key pairs with the compressed and the uncompressed format decapsulate every ciphertext to the same secret."
  },
  {
   "property": "C39",
   "status": "proved",
   "theorems": [
    "Saber.Props.C39_wrap_correct",
    "Saber.Props.C39_strict_overflow"
   ],
   "note": "With wrap-around the C routine is correct modulo 2^13 for every pair of operands; with the arithmetic of the C standard it overflows already for X^3 times 1. The assembly routine kara_strd_mem_asm is a parameter with the contract Kara.Correct."
  },
  {
   "property": "C40",
   "status": "proved",
   "theorems": [
    "Saber.Props.C40_dec_out_of_bounds",
    "Saber.Props.C40_dec_undefined",
    "Saber.Props.C40_decrypt_needs_512"
   ],
   "note": "The claim of memory safety is false of the code: proved that every decapsulation writes out of bounds. The Keccak permutation is assembly on the M0 and is assumed to be Keccak-f."
  },
  {
   "property": "C41",
   "status": "proved",
   "theorems": [
    "Saber.Props.C41_pol_mul",
    "Saber.Props.C41_pol_mul_strict",
    "Saber.Props.C41_pol_mul_eq_reference",
    "Saber.Props.C41_verify",
    "Saber.Props.C41_cmov",
    "Saber.Props.C41_pack",
    "Saber.Props.C41_unpack",
    "Saber.Props.C41_pack3_effect",
    "Saber.Props.C41_pack3_no_round_trip",
    "Saber.Props.C41_gen_matrix",
    "Saber.Props.C41_gen_secret"
   ],
   "note": "3-bit packing is proved not to round trip, with its exact effect; all other packing, the multiplication, the matrix and the secret agree with the reference."
  },
  {
   "property": "C42",
   "status": "proved",
   "theorems": [
    "Saber.Props.C42_FindMarker",
    "Saber.Props.C42_ReadHex",
    "Saber.Props.C42_ReadHex_blank",
    "Saber.Props.C42_ReadHex_missing",
    "Saber.Props.C42_fprintBstr",
    "Saber.Props.C42_round_trip",
    "Saber.Props.C42_empty"
   ],
   "note": "fscanf/fprintf/isxdigit/strncmp on the C locale are modelled on byte lists; files are byte lists read from the current position."
  },
  {
   "property": "C43",
   "status": "proved",
   "theorems": [
    "Saber.Props.C43_sha256",
    "Saber.Props.C43_sha512"
   ],
   "note": "The specification derives the constants from prime roots and is checked on the FIPS test message."
  },
  {
   "property": "C44",
   "status": "proved",
   "theorems": [
    "Saber.Props.C44_prf",
    "Saber.Props.C44_incremental"
   ],
   "note": "The bit-sliced cipher, its key schedule, and both the one-shot and the incremental interface. The 32-bit counter wraps."
  },
  {
   "property": "C45",
   "status": "proved",
   "theorems": [
    "Saber.Props.C45_pol_mul_overflow",
    "Saber.Props.C45_pol_mul_overflow_reachable"
   ],
   "note": "The claim of freedom from overflow is false of the code: proved negation with a reachable witness, and a criterion for the overflow in the first product. C41 shows overflow is the only undefined behaviour."
  },
  {
   "property": "C46",
   "status": "proved",
   "theorems": [
    "Saber.Props.C46_keypair",
    "Saber.Props.C46_equals_reference",
    "Saber.Props.C46_keypair_strict"
   ],
   "note": "For every function the calls of KeccakF1600_StatePermute are linked with; equality with the reference if that function is Keccak-f[1600]. The Makefile links another one: C53."
  },
  {
   "property": "C47",
   "status": "proved",
   "theorems": [
    "Saber.Props.C47_enc",
    "Saber.Props.C47_enc_strict",
    "Saber.Props.C47_interoperable_iff",
    "Saber.Props.C47_not_interoperable",
    "Saber.Props.C47_decrypt"
   ],
   "note": "The claim of interoperability is false of the code: exact condition and a witness are proved. The part on encapsulation and decryption holds for every linked permutation; the comparison with the reference is with both sides using Keccak-f[1600]."
  },
  {
   "property": "C48",
   "status": "proved",
   "theorems": [
    "Saber.Props.C48_seed_half_zero",
    "Saber.Props.C48_randombytes"
   ],
   "note": "The hardware PRNG is an arbitrary sequence of words."
  },
  {
   "property": "C49",
   "status": "proved",
   "theorems": [
    "Saber.Props.C49_cshake_ignores_customisation"
   ],
   "note": "For every function the calls of KeccakF1600_StatePermute are linked with."
  },
  {
   "property": "C50",
   "status": "proved",
   "theorems": [
    "Saber.Props.C50_kara",
    "Saber.Props.C50_kara_contract",
    "Saber.Props.C50_toom_striding",
    "Saber.Props.C50_kem_striding",
    "Saber.Props.C50_kara_stack"
   ],
   "note": "Instruction-level model of kara.s. The kernel runs the routine once on symbolic operands (linear and bilinear forms over Z/2^16); a simulation theorem carries the result to every concrete run."
  },
  {
   "property": "C51",
   "status": "proved",
   "theorems": [
    "Saber.Props.C51_toom",
    "Saber.Props.C51_toom_contract",
    "Saber.Props.C51_kem_tc4kara",
    "Saber.Props.C51_multiplications_agree"
   ],
   "note": "Instruction-level model of asm_funcs.S and of karatsuba_64x64/schoolbook_16x16. Kernel-evaluated symbolic runs (bilinear forms for the inner multiplication, linear forms modulo 2^k with carry variables for evaluation and interpolation) and simulation theorems that carry them to every concrete run."
  },
  {
   "property": "C52",
   "status": "proved",
   "theorems": [
    "Saber.Props.C52_keccak_asm"
   ],
   "note": "Instruction-level model of asm_KeccakF-1600.S. The kernel runs each of the 24 rounds once on symbolic words (XOR-linear forms of rotated words, and chi terms); a simulation theorem carries this to every concrete run; the loop is handled by induction."
  },
  {
   "property": "C53",
   "status": "proved",
   "theorems": [
    "Saber.Props.C53_hash",
    "Saber.Props.C53_not_fips202",
    "Saber.Props.C53_kem",
    "Saber.Props.C53_decrypt",
    "Saber.Props.C53_keypair_differs"
   ],
   "note": "The claim that the build computes FIPS 202 is false of the code: the function it computes, a witness and the consequence for key generation are proved."
  },
  {
   "property": "C54",
   "status": "proved",
   "theorems": [
    "Saber.Props.C54_inner_product",
    "Saber.Props.C54_product",
    "Saber.Props.C54_agrees_with_reference"
   ],
   "note": "Statement-level model of the AVX2 routines (every assignment of intrinsics, transcribed by script). Kernel-evaluated symbolic runs and a simulation theorem carry them to all inputs. The model has no alignment faults."
  },
  {
   "property": "C55",
   "status": "proved",
   "theorems": [
    "Saber.Props.C55_keypair_spec",
    "Saber.Props.C55_enc_spec",
    "Saber.Props.C55_dec_spec",
    "Saber.Props.C55_equals_reference",
    "Saber.Props.C55_no_UB"
   ],
   "note": "fips202.c and verify.c of this directory have the text of the reference (checked by comparison of tokens) and use its model."
  },
  {
   "property": "C56",
   "status": "proved",
   "theorems": [
    "Saber.Props.C56_ctr128",
    "Saber.Props.C56_no_carry",
    "Saber.Props.C56_not_ctr128",
    "Saber.Props.C56_overlap",
    "Saber.Props.C56_prf"
   ],
   "note": "The claim is false of the code for nonces whose lower half is a multiple of 8 (the carry into the higher half is lost): C56_no_carry states the exact behaviour, C56_not_ctr128 the negation, C56_overlap the consequence; C56_ctr128 proves the claim for all other nonces and for calls without overflow. C56_prf, the call the KEM makes, has no restriction but 2^36 bytes."
  },
  {
   "property": "C57",
   "status": "proved",
   "theorems": [
    "Saber.Props.C57_keypair_spec",
    "Saber.Props.C57_enc_spec",
    "Saber.Props.C57_dec_spec",
    "Saber.Props.C57_equals_ref",
    "Saber.Props.C57_default_builds_differ"
   ],
   "note": "SHA-256 and SHA-512 of OpenSSL are a parameter with the contract ShaLib.Correct; the code of the ref directory meets it (sha_correct)."
  },
  {
   "property": "C58",
   "status": "proved",
   "theorems": [
    "Saber.Props.C58_permutation",
    "Saber.Props.C58_sha3_256x4",
    "Saber.Props.C58_sha3_512x4",
    "Saber.Props.C58_shake256x4"
   ],
   "note": "Reading of the intrinsics in Model/X4/Keccak.lean (generated by tools/keccak4x2lean.py) is trusted; alignment is not modelled."
  },
  {
   "property": "C59",
   "status": "proved",
   "theorems": [
    "Saber.Props.C59_shake128x4_overrun",
    "Saber.Props.C59_lengths_of_the_calls",
    "Saber.Props.C59_shake128x4_multiple",
    "Saber.Props.C59_shake128x4_repaired"
   ],
   "note": "The claim is false of the code: the exact behaviour for every length is proved (out-of-bounds write unless the length is a multiple of 168), and correctness of the function with arrays of SHAKE128_RATE bytes."
  },
  {
   "property": "C60",
   "status": "proved",
   "theorems": [
    "Saber.Props.C60_pack_p",
    "Saber.Props.C60_pack_q",
    "Saber.Props.C60_unpack",
    "Saber.Props.C60_round_trip"
   ],
   "note": "Shift sequences generated by tools/x4pack.py; the vector stores of one byte at a time are read as in the source."
  },
  {
   "property": "C61",
   "status": "proved",
   "theorems": [
    "Saber.Props.C61_keypair_spec",
    "Saber.Props.C61_enc_spec",
    "Saber.Props.C61_dec_spec",
    "Saber.Props.C61_equals_four_calls"
   ],
   "note": "Proved for the program with local arrays of 168 bytes in shake128x4 (a parameter of the model); of the actual code (parameter 136) every call is undefined, which is C62."
  },
  {
   "property": "C62",
   "status": "proved",
   "theorems": [
    "Saber.Props.C62_every_call_overruns",
    "Saber.Props.C62_repaired_no_UB"
   ],
   "note": "The claim is false of the code: C62_every_call_overruns proves that every call of the three functions writes out of bounds; with arrays of 168 bytes no call has undefined behaviour."
  },
  {
   "property": "C63",
   "status": "proved",
   "theorems": [
    "Saber.Props.C63_joint_law",
    "Saber.Props.C63_secret_law",
    "Saber.Props.C63_GenSecret",
    "Saber.Props.C63_matrix_law"
   ],
   "note": "Counts byte strings; that SHAKE-128 output is uniform is not part of the model."
  },
  {
   "property": "C64",
   "status": "proved",
   "theorems": [
    "Saber.Props.C64_failure_bound",
    "Saber.Props.C64_fails_iff"
   ],
   "note": "Holds for every matrix with the real rounding errors; C64_fails_iff ties the event to indcpa_kem_dec. The bound is weaker than C65 because it assumes nothing about the rounding errors."
  },
  {
   "property": "C65",
   "status": "proved",
   "theorems": [
    "Saber.Props.C65_ideal_failure_bound"
   ],
   "note": "About the idealised exchange: independent uniform rounding errors and cut-off parts take the place of those of the code (the assumption of the parameter scripts). The bound is proved with exponential moments."
  },
  {
   "property": "C66",
   "status": "proved",
   "theorems": [
    "Saber.Props.C66_same_functions",
    "Saber.Props.C66_keypair_constant_time",
    "Saber.Props.C66_enc_constant_time",
    "Saber.Props.C66_dec_constant_time",
    "Saber.Props.C66_variants_same_functions",
    "Saber.Props.C66_variants_keypair_constant_time",
    "Saber.Props.C66_variants_enc_constant_time",
    "Saber.Props.C66_variants_dec_constant_time"
   ],
   "note": "Model/Leak repeats the models over a semantics that records array indices, branches, loop iterations and calls of randombytes; C66_same_functions and C66_variants_same_functions say that without the record they are the models. Instruction timing, compiler-introduced branches and the inside of randombytes are outside of the model."
  },
  {
   "property": "C67",
   "status": "proved",
   "theorems": [
    "Saber.Props.C67_interleaving",
    "Saber.Props.C67_not_independent",
    "Saber.Props.C67_as_reference"
   ],
   "note": "The block cipher is a parameter, as for C31. Outcome of note: the four extra generators repeat the stream of the main one."
  },
  {
   "property": "C68",
   "status": "proved",
   "theorems": [
    "Saber.Props.C68_kara",
    "Saber.Props.C68_toom",
    "Saber.Props.C68_keccak",
    "Saber.Props.C68_polymul",
    "Saber.Props.C68_striding"
   ],
   "note": "Model/Arm/Obs.lean and ObsMul.lean list object, position and size of each access, execution of conditional instructions and loop branches. Duration of single instructions is outside of the model."
  },
  {
   "property": "C69",
   "status": "proved",
   "theorems": [
    "Saber.Props.C69_same_functions",
    "Saber.Props.C69_keypair_constant_time",
    "Saber.Props.C69_enc_constant_time",
    "Saber.Props.C69_decrypt_constant_time",
    "Saber.Props.C69_strict"
   ],
   "note": "Wrapping int arithmetic as compiled; C69_strict covers the letter of the C standard. C69_same_functions: without the record these are the modelled functions. Decryption is stated for the 512-byte buffer it needs, because crypto_kem_dec has no defined run (C40)."
  },
  {
   "property": "C70",
   "status": "proved",
   "theorems": [
    "Saber.Props.C70_same_functions",
    "Saber.Props.C70_keypair_constant_time",
    "Saber.Props.C70_enc_constant_time",
    "Saber.Props.C70_dec_constant_time",
    "Saber.Props.C70_dec_strict"
   ],
   "note": "For every correct hash library; what the library does inside is observed only as a call with its positions and lengths, as the library is not part of this code. int overflow wraps, as compiled; C70_dec_strict covers the letter of the C standard. C70_same_functions: without the record these are the modelled functions."
  },
  {
   "property": "C71",
   "status": "proved",
   "theorems": [
    "Saber.Props.C71_same_functions",
    "Saber.Props.C71_keypair_constant_time",
    "Saber.Props.C71_enc_constant_time",
    "Saber.Props.C71_dec_constant_time",
    "Saber.Props.C71_90s_constant_time",
    "Saber.Props.C71_nonce_is_public"
   ],
   "note": "OpenSSL (SHA-256 and SHA-512) is observed only as a call with its positions and lengths, as it is not part of this code. C71_same_functions: without the record these are the modelled functions."
  },
  {
   "property": "C72",
   "status": "proved",
   "theorems": [
    "Saber.Props.C72_same_functions",
    "Saber.Props.C72_keypair_constant_time",
    "Saber.Props.C72_enc_constant_time",
    "Saber.Props.C72_dec_constant_time"
   ],
   "note": "As in C61 for the code with the arrays t0..t3 of shake128x4 enlarged; with their size in the code every call has undefined behaviour (C62). C72_same_functions: without the record these are the modelled functions."
  },
  {
   "property": "C73",
   "status": "proved",
   "theorems": [
    "Saber.Props.C73_same_functions",
    "Saber.Props.C73_init_constant_time",
    "Saber.Props.C73_randombytes_exact",
    "Saber.Props.C73_key_not_shown",
    "Saber.Props.C73_no_wrap_no_leak",
    "Saber.Props.C73_not_constant_time",
    "Saber.Props.C73_seedexpander_constant_time"
   ],
   "note": "C73_not_constant_time is a negative result about the code. The accesses inside the block cipher (OpenSSL) are not modelled; one call of it is one event."
  },
  {
   "property": "C74",
   "status": "proved",
   "theorems": [
    "Saber.Props.C74_reference",
    "Saber.Props.C74_variants",
    "Saber.Props.C74_avx",
    "Saber.Props.C74_avx_90s",
    "Saber.Props.C74_return_value",
    "Saber.Props.C74_same_files",
    "Saber.Props.C74_90s_files_differ"
   ],
   "note": "Files are byte strings: opening them, their names, the messages on the terminal and rewinding are not modelled. C74_90s_files_differ is a finding about Variants/uSaber-90s/avx2/api.h."
  },
  {
   "property": "C75",
   "status": "proved",
   "theorems": [
    "Saber.Props.C75_convolution",
    "Saber.Props.C75_product",
    "Saber.Props.C75_repeated",
    "Saber.Props.C75_binomial",
    "Saber.Props.C75_rounding_error",
    "Saber.Props.C75_rounding_differs",
    "Saber.Props.C75_conditioned",
    "Saber.Props.C75_moments"
   ],
   "note": "The numbers are rationals in the model; rounding of floating point numbers is not modelled. C75_rounding_differs is a negative result about the script."
  },
  {
   "property": "C76",
   "status": "proved",
   "theorems": [
    "Saber.Props.C76_tail_exact",
    "Saber.Props.C76_tail_difference",
    "Saber.Props.C76_tail_not_documented",
    "Saber.Props.C76_search",
    "Saber.Props.C76_sizes"
   ],
   "note": "C76_tail_not_documented is a negative result: the function does not return what its documentation says. The security estimate comes from a library outside of the repository and is a parameter."
  },
  {
   "property": "C77",
   "status": "proved",
   "theorems": [
    "Saber.Props.C77_joint_law",
    "Saber.Props.C77_secret_law",
    "Saber.Props.C77_GenSecret",
    "Saber.Props.C77_fails_iff",
    "Saber.Props.C77_ideal_failure_bound",
    "Saber.Props.C77_ideal_failure_bound_binomial"
   ],
   "note": "C77_ideal_failure_bound is about the idealised exchange of Spec/UFailure.lean: independent uniform rounding errors are an assumption, as in the analysis of the submission. C77_fails_iff ties the failure of an exchange to the code."
  },
  {
   "property": "C78",
   "status": "proved",
   "theorems": [
    "Saber.Props.C78_polymul",
    "Saber.Props.C78_reduced"
   ],
   "note": "The function is declared, but its calls are commented out in poly_mul.c (the C code calls asm_funcs.S instead). The three arrays are disjoint objects, as in the commented calls."
  },
  {
   "property": "C79",
   "status": "proved",
   "theorems": [
    "Saber.Props.C79_result",
    "Saber.Props.C79_zero",
    "Saber.Props.C79_wrong",
    "Saber.Props.C79_not_correct"
   ],
   "note": "The code violates what its declaration promises: proved as the exact behaviour and as the negation of the contract of a multiplication. The function is declared, but its call is commented out in poly_mul.c. The address of the instruction after the last call is a parameter; C79_zero assumes that it is odd, as for every Thumb return address, C79_wrong and C79_not_correct assume nothing about it."
  },
  {
   "property": "C80",
   "status": "proved",
   "theorems": [
    "Saber.Props.C80_hiding",
    "Saber.Props.C80_hiding_variants",
    "Saber.Props.C80_one_way",
    "Saber.Props.C80_one_way_variants"
   ],
   "note": "A reduction: that the two advantages are small is the assumption on which the scheme is built, not something that can be proved. The expansion of seeds is part of the two problems, so no random oracle is used. The events are stated with the code; the two advantages with the specification of the matrix and of the secrets, which C02 and its companions tie to the code."
  },
  {
   "property": "C81",
   "status": "proved",
   "theorems": [
    "Saber.Props.C81_code",
    "Saber.Props.C81_code_variants",
    "Saber.Props.C81_first_key",
    "Saber.Props.C81_first_key_variants",
    "Saber.Props.C81_secret_code",
    "Saber.Props.C81_secret_code_variants",
    "Saber.Props.C81_shared_secret",
    "Saber.Props.C81_shared_secret_variants"
   ],
   "note": "Random oracle model: the game has a random function in the place of the hash function with 64 bytes of output; C81_code and C81_code_variants show that the code is the game with the hash function in this place. All other hash values are those of the code."
  },
  {
   "property": "C82",
   "status": "proved",
   "theorems": [
    "Saber.Props.C82_chosen_ciphertexts",
    "Saber.Props.C82_chosen_ciphertexts_variants"
   ],
   "note": "Random oracle model with two random functions: the hash function with 64 bytes of output, and the hash function with 32 bytes of output on inputs of 64 bytes. The tie to the code is C81_code and C81_code_variants. Bounds on wrong decryption of the worst message and on repeated ciphertexts appear as quantities of the scheme (failureOf, repeatOf)."
  },
  {
   "property": "C83",
   "status": "proved",
   "theorems": [
    "Saber.Props.C83_instances",
    "Saber.Props.C83_rounding_differs",
    "Saber.Props.C83_subset",
    "Saber.Props.C83_every_subset",
    "Saber.Props.C83_lattice",
    "Saber.Props.C83_planted",
    "Saber.Props.C83_found",
    "Saber.Props.C83_summary",
    "Saber.Props.C83_monotone"
   ],
   "note": "The lattice reduction and all random draws are parameters. The tie rounding of the script differs from that of Saber (C83_rounding_differs)."
  },
  {
   "property": "C84",
   "status": "proved",
   "theorems": [
    "Saber.Props.C84_reference",
    "Saber.Props.C84_variants",
    "Saber.Props.C84_avx",
    "Saber.Props.C84_avx_90s",
    "Saber.Props.C84_exit_status",
    "Saber.Props.C84_deterministic",
    "Saber.Props.C84_verdict",
    "Saber.Props.C84_kem_reference",
    "Saber.Props.C84_kem_variants"
   ],
   "note": "C84_exit_status is the defect: the exit status is 0 also after a failed exchange. C84_deterministic and C84_verdict follow from the description TestBehaviour, which C84_reference, C84_variants, C84_avx and C84_avx_90s prove of the programs."
  },
  {
   "property": "C85",
   "status": "proved",
   "theorems": [
    "Saber.Props.C85_send_trace",
    "Saber.Props.C85_send_trace_sharp",
    "Saber.Props.C85_send_word",
    "Saber.Props.C85_write",
    "Saber.Props.C85_write_sharp",
    "Saber.Props.C85_prng_message",
    "Saber.Props.C85_read",
    "Saber.Props.C85_read_overflow",
    "Saber.Props.C85_evaluate"
   ],
   "note": "The set-up of the peripheral is not modelled. That a queue becomes empty at some time is taken for granted."
  },
  {
   "property": "C86",
   "status": "proved",
   "theorems": [
    "Saber.Props.C86_report",
    "Saber.Props.C86_independent",
    "Saber.Props.C86_never_more",
    "Saber.Props.C86_exact",
    "Saber.Props.C86_underreport",
    "Saber.Props.C86_below",
    "Saber.Props.C86_printed"
   ],
   "note": "Flat memory; a call is the list of the bytes that it writes. C86_underreport shows that the report can be too small."
  },
  {
   "property": "C87",
   "status": "proved",
   "theorems": [
    "Saber.Props.C87_report",
    "Saber.Props.C87_exact",
    "Saber.Props.C87_setup",
    "Saber.Props.C87_printed",
    "Saber.Props.C87_long_wrong",
    "Saber.Props.C87_race",
    "Saber.Props.C87_race_reached",
    "Saber.Props.C87_next",
    "Saber.Props.C87_next_reached",
    "Saber.Props.C87_double_start"
   ],
   "note": "The timer is modelled clock by clock; the handler runs at one clock. C87_long_wrong, C87_race and C87_next are the deviations."
  },
  {
   "property": "C88",
   "status": "proved",
   "theorems": [
    "Saber.Props.C88_fair",
    "Saber.Props.C88_alone",
    "Saber.Props.C88_same_bytes",
    "Saber.Props.C88_keypair_alone",
    "Saber.Props.C88_same_key_pair",
    "Saber.Props.C88_same_shared_secret",
    "Saber.Props.C88_any_schedule"
   ],
   "note": "Negative result with the positive part: C88_same_bytes, C88_same_key_pair and C88_same_shared_secret show what the missing lock allows; C88_any_schedule is what holds under every schedule."
  },
  {
   "property": "C89",
   "status": "proved",
   "theorems": [
    "Saber.Props.C89_constants_any_schedule",
    "Saber.Props.C89_finished",
    "Saber.Props.C89_model_constants"
   ],
   "note": "C89_model_constants ties the constants to the sequential AVX2 model. The order of uses within a call is left open."
  },
  {
   "property": "C90",
   "status": "proved",
   "theorems": [
    "Saber.Props.C90_history",
    "Saber.Props.C90_interrupted",
    "Saber.Props.C90_harmless",
    "Saber.Props.C90_not_reentrant"
   ],
   "note": "The code is not reentrant: C90_not_reentrant (witness for each of the five moments), C90_interrupted (exact result). Interrupts come before one of the nine products, not inside unrolled_kara_mem_bottom."
  },
  {
   "property": "C91",
   "status": "proved",
   "theorems": [
    "Saber.Props.C91_initialize",
    "Saber.Props.C91_stateInitialize",
    "Saber.Props.C91_stateComplementBit",
    "Saber.Props.C91_stateXORBytes",
    "Saber.Props.C91_stateExtractBytes",
    "Saber.Props.C91_history"
   ],
   "note": "One theorem for each function, for every offset, length and alignment; C91_history for sequences of calls with other code between them."
  },
  {
   "property": "C92",
   "status": "proved",
   "theorems": [
    "Saber.Props.C92_same_keys",
    "Saber.Props.C92_same_encapsulation",
    "Saber.Props.C92_agreement"
   ],
   "note": "Relies on the contracts of Spec/M4Lib.lean for the Cortex-M4 library and multiplication; agreement has the noise hypothesis of C05. An example mixes three implementations on the first LightSaber test vector."
  },
  {
   "property": "C93",
   "status": "proved",
   "theorems": [
    "Saber.Props.C93_keypair_avx",
    "Saber.Props.C93_enc_avx",
    "Saber.Props.C93_dec_avx",
    "Saber.Props.C93_dec",
    "Saber.Props.C93_enc",
    "Saber.Props.C93_enc_over_public_key",
    "Saber.Props.C93_enc_any",
    "Saber.Props.C93_keypair",
    "Saber.Props.C93_keypair_shared",
    "Saber.Props.C93_keypair_over_secret_vector",
    "Saber.Props.C93_keypair_any",
    "Saber.Props.C93_dec_variants",
    "Saber.Props.C93_enc_variants",
    "Saber.Props.C93_enc_any_variants",
    "Saber.Props.C93_keypair_variants",
    "Saber.Props.C93_keypair_shared_variants",
    "Saber.Props.C93_keypair_over_secret_vector_variants",
    "Saber.Props.C93_keypair_any_variants"
   ],
   "note": "Defects for overlapping ciphertext and public key (return code 0, ciphertext for another public key: C93_enc_any gives the exact result for every overlap) and for a public key in the place of the secret vector (return code 0, secret vector damaged; C93_keypair_any gives the exact result for every overlap). The AVX2 functions equal those of the reference for every placement."
  }
 ]
}