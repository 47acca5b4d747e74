import Verif.Model.Params
/-!
# Cortex-M4 implementation: parameters and external functions

All files below `Cortex-M_Implementation_KEM/Cortex-M4/src/`.  The directories `lightsaber`, `saber` and `firesaber` contain the same
code with another `SABER_L`; `m4-striding` and `m4-tc4kara` differ only in the multiplication (`poly_mul.c` and the assembly files).
Comments cite `saber/m4-striding` unless they say otherwise.

`SABER_params.h` of this implementation defines the constants of `Model/Params.lean`, and `SABER_POLYSECRETBYTES`, which depends on the
option `SABER_COMPRESS_SECRETKEY` (parameter `cs` in the model).

The hash functions are not in the repository: they come from the library of pqm4 (`fips202.h`).  `Fips202Lib` collects them;
the theorems assume `Fips202Lib.Correct` (see `Spec/M4Lib.lean`).
-/
namespace Saber.M4

/-- `SABER_POLYSECRETBYTES` (SABER_params.h:49-53); `cs` says whether `SABER_COMPRESS_SECRETKEY` is defined. -/
def POLYSECRETBYTES (cs : Bool) : Nat := if cs then 4 * N / 8 else POLYBYTES
/-- `SABER_INDCPA_SECRETKEYBYTES` (SABER_params.h:55) -/
def INDCPA_SECRETKEYBYTES (P : PSet) (cs : Bool) : Nat := P.L * POLYSECRETBYTES cs
/-- `SABER_SECRETKEYBYTES` (SABER_params.h:57) -/
def SECRETKEYBYTES (P : PSet) (cs : Bool) : Nat := INDCPA_SECRETKEYBYTES P cs + P.INDCPA_PUBLICKEYBYTES + HASHBYTES + KEYBYTES

/-- The functions of `fips202.h` used by the code (poly.c:14-16, 25, 34, 45, SABER_indcpa.c:15, kem.c).  Output and input pointers are
pairs (object, offset).  `shake128_inc_ctx_release` has no effect that the program can observe and is left out. -/
structure Fips202Lib where
  /-- `shake128incctx` -/
  Ctx : Type
  /-- `shake128(out, outlen, in, inlen)` as `shake128 out outOff outlen in inOff inlen` -/
  shake128 : List Byte → Nat → Nat → List Byte → Nat → Nat → CM (List Byte)
  /-- `sha3_256(out, in, inlen)` -/
  sha3_256 : List Byte → Nat → List Byte → Nat → Nat → CM (List Byte)
  /-- `sha3_512(out, in, inlen)` -/
  sha3_512 : List Byte → Nat → List Byte → Nat → Nat → CM (List Byte)
  /-- `shake128_inc_init(ctx)` -/
  inc_init : CM Ctx
  /-- `shake128_inc_absorb(ctx, in, inlen)` -/
  inc_absorb : Ctx → List Byte → Nat → Nat → CM Ctx
  /-- `shake128_inc_finalize(ctx)` -/
  inc_finalize : Ctx → CM Ctx
  /-- `shake128_inc_squeeze(out, outlen, ctx)` -/
  inc_squeeze : List Byte → Nat → Nat → Ctx → CM (List Byte × Ctx)

end Saber.M4
