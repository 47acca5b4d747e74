import Verif.Model.Kat
import Verif.Model.Rng
import Verif.Model.Kem
import Verif.Model.U.Kem
import Verif.Model.Avx.Kem
import Verif.Spec.KatFile
/-!
# `Reference_Implementation_KEM/test/PQCgenKAT_kem.c`: the program

The same text is in `AVX_Implementation_KEM`, `Variants/uSaber-90s/ref` and `Variants/uSaber-90s/avx2` up to file names and the unused
result of `fscanf`; so the functions of the scheme are parameters.  Files are lists of characters as in `Model/Kat.lean`; opening a file
succeeds.  Messages on the terminal and file names are not modelled.
-/
namespace Saber
open Spec.KatFile (str)

/-- What `api.h` of a directory declares, and the functions of the scheme, linked with `randombytes` of `rng.c`. -/
structure KemApi where
  /-- `CRYPTO_ALGNAME` -/
  ALGNAME : String
  /-- `CRYPTO_PUBLICKEYBYTES` -/
  PUBLICKEYBYTES : Nat
  /-- `CRYPTO_SECRETKEYBYTES` -/
  SECRETKEYBYTES : Nat
  /-- `CRYPTO_CIPHERTEXTBYTES` -/
  CIPHERTEXTBYTES : Nat
  /-- `crypto_kem_keypair(pk, sk)` -/
  keypair : List Byte → List Byte → DRBG → CM (Int × List Byte × List Byte × DRBG)
  /-- `crypto_kem_enc(ct, ss, pk)` -/
  enc : List Byte → List Byte → List Byte → DRBG → CM (Int × List Byte × List Byte × DRBG)
  /-- `crypto_kem_dec(ss, ct, sk)` -/
  dec : List Byte → List Byte → List Byte → CM (Int × List Byte)

/-- Digits of `fprintf(fp, "%d", n)` for `n >= 0`. -/
def printNat (n : Nat) : List Byte := if n < 10 then [n8 (48 + n)] else printNat (n / 10) ++ [n8 (48 + n % 10)]

/-- `fprintf(fp, "%d", i)` -/
def printInt (i : Int) : List Byte := if i < 0 then 45 :: printNat i.natAbs else printNat i.natAbs

/-- `isspace` -/
def isspace (c : Byte) : Bool := c = 32 || (9 ≤ c.toNat && c.toNat ≤ 13)

/-- Reads decimal digits: number of digits, value, rest of the file. -/
def scanDigits : List Byte → Nat → Nat → Nat × Nat × List Byte
  | [], k, v => (k, v, [])
  | c :: s, k, v => if 48 ≤ c.toNat ∧ c.toNat ≤ 57 then scanDigits s (k + 1) (10 * v + (c.toNat - 48)) else (k, v, c :: s)

/-- Reads a sign: whether it is `-`, rest of the file. -/
def scanSign : List Byte → Bool × List Byte
  | [] => (false, [])
  | c :: s => if c = 45 then (true, s) else if c = 43 then (false, s) else (false, c :: s)

/-- `fscanf(fp, "%d", &count)`: white space, optional sign, digits.  Without a digit `count` keeps its value; a number that is not an `int`
is undefined behaviour.  Returns `count` and the rest of the file. -/
def fscanfInt (s : List Byte) (count : Option Int) : CM (Option Int × List Byte) :=
  let (neg, s) := scanSign (s.dropWhile isspace)
  match scanDigits s 0 0 with
  | (0, _, rest) => pure (count, rest)
  | (_, v, rest) =>
    let x : Int := if neg then -v else v
    if -2147483648 ≤ x ∧ x ≤ 2147483647 then pure (some x, rest) else .error .signedOverflow

/-- Use of the value of `count`; `none` is an object without a value, whose use is counted as undefined behaviour (`oob`). -/
def useInt : Option Int → CM Int
  | some i => pure i
  | none => .error .oob

/-- `memcmp(a, b, n) == 0` -/
def memcmpEq (a b : List Byte) (n : Nat) : CM Bool :=
  loop n true fun i r => do
    let x ← rd a i
    let y ← rd b i
    pure (r && x == y)

/-- The loop that writes the request file (PQCgenKAT_kem.c:57-65, with `N` instead of 100).  State: file, `seed`, generator. -/
def katRequests (E : Cipher) (N : Nat) (seed : List Byte) (ctx : DRBG) : CM (List Byte × List Byte × DRBG) :=
  loop N ([], seed, ctx) fun i (req, seed, ctx) => do
    let req := req ++ str "count = " ++ printInt i ++ str "\n"
    let (seed, ctx) ← randombytes E seed 0 48 ctx
    let req ← fprintBstr req (str "seed = ") seed 48
    pure (req ++ str "pk =\n" ++ str "sk =\n" ++ str "ct =\n" ++ str "ss =\n\n", seed, ctx)

/-- The local variables that live across iterations of the second loop. -/
structure KatVars where
  /-- `int count` -/
  count : Option Int
  /-- `seed[48]` -/
  seed : List Byte
  /-- `pk[CRYPTO_PUBLICKEYBYTES]` -/
  pk : List Byte
  /-- `sk[CRYPTO_SECRETKEYBYTES]` -/
  sk : List Byte
  /-- `ct[CRYPTO_CIPHERTEXTBYTES]` -/
  ct : List Byte
  /-- `ss[CRYPTO_BYTES]` -/
  ss : List Byte
  /-- `ss1[CRYPTO_BYTES]` -/
  ss1 : List Byte
  /-- `DRBG_ctx` of rng.c -/
  ctx : DRBG

/-- The `do ... while (!done)` loop (PQCgenKAT_kem.c:76-121).  Every iteration reads at least the eight characters of the marker, so
the length of the file bounds the number of iterations (first argument; the outcome `oob` for an exhausted bound does not occur).  Returns
the value of `main` and the response file. -/
def katRespond (E : Cipher) (K : KemApi) : Nat → List Byte → List Byte → KatVars → CM (Int × List Byte)
  | 0, _, _, _ => .error .oob
  | fuel + 1, req, rsp, v => do
    let (found, req) ← FindMarker req (str "count = ")
    if found ≠ 0 then do
      let (count, req) ← fscanfInt req v.count
      let rsp := rsp ++ str "count = " ++ printInt (← useInt count) ++ str "\n"
      let (r, seed, req) ← ReadHex req v.seed 48 (str "seed = ")
      if r = 0 then pure (-3, rsp)
      else do
        let rsp ← fprintBstr rsp (str "seed = ") seed 48
        let ctx ← randombytes_init E seed none v.ctx
        let (r, pk, sk, ctx) ← K.keypair v.pk v.sk ctx
        if r ≠ 0 then pure (-4, rsp)
        else do
          let rsp ← fprintBstr rsp (str "pk = ") pk K.PUBLICKEYBYTES
          let rsp ← fprintBstr rsp (str "sk = ") sk K.SECRETKEYBYTES
          let (r, ct, ss, ctx) ← K.enc v.ct v.ss pk ctx
          if r ≠ 0 then pure (-4, rsp)
          else do
            let rsp ← fprintBstr rsp (str "ct = ") ct K.CIPHERTEXTBYTES
            let rsp ← fprintBstr rsp (str "ss = ") ss 32
            let rsp := rsp ++ str "\n"
            let (r, ss1) ← K.dec v.ss1 ct sk
            if r ≠ 0 then pure (-4, rsp)
            else if ← memcmpEq ss ss1 32 then
              katRespond E K fuel req rsp ⟨count, seed, pk, sk, ct, ss, ss1, ctx⟩
            else pure (-4, rsp)
    else pure (0, rsp)

/-- `main` (PQCgenKAT_kem.c:27-127) with `N` instead of 100 entries.  Returns the value of `main`, the request file and the response file. -/
def katMainN (E : Cipher) (K : KemApi) (N : Nat) (ctx : DRBG) : CM (Int × List Byte × List Byte) := do
  let entropy_input ← loop 48 (uninit 8 90 48) fun i a => wr a i (n8 i)
  let ctx ← randombytes_init E entropy_input none ctx
  let (req, seed, ctx) ← katRequests E N (uninit 8 91 48) ctx
  let rsp := str "# " ++ str K.ALGNAME ++ str "\n\n"
  let (r, rsp) ← katRespond E K (req.length + 1) req rsp
    ⟨none, seed, uninit 8 92 K.PUBLICKEYBYTES, uninit 8 93 K.SECRETKEYBYTES, uninit 8 94 K.CIPHERTEXTBYTES, uninit 8 95 32, uninit 8 96 32, ctx⟩
  pure (r, req, rsp)

/-- `main` (PQCgenKAT_kem.c:27-127). -/
def katMain (E : Cipher) (K : KemApi) (ctx : DRBG) : CM (Int × List Byte × List Byte) := katMainN E K 100 ctx

/-- The name in `api.h` of the reference implementation (api.h:6-14) and in both AVX2 directories (AVX_Implementation_KEM/api.h:25-43,
Variants/uSaber-90s/avx2/api.h:26-44). -/
def PSet.ALGNAME : PSet → String
  | .light => "LightSaber"
  | .saber => "Saber"
  | .fire => "FireSaber"

/-- The name in `Variants/uSaber-90s/ref/api.h:6-26`. -/
def U.Cfg.ALGNAME (f : U.Cfg) : String := (if f.u then "u" else "") ++ f.P.ALGNAME ++ (if f.s90 then "-90s" else "")

/-- Reference_Implementation_KEM/api.h:16-23, with the functions of kem.c. -/
def refApi (P : PSet) (E : Cipher) : KemApi :=
  ⟨P.ALGNAME, P.PUBLICKEYBYTES, P.SECRETKEYBYTES, P.BYTES_CCA_DEC, crypto_kem_keypair P (randombytes E), crypto_kem_enc P (randombytes E),
    crypto_kem_dec P⟩

/-- Variants/uSaber-90s/ref/api.h:26-34, with the functions of kem.c. -/
def uApi (f : U.Cfg) (E : Cipher) : KemApi :=
  ⟨f.ALGNAME, f.PUBLICKEYBYTES, f.SECRETKEYBYTES, f.BYTES_CCA_DEC, U.crypto_kem_keypair f (randombytes E), U.crypto_kem_enc f (randombytes E),
    U.crypto_kem_dec f⟩

/-- `CRYPTO_PUBLICKEYBYTES`, `CRYPTO_SECRETKEYBYTES` and `CRYPTO_CIPHERTEXTBYTES` (AVX_Implementation_KEM/api.h:26-47 and
Variants/uSaber-90s/avx2/api.h:26-47, where they are not computed from the parameters). -/
def avxSizes : PSet → Nat × Nat × Nat
  | .light => (2 * 320 + 32, 1568, 736)
  | .saber => (3 * 320 + 32, 2304, 1088)
  | .fire => (4 * 320 + 32, 3040, 1472)

/-- AVX_Implementation_KEM/api.h and Variants/uSaber-90s/avx2/api.h (with other symmetric functions `lib`), with the functions of kem.c. -/
def avxApi (lib : Avx.Lib) (P : PSet) (E : Cipher) : KemApi :=
  ⟨P.ALGNAME, (avxSizes P).1, (avxSizes P).2.1, (avxSizes P).2.2, Avx.crypto_kem_keypair lib P (randombytes E),
    Avx.crypto_kem_enc lib P (randombytes E), Avx.crypto_kem_dec lib P⟩

end Saber
