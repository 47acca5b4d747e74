import Verif.Model.KatMain
/-!
# The test programs `test/test_kex.c` and `test/kem.c`

`test_kex.c` of the four directories differs in the number of rounds, in what is printed first and last, and in a line per round; these
are parameters.  The clock is a parameter: reading `k` (0 to 5) of the six readings in round `i`.  Output is a list of characters.
`srand` (test_kex.c:58) has no effect, as `rand` is not called.
-/
namespace Saber
open Spec.KatFile (str)

/-- What differs between the programs. -/
structure TestProg where
  /-- the functions of the scheme -/
  K : KemApi
  /-- size of `pk` -/
  pkBytes : Nat
  /-- size of `sk` -/
  skBytes : Nat
  /-- size of `c` -/
  ctBytes : Nat
  /-- what is printed before the first round -/
  head : List Byte
  /-- is the number of each round printed (AVX_Implementation_KEM/test/test_kex.c:68)? -/
  trace : Bool
  /-- the lines after the three average times -/
  tail : List Byte

/-- The local variables that live across rounds (test_kex.c:36-47) and the generator. -/
structure TestVars where
  /-- `pk` -/
  pk : List Byte
  /-- `sk` -/
  sk : List Byte
  /-- `c` -/
  c : List Byte
  /-- `k_a` -/
  k_a : List Byte
  /-- `k_b` -/
  k_b : List Byte
  /-- `CLOCK_kp` -/
  kp : BitVec 64
  /-- `CLOCK_enc` -/
  enc : BitVec 64
  /-- `CLOCK_dec` -/
  dec : BitVec 64
  /-- `DRBG_ctx` of rng.c -/
  ctx : DRBG

/-- The comparison (test_kex.c:111-120): `k` bytes from position `j`; is there a difference? -/
def keysDiffer (a b : List Byte) : Nat → Nat → CM Bool
  | 0, _ => pure false
  | k + 1, j => do
    let x ← rd a j
    let y ← rd b j
    if x ≠ y then pure true else keysDiffer a b k (j + 1)

/-- One round (test_kex.c:83-120), up to the comparison.  The values of the functions are ignored. -/
def testRound (T : TestProg) (tick : Fin 6 → BitVec 64) (v : TestVars) : CM (Bool × TestVars) := do
  let (_, pk, sk, ctx) ← T.K.keypair v.pk v.sk v.ctx
  let kp := v.kp + (tick 1 - tick 0)
  let (_, c, k_a, ctx) ← T.K.enc v.c v.k_a pk ctx
  let enc := v.enc + (tick 3 - tick 2)
  let (_, k_b) ← T.K.dec v.k_b c sk
  let dec := v.dec + (tick 5 - tick 4)
  let differ ← keysDiffer k_a k_b 32 0
  pure (differ, ⟨pk, sk, c, k_a, k_b, kp, enc, dec, ctx⟩)

/-- The rounds from number `i` (test_kex.c:78-122), `n` of them left.  Output; after a difference (`return 0`) no variables. -/
def testRounds (T : TestProg) (tick : Nat → Fin 6 → BitVec 64) : Nat → Nat → List Byte → TestVars → CM (List Byte × Option TestVars)
  | 0, _, out, v => pure (out, some v)
  | n + 1, i, out, v => do
    let out := if T.trace then out ++ str "i : " ++ printNat i ++ str "\n" else out
    let (differ, v) ← testRound T (tick i) v
    if differ then pure (out ++ str "----- ERR CCA KEM ------\n", none) else testRounds T tick n (i + 1) out v

/-- `x / repeat`, with division by zero as an error. -/
def divide (x : BitVec 64) (n : Nat) : CM Nat := if n = 0 then .error .oob else pure (x.toNat / n)

/-- `main` (test_kex.c:32-152) with `N` rounds.  Value of `main` and output. -/
def testKexN (E : Cipher) (T : TestProg) (N : Nat) (tick : Nat → Fin 6 → BitVec 64) (ctx : DRBG) : CM (Int × List Byte) := do
  let entropy_input ← loop 48 (uninit 8 90 48) fun i a => wr a i (n8 i)
  let ctx ← randombytes_init E entropy_input none ctx
  let (out, v) ← testRounds T tick N 0 T.head
    ⟨uninit 8 92 T.pkBytes, uninit 8 93 T.skBytes, uninit 8 94 T.ctBytes, uninit 8 95 32, uninit 8 96 32, 0, 0, 0, ctx⟩
  match v with
  | none => pure (0, out)
  | some v => do
    let out := out ++ str "Repeat is : " ++ printNat N ++ str "\n"
    let out := out ++ str "Average times key_pair: \t " ++ printNat (← divide v.kp N) ++ str " \n"
    let out := out ++ str "Average times enc: \t " ++ printNat (← divide v.enc N) ++ str " \n"
    let out := out ++ str "Average times dec: \t " ++ printNat (← divide v.dec N) ++ str " \n"
    pure (0, out ++ T.tail)

/-- The sizes that are printed first (test_kex.c:66-73). -/
def testHead (ipk isk pk sk ct : Nat) : List Byte :=
  str "SABER_INDCPA_PUBLICKEYBYTES=" ++ printNat ipk ++ str "\n" ++ str "SABER_INDCPA_SECRETKEYBYTES=" ++ printNat isk ++ str "\n" ++
    str "SABER_PUBLICKEYBYTES=" ++ printNat pk ++ str "\n" ++ str "SABER_SECRETKEYBYTES=" ++ printNat sk ++ str "\n" ++
    str "SABER_KEYBYTES=" ++ printNat 32 ++ str "\n" ++ str "SABER_HASHBYTES=" ++ printNat 32 ++ str "\n" ++
    str "SABER_BYTES_CCA_DEC=" ++ printNat ct ++ str "\n" ++ str "\n"

/-- The last lines (test_kex.c:130-132): the three counters are set to 0 in lines 51-52 and not changed anywhere. -/
def testTail : List Byte :=
  str "Average times kp mv: \t " ++ printNat 0 ++ str " \n" ++ str "Average times cl mv: \t " ++ printNat 0 ++ str " \n" ++
    str "Average times sample_kp: \t " ++ printNat 0 ++ str " \n"

/-- `Reference_Implementation_KEM/test/test_kex.c` -/
def refTest (P : PSet) (E : Cipher) : TestProg :=
  ⟨refApi P E, P.PUBLICKEYBYTES, P.SECRETKEYBYTES, P.BYTES_CCA_DEC,
    testHead P.INDCPA_PUBLICKEYBYTES P.INDCPA_SECRETKEYBYTES P.PUBLICKEYBYTES P.SECRETKEYBYTES P.BYTES_CCA_DEC, false, testTail⟩

/-- `Variants/uSaber-90s/ref/test/test_kex.c` -/
def uTest (f : U.Cfg) (E : Cipher) : TestProg :=
  ⟨uApi f E, f.PUBLICKEYBYTES, f.SECRETKEYBYTES, f.BYTES_CCA_DEC,
    testHead f.INDCPA_PUBLICKEYBYTES f.INDCPA_SECRETKEYBYTES f.PUBLICKEYBYTES f.SECRETKEYBYTES f.BYTES_CCA_DEC, false, testTail⟩

/-- `AVX_Implementation_KEM/test/test_kex.c` (`trace`) and `Variants/uSaber-90s/avx2/test/test_kex.c`.  The last lines contain times that are
measured inside the functions: a parameter. -/
def avxTest (lib : Avx.Lib) (P : PSet) (E : Cipher) (trace : Bool) (tail : List Byte) : TestProg :=
  ⟨avxApi lib P E, P.PUBLICKEYBYTES, P.SECRETKEYBYTES, P.BYTES_CCA_DEC, [], trace, tail⟩

/-- The loop of kem.c:47-55: `k` bytes from position `i`. -/
def kemPrint (a b : List Byte) : Nat → Nat → List Byte → CM (List Byte)
  | 0, _, out => pure out
  | k + 1, i, out => do
    let x ← rd a i
    let y ← rd b i
    let out := out ++ printNat x.toNat ++ str " \t " ++ printNat y.toNat ++ str "\n"
    if x ≠ y then pure (out ++ str " ----- ERR CCA KEM ------\n") else kemPrint a b k (i + 1) out

/-- `main` of `test/kem.c` (kem.c:14-68) of the reference implementation and of `Variants/uSaber-90s/ref`.  Value of `main` and output. -/
def kemMain (E : Cipher) (K : KemApi) (ctx : DRBG) : CM (Int × List Byte) := do
  let entropy_input ← loop 48 (uninit 8 90 48) fun i a => wr a i (n8 i)
  let ctx ← randombytes_init E entropy_input none ctx
  let (_, pk, sk, ctx) ← K.keypair (uninit 8 92 K.PUBLICKEYBYTES) (uninit 8 93 K.SECRETKEYBYTES) ctx
  let (_, ct, ss_a, _) ← K.enc (uninit 8 94 K.CIPHERTEXTBYTES) (uninit 8 95 32) pk ctx
  let (_, ss_b) ← K.dec (uninit 8 96 32) ct sk
  let out ← kemPrint ss_a ss_b 32 0 []
  pure (0, out)

end Saber
