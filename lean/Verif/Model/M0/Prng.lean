import Verif.CSem
/-!
# `Cortex-M0/saber-ref-mem/src/prng.c`: `randombytes`

`word k` is the value of the `k`-th read of the 32-bit hardware register `PRNG_WORD`.  The register is configured for 16-bit words
(`PRNG_RDBS_WORD`, prng.c:30): the hardware delivers 16 random bits and zeros above them.
-/
namespace Saber.M0

/-- `random.aschar[j]` after `random.asint = w` (prng.c:38-42): the two 16-bit halves of the word, little endian. -/
def aschar (w : BitVec 32) (j : Nat) : BitVec 16 := (w >>> (16 * j)).setWidth 16

/-- `randombytes` (prng.c:36-58).  The `while` loop (44-50) runs `(xlen-1)/2` times and leaves one or two bytes for the loop at 53-56
(none for `xlen = 0`).  `word` gives the values of the successive reads; returns `x` and the number of reads. -/
def randombytes (word : Nat → BitVec 32) (x : List Byte) (off xlen : Nat) : CM (List Byte × Nat) := do
  let n := (xlen - 1) / 2
  let x ← loop n x fun i x => do
    let x ← wr x (off + 2 * i) ((aschar (word i) 0).setWidth 8)
    wr x (off + (2 * i + 1)) ((aschar (word i) 1).setWidth 8)
  let rest := xlen - 2 * n
  if rest > 0 then
    let x ← loop rest x fun i x => wr x (off + (2 * n + i)) ((aschar (word n) (rest - i - 1)).setWidth 8)
    pure (x, n + 1)
  else
    pure (x, n)

end Saber.M0
