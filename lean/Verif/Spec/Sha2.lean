import Verif.CSem
/-!
# Specification: SHA-256 and SHA-512 (FIPS 180-4)

A transcription of FIPS PUB 180-4 for messages that are byte strings.  The constants are computed from their definition (fractional parts
of square and cube roots of primes, section 4.2 and 5.3) and not copied.
-/
namespace Saber.Spec.Sha2

/-- The largest `r < 2^bits` with `r^e ≤ n`. -/
def root (e bits n : Nat) : Nat :=
  (List.range bits).foldr (fun i r => if (r + 2 ^ i) ^ e ≤ n then r + 2 ^ i else r) 0

/-- The primes in increasing order (those below 420; the first eighty are needed). -/
def primes : List Nat := (List.range 420).filter fun n => 2 ≤ n && (List.range n).all fun d => d < 2 || n % d != 0

/-- First `w` bits of the fractional part of the `e`-th root of the `t`-th prime. -/
def rootBits (e w t : Nat) : BitVec w := BitVec.ofNat w (root e (w + 5) (primes.getD t 0 * 2 ^ (e * w)))

/-- The functions and sizes that differ between the two hash functions (sections 4.1.2 and 4.1.3); `w` is the
word size in bits. -/
structure Alg (w : Nat) where
  /-- number of rounds -/
  rounds : Nat
  /-- `Σ0` -/
  bigSigma0 : BitVec w → BitVec w
  /-- `Σ1` -/
  bigSigma1 : BitVec w → BitVec w
  /-- `σ0` -/
  smallSigma0 : BitVec w → BitVec w
  /-- `σ1` -/
  smallSigma1 : BitVec w → BitVec w

/-- SHA-256 (4.1.2) -/
def alg256 : Alg 32 where
  rounds := 64
  bigSigma0 x := x.rotateRight 2 ^^^ x.rotateRight 13 ^^^ x.rotateRight 22
  bigSigma1 x := x.rotateRight 6 ^^^ x.rotateRight 11 ^^^ x.rotateRight 25
  smallSigma0 x := x.rotateRight 7 ^^^ x.rotateRight 18 ^^^ (x >>> 3)
  smallSigma1 x := x.rotateRight 17 ^^^ x.rotateRight 19 ^^^ (x >>> 10)

/-- SHA-512 (4.1.3) -/
def alg512 : Alg 64 where
  rounds := 80
  bigSigma0 x := x.rotateRight 28 ^^^ x.rotateRight 34 ^^^ x.rotateRight 39
  bigSigma1 x := x.rotateRight 14 ^^^ x.rotateRight 18 ^^^ x.rotateRight 41
  smallSigma0 x := x.rotateRight 1 ^^^ x.rotateRight 8 ^^^ (x >>> 7)
  smallSigma1 x := x.rotateRight 19 ^^^ x.rotateRight 61 ^^^ (x >>> 6)

/-- `Ch` -/
def ch {w : Nat} (x y z : BitVec w) : BitVec w := (x &&& y) ^^^ (~~~x &&& z)
/-- `Maj` -/
def maj {w : Nat} (x y z : BitVec w) : BitVec w := (x &&& y) ^^^ (x &&& z) ^^^ (y &&& z)

/-- The word with the given big-endian bytes. -/
def wordOfBytes (w : Nat) (bs : List Byte) : BitVec w := BitVec.ofNat w (bs.foldl (fun n b => 256 * n + b.toNat) 0)

/-- The `n` big-endian bytes of a number. -/
def bytesOfNat (n x : Nat) : List Byte := (List.range n).map fun i => BitVec.ofNat 8 (x / 256 ^ (n - 1 - i))

/-- Padding (5.1): the byte `80`, the least number of zero bytes, and the length in bits as a number of two words, so that the length is
a multiple of the block size of 16 words.  `wb` is the number of bytes in a word. -/
def pad (wb : Nat) (M : List Byte) : List Byte :=
  M ++ [0x80] ++ List.replicate ((16 * wb - (M.length + 1 + 2 * wb) % (16 * wb)) % (16 * wb)) 0 ++ bytesOfNat (2 * wb) (8 * M.length)

/-- The message schedule of a block (6.2.2 and 6.4.2, step 1). -/
def schedule {w : Nat} (a : Alg w) (block : List Byte) (t : Nat) : BitVec w :=
  if t < 16 then wordOfBytes w ((block.drop (w / 8 * t)).take (w / 8))
  else a.smallSigma1 (schedule a block (t - 2)) + schedule a block (t - 7) + a.smallSigma0 (schedule a block (t - 15))
    + schedule a block (t - 16)

/-- The working variables `a, ..., h`. -/
structure Vars (w : Nat) where
  (a b c d e f g h : BitVec w)

/-- One round (step 3). -/
def round {w : Nat} (A : Alg w) (W : Nat → BitVec w) (v : Vars w) (t : Nat) : Vars w :=
  let T1 := v.h + A.bigSigma1 v.e + ch v.e v.f v.g + rootBits 3 w t + W t
  let T2 := A.bigSigma0 v.a + maj v.a v.b v.c
  ⟨T1 + T2, v.a, v.b, v.c, v.d + T1, v.e, v.f, v.g⟩

/-- Addition of the working variables to the hash value (step 4). -/
def Vars.add {w : Nat} (x y : Vars w) : Vars w := ⟨x.a + y.a, x.b + y.b, x.c + y.c, x.d + y.d, x.e + y.e, x.f + y.f, x.g + y.g, x.h + y.h⟩

/-- The hash value after one more block. -/
def compress {w : Nat} (A : Alg w) (H : Vars w) (block : List Byte) : Vars w :=
  ((List.range A.rounds).foldl (round A (schedule A block)) H).add H

/-- Initial hash value (5.3.3 and 5.3.5). -/
def init (w : Nat) : Vars w :=
  ⟨rootBits 2 w 0, rootBits 2 w 1, rootBits 2 w 2, rootBits 2 w 3, rootBits 2 w 4, rootBits 2 w 5, rootBits 2 w 6, rootBits 2 w 7⟩

/-- The hash value as bytes. -/
def Vars.bytes {w : Nat} (H : Vars w) : List Byte :=
  [H.a, H.b, H.c, H.d, H.e, H.f, H.g, H.h].flatMap fun x => bytesOfNat (w / 8) x.toNat

/-- The hash of a byte string. -/
def hash {w : Nat} (A : Alg w) (M : List Byte) : List Byte :=
  let wb := w / 8
  let P := pad wb M
  ((List.range (P.length / (16 * wb))).foldl (fun H i => compress A H ((P.drop (16 * wb * i)).take (16 * wb))) (init w)).bytes

/-- SHA-256 -/
def sha256 (M : List Byte) : List Byte := hash alg256 M
/-- SHA-512 -/
def sha512 (M : List Byte) : List Byte := hash alg512 M

end Saber.Spec.Sha2
