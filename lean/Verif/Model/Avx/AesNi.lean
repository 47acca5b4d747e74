import Verif.CSem
import Verif.Spec.Aes
/-!
# The AES-NI key stream of `Variants/uSaber-90s/avx2`

Model of `Variants/uSaber-90s/avx2/crypto_stream_aes256ctr.c` and `symmetric-aes.c`.  The functions that are not called
(`aesni_encrypt1`, `incle` and the unrollings by 4, 6, 7, 10 and 12) are not modelled.
-/
namespace Saber.Avx.AesNi
open Spec.Aes (sbox shiftRows mixColumns xors)

/-! ### Intrinsics

The meaning of the instructions, after the Intel intrinsics guide.  A `__m128` or `__m128i` is the list of its 16 bytes, least significant
byte first, which is also the order in memory. -/

/-- `__m128`, `__m128i` -/
abbrev M128 := List Byte

/-- The 32-bit element `i`. -/
def word (a : M128) (i : Nat) : List Byte := (a.drop (4 * i)).take 4

/-- `_mm_shuffle_ps`: two elements of the first argument and two of the second. -/
def shuffle_ps (a b : M128) (imm : Nat) : M128 := word a (imm % 4) ++ word a (imm / 4 % 4) ++ word b (imm / 16 % 4) ++ word b (imm / 64 % 4)

/-- `RotWord`: rotation of a 32-bit element to the right by 8. -/
def rotWord (w : List Byte) : List Byte := w.drop 1 ++ w.take 1

/-- `_mm_aeskeygenassist_si128` -/
def aeskeygenassist (a : M128) (imm : Byte) : M128 :=
  let x1 := (word a 1).map sbox
  let x3 := (word a 3).map sbox
  x1 ++ xors (rotWord x1) [imm, 0, 0, 0] ++ x3 ++ xors (rotWord x3) [imm, 0, 0, 0]

/-- `_mm_aesenc_si128` -/
def aesenc (a k : M128) : M128 := xors (mixColumns ((shiftRows a).map sbox)) k

/-- `_mm_aesenclast_si128` -/
def aesenclast (a k : M128) : M128 := xors ((shiftRows a).map sbox) k

/-- The number that a byte string represents, least significant byte first. -/
def leNat (b : List Byte) : Nat := b.foldr (fun x acc => x.toNat + 256 * acc) 0

/-- The 64-bit element `h`. -/
def half (a : M128) (h : Nat) : BitVec 64 := BitVec.ofNat 64 (leNat ((a.drop (8 * h)).take 8))

/-- The bytes of a 64-bit number, least significant byte first. -/
def le64 (x : BitVec 64) : List Byte := (List.range 8).map fun j => BitVec.ofNat 8 (x.toNat / 256 ^ j)

/-- `_mm_set_epi64x(e1, e0)` -/
def set_epi64x (e1 e0 : BitVec 64) : M128 := le64 e0 ++ le64 e1

/-- `_mm_add_epi64` -/
def add_epi64 (a b : M128) : M128 := le64 (half a 0 + half b 0) ++ le64 (half a 1 + half b 1)

/-- `_mm_shuffle_epi8(a, _mm_set_epi8(8,9,10,11,12,13,14,15,0,1,2,3,4,5,6,7))`: the bytes of each half in reverse order. -/
def bswapHalves (a : M128) : M128 := [7, 6, 5, 4, 3, 2, 1, 0, 15, 14, 13, 12, 11, 10, 9, 8].map fun j => a.getD j 0

/-- `_mm_loadu_ps((const float *)(p + off))`, `_mm_load_si128((const __m128i *)(p + off))`.  Alignment is not modelled. -/
def load (p : List Byte) (off : Nat) : CM M128 := if off + 16 ≤ p.length then .ok ((p.drop off).take 16) else .error .oob

/-- `_mm_store_si128((__m128i *)(p + off), a)`, `_mm_storeu_si128` -/
def store (p : List Byte) (off : Nat) (a : M128) : CM (List Byte) := if off + 16 ≤ p.length then wrs p off a else .error .oob

/-- An uninitialised array of `n` vectors. -/
def uninitM128 (tag n : Nat) : List M128 := (List.range n).map fun i => uninit 8 (tag + i) 16

/-! ### Key expansion -/

/-- The local variables of `aesni_key256_expand`. -/
structure KS where
  temp0 : M128
  temp2 : M128
  temp4 : M128
  idx : Nat
  rkeys : List M128

/-- The macro `BLOCK1` (crypto_stream_aes256ctr.c:47-55). -/
def BLOCK1 (imm : Byte) (s : KS) : CM KS := do
  let temp1 := aeskeygenassist s.temp2 imm
  let rkeys ← wr s.rkeys s.idx s.temp2
  let temp4 := shuffle_ps s.temp4 s.temp0 0x10
  let temp0 := xors s.temp0 temp4
  let temp4 := shuffle_ps temp4 temp0 0x8c
  let temp0 := xors temp0 temp4
  let temp1 := shuffle_ps temp1 temp1 0xff
  let temp0 := xors temp0 temp1
  pure { s with temp0, temp4, idx := s.idx + 1, rkeys }

/-- The macro `BLOCK2` (crypto_stream_aes256ctr.c:57-65). -/
def BLOCK2 (imm : Byte) (s : KS) : CM KS := do
  let temp1 := aeskeygenassist s.temp0 imm
  let rkeys ← wr s.rkeys s.idx s.temp0
  let temp4 := shuffle_ps s.temp4 s.temp2 0x10
  let temp2 := xors s.temp2 temp4
  let temp4 := shuffle_ps temp4 temp2 0x8c
  let temp2 := xors temp2 temp4
  let temp1 := shuffle_ps temp1 temp1 0xaa
  let temp2 := xors temp2 temp1
  pure { s with temp2, temp4, idx := s.idx + 1, rkeys }

/-- `aesni_key256_expand` (crypto_stream_aes256ctr.c:26-87); the key starts at offset `off` of the array `key`. -/
def aesni_key256_expand (key : List Byte) (off : Nat) (rkeys : List M128) : CM (List M128) := do
  let key0 ← load key (off + 0)
  let key1 ← load key (off + 16)
  let rkeys ← wr rkeys 0 key0
  let s : KS := ⟨key0, key1, List.replicate 16 0, 1, rkeys⟩
  let s ← BLOCK1 0x01 s
  let s ← BLOCK2 0x01 s
  let s ← BLOCK1 0x02 s
  let s ← BLOCK2 0x02 s
  let s ← BLOCK1 0x04 s
  let s ← BLOCK2 0x04 s
  let s ← BLOCK1 0x08 s
  let s ← BLOCK2 0x08 s
  let s ← BLOCK1 0x10 s
  let s ← BLOCK2 0x10 s
  let s ← BLOCK1 0x20 s
  let s ← BLOCK2 0x20 s
  let s ← BLOCK1 0x40 s
  wr s.rkeys s.idx s.temp0

/-! ### Eight blocks -/

/-- The first part of `aesni_encrypt8` (crypto_stream_aes256ctr.c:128-134, 182-193, `FUNC(8, MAKE8)`): the eight counter blocks and the new
counter.  The eight variables `nv0`, ..., `nv7` are a list. -/
def counters8 (n : List Byte) : CM (List M128 × List Byte) := do
  let nv0i ← load n 0
  let nl : Int := (half n 1).toInt
  if nl < 0 ∧ nl + (8 - 1) ≥ 0 then
    let wrapnumber := 8 - (nl + 8)
    let nv := (List.range 8).map fun (a : Nat) =>
      bswapHalves (add_epi64 nv0i (set_epi64x (BitVec.ofNat 64 a) (if (a : Int) ≥ wrapnumber then 1 else 0)))
    let n ← store n 0 (add_epi64 nv0i (set_epi64x 8 1))
    pure (nv, n)
  else
    let nv := (List.range 8).map fun (a : Nat) => bswapHalves (add_epi64 nv0i (set_epi64x (BitVec.ofNat 64 a) 0))
    let n ← store n 0 (add_epi64 nv0i (set_epi64x 8 0))
    pure (nv, n)

/-- `aesni_encrypt8` (crypto_stream_aes256ctr.c:164-166, 180-201, 207, `FUNC(8, MAKE8)`).  The eight variables `temp0`, ..., `temp7` are
a list.  Result: the output buffer and the new counter. -/
def aesni_encrypt8 (out : List Byte) (n : List Byte) (rkeys : List M128) : CM (List Byte × List Byte) := do
  let ⟨nv, n⟩ ← counters8 n
  let k ← rd rkeys 0
  let temp := nv.map fun x => xors x k
  let temp ← loop 13 temp fun i temp => do
    let k ← rd rkeys (i + 1)
    pure (temp.map fun t => aesenc t k)
  let k ← rd rkeys 14
  let temp := temp.map fun t => aesenclast t k
  let out ← loop 8 out fun a out => do
    let t ← rd temp a
    store out (a * 16) t
  pure (out, n)

/-- The two loops that reverse the halves of the nonce (crypto_stream_aes256ctr.c:230-233). -/
def loadNonce (n2 n : List Byte) : CM (List Byte) := do
  let n2 ← loop 8 n2 fun i n2 => do
    let x ← rd n (7 - i)
    wr n2 i x
  loop 8 n2 fun i n2 => do
    let x ← rd n (23 - (i + 8))
    wr n2 (i + 8) x

/-- `crypto_stream_aes256ctr` (crypto_stream_aes256ctr.c:211-250), writing at offset `outOff` of `out`.  The loop counter `i` is a number;
in the code it is an `unsigned long long`, so for `outlen > 2^64 - 128` the code would not terminate. -/
def crypto_stream_aes256ctr (out : List Byte) (outOff outlen : Nat) (n : List Byte) (k : List Byte) (kOff : Nat) : CM (List Byte) := do
  let rkeys ← aesni_key256_expand k kOff (uninitM128 100 16)
  let n2 ← loadNonce (uninit 8 120 16) n
  let ⟨out, _⟩ ← loop ((outlen + 127) / 128) (out, n2) fun t ⟨out, n2⟩ => do
    let i := 128 * t
    let ⟨outni, n2⟩ ← aesni_encrypt8 (uninit 8 121 128) n2 rkeys
    let mj := if i + 128 ≥ outlen then outlen - i else 128
    let out ← loop mj out fun j out => do
      let x ← rd outni j
      wr out (outOff + (i + j)) x
    pure (out, n2)
  pure out

/-- `saber_aes256ctr_prf` (symmetric-aes.c:7-11). -/
def saber_aes256ctr_prf (output : List Byte) (outOff outlen : Nat) (input : List Byte) (inOff : Nat) : CM (List Byte) :=
  crypto_stream_aes256ctr output outOff outlen (List.replicate 16 0) input inOff

end Saber.Avx.AesNi
