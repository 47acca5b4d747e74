import Verif.Model.U.Params
import Verif.Model.U.Aes
import Verif.Model.U.Sha2
import Verif.Model.Poly
/-!
# `Variants/uSaber-90s/ref/{symmetric.h, symmetric-aes.c, pack_unpack.c, poly.c}`

`cbd.c`, `poly_mul.c`, `fips202.c`, `verify.c`, the functions of `pack_unpack.c` other than `POLq2BS`, `BS2POLq`, `POLVECq2BS` and
`BS2POLVECq`, and the functions `MatrixVectorMul` and `InnerProd` of `poly.c` have the same text as in the reference implementation (up to
the type of a loop counter in `poly_mul.c`); their models are shared.
-/
namespace Saber.U

/-- `saber_aes256ctr_prf` (symmetric-aes.c:7-11); `output`, `input` point to `output[outOff]`, `input[inOff]`. -/
def saber_aes256ctr_prf (output : List Byte) (outOff outlen : Nat) (input : List Byte) (inOff : Nat) : CM (List Byte) := do
  let expnonce : List Byte := List.replicate 12 0
  Aes.aes256ctr_prf output outOff outlen input inOff expnonce 0

/-- The macro `prf` (symmetric.h:15,24).  Where the code passes the same array as output and input, the model passes the array before the
call as input; both functions read all of the input before they write the output. -/
def prf (c : Cfg) (out : List Byte) (outOff outlen : Nat) (inp : List Byte) (inOff inlen : Nat) : CM (List Byte) :=
  if c.s90 then saber_aes256ctr_prf out outOff outlen inp inOff else shake128 out outOff outlen inp inOff inlen

/-- The macro `hash_h` (symmetric.h:12,21). -/
def hash_h (c : Cfg) (out : List Byte) (outOff : Nat) (inp : List Byte) (inOff inlen : Nat) : CM (List Byte) :=
  if c.s90 then sha256 out outOff inp inOff inlen else sha3_256 out outOff inp inOff inlen

/-- The macro `hash_g` (symmetric.h:13,22). -/
def hash_g (c : Cfg) (out : List Byte) (outOff : Nat) (inp : List Byte) (inOff inlen : Nat) : CM (List Byte) :=
  if c.s90 then sha512 out outOff inp inOff inlen else sha3_512 out outOff inp inOff inlen

/-- Three bytes from two coefficients (pack_unpack.c:105-107). -/
def POLq2BS_12Blk (d0 d1 : Nat) : List Byte :=
  [n8 (d0 &&& 0xff),
   n8 (((d0 >>> 8) &&& 0xf) ||| ((d1 &&& 0xf) <<< 4)),
   n8 ((d1 >>> 4) &&& 0xff)]

/-- `POLq2BS` for `SABER_EQ == 12` (pack_unpack.c:100-108) -/
def POLq2BS_12 (bytes : List Byte) (off : Nat) (data : List (BitVec 16)) : CM (List Byte) :=
  loop (N / 2) bytes fun j bytes => do
    let d0 ← rdN data (2 * j + 0)
    let d1 ← rdN data (2 * j + 1)
    wrs bytes (off + 3 * j) (POLq2BS_12Blk d0 d1)

/-- Two coefficients from three bytes (pack_unpack.c:136-137). -/
def BS2POLq_12Blk (b0 b1 b2 : Nat) : List (BitVec 16) :=
  [n16 ((b0 &&& 0xff) ||| ((b1 &&& 0xf) <<< 8)),
   n16 (((b1 >>> 4) &&& 0xf) ||| ((b2 &&& 0xff) <<< 4))]

/-- `BS2POLq` for `SABER_EQ == 12` (pack_unpack.c:131-138) -/
def BS2POLq_12 (bytes : List Byte) (off : Nat) (data : List (BitVec 16)) : CM (List (BitVec 16)) :=
  loop (N / 2) data fun j data => do
    let b0 ← rdN bytes (off + 3 * j + 0)
    let b1 ← rdN bytes (off + 3 * j + 1)
    let b2 ← rdN bytes (off + 3 * j + 2)
    wrs data (2 * j) (BS2POLq_12Blk b0 b1 b2)

/-- `POLq2BS` (pack_unpack.c:78-112); the branch `SABER_EQ == 13` is the reference implementation's function. -/
def POLq2BS (c : Cfg) (bytes : List Byte) (off : Nat) (data : List (BitVec 16)) : CM (List Byte) :=
  if c.u then POLq2BS_12 bytes off data else Saber.POLq2BS bytes off data

/-- `BS2POLq` (pack_unpack.c:114-142); the branch `SABER_EQ == 13` is the reference implementation's function. -/
def BS2POLq (c : Cfg) (bytes : List Byte) (off : Nat) (data : List (BitVec 16)) : CM (List (BitVec 16)) :=
  if c.u then BS2POLq_12 bytes off data else Saber.BS2POLq bytes off data

/-- `POLVECq2BS` (pack_unpack.c:173-180) -/
def POLVECq2BS (c : Cfg) (bytes : List Byte) (off : Nat) (data : List (List (BitVec 16))) : CM (List Byte) :=
  loop c.P.L bytes fun i bytes => do
    let row ← rd data i
    POLq2BS c bytes (off + i * c.POLYBYTES) row

/-- `BS2POLVECq` (pack_unpack.c:182-189) -/
def BS2POLVECq (c : Cfg) (bytes : List Byte) (off : Nat) (data : List (List (BitVec 16))) : CM (List (List (BitVec 16))) :=
  loop c.P.L data fun i data => do
    let row ← rd data i
    let row ← BS2POLq c bytes (off + i * c.POLYBYTES) row
    wr data i row

/-- `GenMatrix` (poly.c:39-50); `seed` points to `seed[seedOff]`. -/
def GenMatrix (c : Cfg) (A : List (List (List (BitVec 16)))) (seed : List Byte) (seedOff : Nat) :
    CM (List (List (List (BitVec 16)))) := do
  let buf ← prf c (uninit 8 30 (c.P.L * c.POLYVECBYTES)) 0 (c.P.L * c.POLYVECBYTES) seed seedOff SEEDBYTES
  loop c.P.L A fun i A => do
    let Ai ← rd A i
    let Ai ← BS2POLVECq c buf (i * c.POLYVECBYTES) Ai
    wr A i Ai

/-- The expression `(((b >> k) & 0x03) ^ 2) - 2` (poly.c:75-78); `b` is promoted to `int`, and the shift and the logical operations are on
non-negative values. -/
def twoBits (b k : Nat) : CM (BitVec 16) := do
  pure (u16 (← isub ((((b >>> k) &&& 0x03) ^^^ 2 : Nat) : Int) 2))

/-- The loop at poly.c:69-79; `buf` points to `buf[i * SABER_POLYCOINBYTES]`. -/
def uniformRow (si : List (BitVec 16)) (buf : List Byte) (off : Nat) : CM (List (BitVec 16)) :=
  loop (N / 4) si fun j si => do
    let si ← wr si (4 * j) (← twoBits (← rdN buf (j + off)) 0)
    let si ← wr si (4 * j + 1) (← twoBits (← rdN buf (j + off)) 2)
    let si ← wr si (4 * j + 2) (← twoBits (← rdN buf (j + off)) 4)
    wr si (4 * j + 3) (← twoBits (← rdN buf (j + off)) 6)

/-- One row of `GenSecret`, by configuration (poly.c:62-80). -/
def secretRow (c : Cfg) (si : List (BitVec 16)) (buf : List Byte) (off : Nat) : CM (List (BitVec 16)) :=
  if c.u then uniformRow si buf off else cbd c.P si buf off

/-- `GenSecret` (poly.c:52-82); `seed` points to `seed[seedOff]`. -/
def GenSecret (c : Cfg) (s : List (List (BitVec 16))) (seed : List Byte) (seedOff : Nat) : CM (List (List (BitVec 16))) := do
  let buf ← prf c (uninit 8 31 (c.P.L * c.POLYCOINBYTES)) 0 (c.P.L * c.POLYCOINBYTES) seed seedOff NOISE_SEEDBYTES
  loop c.P.L s fun i s => do
    let si ← rd s i
    let si ← secretRow c si buf (i * c.POLYCOINBYTES)
    wr s i si

end Saber.U
