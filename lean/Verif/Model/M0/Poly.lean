import Verif.Model.M0.Fips202
import Verif.Model.M0.Pack
import Verif.Model.M0.PolyMul
import Verif.Model.Cbd
/-!
# `Cortex-M0/saber-ref-mem/src/{cbd.c,poly.c,encode.c}`
-/
namespace Saber.M0

/-- `load_littleendian` (cbd.c:15-22); `x` points to `x[off]`. -/
def load_littleendian (x : List Byte) (off bytes : Nat) : CM (BitVec 32) := do
  let x0 ← rd x off
  loop (bytes - 1) (x0.setWidth 32) fun i r => do
    let v ← rd x (off + (i + 1))
    pure (r ||| (v.setWidth 32 <<< (8 * (i + 1))))

/-- Four coefficients (cbd.c:68-84): the text of the reference implementation for `SABER_MU == 8` and a reduction modulo `q`. -/
def cbdBlk (t : BitVec 32) : List (BitVec 16) := (cbdBlk8 t).map (· &&& 8191)

/-- `cbd` (cbd.c:57-87); `buf` points to `buf[off]`; the new content of `r` is returned. -/
def cbd (poly_start_index : Nat) (r : List (BitVec 16)) (use_bytes : Nat) (buf : List Byte) (off : Nat) : CM (List (BitVec 16)) :=
  loop (use_bytes / 4) r fun i r => do
    let t ← load_littleendian buf (off + 4 * i) 4
    wrs r (4 * i + poly_start_index) (cbdBlk t)

/-- `for(i=n; i<SHAKE128_RATE; i++) shake_op_buf[i-n] = shake_op_buf[i]` (poly.c:59-60, 72-73) -/
def shiftBuf (n : Nat) (buf : List Byte) : CM (List Byte) :=
  loop (SHAKE128_RATE - n) buf fun i buf => do
    let v ← rd buf (n + i)
    wr buf i v

/-- `GenSecret` (poly.c:32-82); the new content of `r` is returned. -/
def GenSecret [StatePermute] (r : List (List (BitVec 16))) (seed : List Byte) (seedOff : Nat) : CM (List (List (BitVec 16))) := do
  let buf := uninit 8 120 (SHAKE128_RATE + 80)
  let s ← zeroState (uninit 64 121 25)
  let s ← keccak_absorb s SHAKE128_RATE seed seedOff SEEDBYTES 0x1F
  let r0 ← rd r 0
  let (buf, s) ← keccak_squeezeblocks buf 0 1 s SHAKE128_RATE
  let r0 ← cbd 0 r0 SHAKE128_RATE buf 0
  let (buf, s) ← keccak_squeezeblocks buf 0 1 s SHAKE128_RATE
  let r0 ← cbd SHAKE128_RATE r0 88 buf 0
  let r ← wr r 0 r0
  let buf ← shiftBuf 88 buf
  let r1 ← rd r 1
  let (buf, s) ← keccak_squeezeblocks buf 80 1 s SHAKE128_RATE
  let r1 ← cbd 0 r1 248 buf 0
  let (buf, s) ← keccak_squeezeblocks buf 0 1 s SHAKE128_RATE
  let r1 ← cbd 248 r1 8 buf 0
  let r ← wr r 1 r1
  let buf ← shiftBuf 8 buf
  let r2 ← rd r 2
  let r2 ← cbd 0 r2 160 buf 0
  let (buf, _) ← keccak_squeezeblocks buf 0 1 s SHAKE128_RATE
  let r2 ← cbd 160 r2 96 buf 0
  wr r 2 r2

/-- Conversion of an `int` to `int16_t` (implementation-defined out of range; two's complement, trusted). -/
def i16 (x : Int) : Int := (BitVec.ofInt 16 x).toInt

/-- `floor_special` (encode.c:11-47).  `sign` and `sign2` are 0 or 1 and all other values are inside 17 bits, so no `int` operation
overflows; they are computed in `Int`.  `x & 0x01ff` and `x & 0x01` of a possibly negative `int` are remainders. -/
def floor_special (a : BitVec 16) : BitVec 16 :=
  let sign : Int := prom ((a >>> 15) &&& 1)
  let abs := i16 (sign * (0 - prom a) + (1 - sign) * prom a)
  let b := u16 abs
  let temp := i16 (abs % 512)
  let temp := i16 (-temp)
  let sign2 := i16 (isar temp 15 % 2)
  let abs := i16 (abs + sign * sign2)
  let b := u16 (sign * (0 - abs) + (1 - sign) * prom b)
  (b >>> 9) &&& 1

/-- `extract` (encode.c:51-59): `P_1 - SCALE_SIZE` expands to `10-1-3` and `H2` to `(1<<(10-1-1)) - (1<<(10-1-3-1))`. -/
def extract (a scale_data : BitVec 16) : CM (BitVec 16) := do
  let x ← ishl (prom scale_data) (10 - 1 - 3)
  let y ← isub (prom a) x
  let z ← iadd y (2 ^ (10 - 1 - 1) - 2 ^ (10 - 1 - 3 - 1))
  pure (floor_special (u16 z))

/-- `GenCipherText` with `ciphertext_gen` (encode.c:62-82) -/
def GenCipherText (vprime : List (BitVec 16)) (scl_c : List Byte) : CM (List Byte) := do
  let t ← loop N (uninit 16 122 N) fun i t => do
    let b ← rd vprime i
    wr t i (b >>> 6)
  SABER_pack_4bit scl_c 0 t

/-- Store of a `uint16_t` at index `i` of a pointer `uint16_t *` that points to the start of the byte array `m` (little endian; alignment is
not modelled). -/
def st16 (m : List Byte) (i : Nat) (v : BitVec 16) : CM (List Byte) := do
  let m ← wr m (2 * i) (v.setWidth 8)
  wr m (2 * i + 1) ((v >>> 8).setWidth 8)

/-- `ExtractKeyBits` (encode.c:84-97).  `message_dec_unpacked` points to the start of the byte array `m`, which is returned. -/
def ExtractKeyBits (scale_data : List (BitVec 16)) (scale_ar : List Byte) (scaleOff : Nat) (m : List Byte) : CM (List Byte) := do
  let op ← SABER_un_pack4bit scale_ar scaleOff (uninit 16 123 N)
  loop N m fun i m => do
    let a ← rd scale_data i
    let o ← rd op i
    let k ← extract a o
    st16 m i k

end Saber.M0
