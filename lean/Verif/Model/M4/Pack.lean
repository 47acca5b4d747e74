import Verif.Model.M4.Base
import Verif.Model.Pack
/-!
# `Cortex-M4/src/*/m4-striding/pack_unpack.c`, `verify.c` and `cbd.c`

Shifted operands are not masked here.  All operands are `uint8_t`/`uint16_t` values promoted to `int`; the largest value, `in[3] << 11`
with an 8-bit operand or `in << 7` with a 16-bit operand, is far below `2^31`, so the values are non-negative `int`s, computed in `Nat`.
The stores convert to `uint8_t` (`n8`) or, in `BS2POLp`, `BS2POLq`, `BS2POLmu`, to `int16_t` through a pointer to `uint16_t` data; the conversion to
`int16_t` of a value that does not fit is implementation-defined and keeps the low 16 bits with the compilers used (trusted): `n16`.
-/
namespace Saber.M4

/-- Body of the inner loop of `POLmsg2BS` (pack_unpack.c:14-19): the value of `byte` after the loop. -/
def msgByte (data : List (BitVec 16)) (j : Nat) : CM Byte :=
  loop 8 (0 : Byte) fun i byte => do
    let d ← rdN data (j * 8 + i)
    pure (n8 (byte.toNat ||| ((d &&& 0x01) <<< i)))

/-- `POLmsg2BS` (pack_unpack.c:10-21) -/
def POLmsg2BS (bytes : List Byte) (off : Nat) (data : List (BitVec 16)) : CM (List Byte) :=
  loop KEYBYTES bytes fun j bytes => do
    let byte ← msgByte data j
    wr bytes (off + j) byte

/-- The right-hand sides in `POLp2BS` and `POLp2BS_cmp` (pack_unpack.c:30-34 and 49-53). -/
def POLp2BSBlk (d0 d1 d2 d3 : Nat) : List Byte :=
  [ n8 d0,
    n8 (((d0 >>> 8) &&& 0x03) ||| (d1 <<< 2)),
    n8 (((d1 >>> 6) &&& 0x0f) ||| (d2 <<< 4)),
    n8 (((d2 >>> 4) &&& 0x3f) ||| (d3 <<< 6)),
    n8 (d3 >>> 2) ]

/-- `POLp2BS` (pack_unpack.c:24-38) -/
def POLp2BS (bytes : List Byte) (off : Nat) (data : List (BitVec 16)) : CM (List Byte) :=
  loop (N / 4) bytes fun i bytes => do
    let d0 ← rdN data (4 * i + 0)
    let d1 ← rdN data (4 * i + 1)
    let d2 ← rdN data (4 * i + 2)
    let d3 ← rdN data (4 * i + 3)
    wrs bytes (off + 5 * i) (POLp2BSBlk d0 d1 d2 d3)

/-- `fail |= out[0] ^ v0; fail |= out[1] ^ v1; ...` with `out` pointing to `bytes[off]`. -/
def cmps (fail : BitVec 32) (bytes : List Byte) (off : Nat) : List Byte → CM (BitVec 32)
  | [] => .ok fail
  | v :: vs => do
    let x ← rd bytes off
    cmps (fail ||| (x ^^^ v).setWidth 32) bytes (off + 1) vs

/-- `POLp2BS_cmp` (pack_unpack.c:41-58) -/
def POLp2BS_cmp (bytes : List Byte) (off : Nat) (data : List (BitVec 16)) : CM (BitVec 32) :=
  loop (N / 4) (0 : BitVec 32) fun j fail => do
    let d0 ← rdN data (4 * j + 0)
    let d1 ← rdN data (4 * j + 1)
    let d2 ← rdN data (4 * j + 2)
    let d3 ← rdN data (4 * j + 3)
    cmps fail bytes (off + 5 * j) (POLp2BSBlk d0 d1 d2 d3)

/-- The right-hand sides in `POLq2BS` (pack_unpack.c:67-79). -/
def POLq2BSBlk (d0 d1 d2 d3 d4 d5 d6 d7 : Nat) : List Byte :=
  [ n8 d0,
    n8 (((d0 >>> 8) &&& 0x1f) ||| (d1 <<< 5)),
    n8 (d1 >>> 3),
    n8 (((d1 >>> 11) &&& 0x03) ||| (d2 <<< 2)),
    n8 (((d2 >>> 6) &&& 0x7f) ||| (d3 <<< 7)),
    n8 (d3 >>> 1),
    n8 (((d3 >>> 9) &&& 0x0f) ||| (d4 <<< 4)),
    n8 (d4 >>> 4),
    n8 (((d4 >>> 12) &&& 0x01) ||| (d5 <<< 1)),
    n8 (((d5 >>> 7) &&& 0x3f) ||| (d6 <<< 6)),
    n8 (d6 >>> 2),
    n8 (((d6 >>> 10) &&& 0x07) ||| (d7 <<< 3)),
    n8 (d7 >>> 5) ]

/-- `POLq2BS` (pack_unpack.c:61-83) -/
def POLq2BS (bytes : List Byte) (off : Nat) (data : List (BitVec 16)) : CM (List Byte) :=
  loop (N / 8) bytes fun i bytes => do
    let d0 ← rdN data (8 * i + 0)
    let d1 ← rdN data (8 * i + 1)
    let d2 ← rdN data (8 * i + 2)
    let d3 ← rdN data (8 * i + 3)
    let d4 ← rdN data (8 * i + 4)
    let d5 ← rdN data (8 * i + 5)
    let d6 ← rdN data (8 * i + 6)
    let d7 ← rdN data (8 * i + 7)
    wrs bytes (off + 13 * i) (POLq2BSBlk d0 d1 d2 d3 d4 d5 d6 d7)

/-- The right-hand sides in `POLT2BS` and `POLT2BS_cmp`, `SABER_ET == 3` (pack_unpack.c:94-96 and 128-130). -/
def POLT2BS_3Blk (d0 d1 d2 d3 d4 d5 d6 d7 : Nat) : List Byte :=
  [ n8 ((d0 &&& 0x7) ||| ((d1 &&& 0x7) <<< 3) ||| (d2 <<< 6)),
    n8 (((d2 >>> 2) &&& 0x01) ||| ((d3 &&& 0x7) <<< 1) ||| ((d4 &&& 0x7) <<< 4) ||| (d5 <<< 7)),
    n8 (((d5 >>> 1) &&& 0x03) ||| ((d6 &&& 0x7) <<< 2) ||| (d7 <<< 5)) ]

/-- The right-hand side in `POLT2BS` and `POLT2BS_cmp`, `SABER_ET == 4` (pack_unpack.c:102 and 136). -/
def POLT2BS_4Blk (d0 d1 : Nat) : List Byte :=
  [ n8 ((d0 &&& 0x0f) ||| (d1 <<< 4)) ]

/-- The right-hand sides in `POLT2BS` and `POLT2BS_cmp`, `SABER_ET == 6` (pack_unpack.c:108-110 and 142-144). -/
def POLT2BS_6Blk (d0 d1 d2 d3 : Nat) : List Byte :=
  [ n8 ((d0 &&& 0x3f) ||| (d1 <<< 6)),
    n8 (((d1 >>> 2) &&& 0x0f) ||| (d2 <<< 4)),
    n8 (((d2 >>> 4) &&& 0x03) ||| (d3 <<< 2)) ]

/-- The block of `POLT2BS` and `POLT2BS_cmp` read at index `j`; number of coefficients and bytes of a block depend on `SABER_ET`. -/
def blkT (P : PSet) (data : List (BitVec 16)) (j : Nat) : CM (List Byte) :=
  match P with
  | .light => do
    let d0 ← rdN data (8 * j + 0)
    let d1 ← rdN data (8 * j + 1)
    let d2 ← rdN data (8 * j + 2)
    let d3 ← rdN data (8 * j + 3)
    let d4 ← rdN data (8 * j + 4)
    let d5 ← rdN data (8 * j + 5)
    let d6 ← rdN data (8 * j + 6)
    let d7 ← rdN data (8 * j + 7)
    pure (POLT2BS_3Blk d0 d1 d2 d3 d4 d5 d6 d7)
  | .saber => do
    let d0 ← rdN data (2 * j + 0)
    let d1 ← rdN data (2 * j + 1)
    pure (POLT2BS_4Blk d0 d1)
  | .fire => do
    let d0 ← rdN data (4 * j + 0)
    let d1 ← rdN data (4 * j + 1)
    let d2 ← rdN data (4 * j + 2)
    let d3 ← rdN data (4 * j + 3)
    pure (POLT2BS_6Blk d0 d1 d2 d3)

/-- Number of iterations in `POLT2BS` and `POLT2BS_cmp` (pack_unpack.c:93, 101, 107 and 127, 135, 141). -/
def blkTCount : PSet → Nat | .light => N / 8 | .saber => N / 2 | .fire => N / 4
/-- The increment of `out` in `POLT2BS` and `POLT2BS_cmp` (pack_unpack.c:98, 104, 112 and 132, 138, 146). -/
def blkTBytes : PSet → Nat | .light => 3 | .saber => 1 | .fire => 3

/-- `POLT2BS` (pack_unpack.c:87-117) -/
def POLT2BS (P : PSet) (bytes : List Byte) (off : Nat) (data : List (BitVec 16)) : CM (List Byte) :=
  loop (blkTCount P) bytes fun j bytes => do
    let vs ← blkT P data j
    wrs bytes (off + blkTBytes P * j) vs

/-- `POLT2BS_cmp` (pack_unpack.c:120-152) -/
def POLT2BS_cmp (P : PSet) (bytes : List Byte) (off : Nat) (data : List (BitVec 16)) : CM (BitVec 32) :=
  loop (blkTCount P) (0 : BitVec 32) fun j fail => do
    let vs ← blkT P data j
    cmps fail bytes (off + blkTBytes P * j) vs

/-- `BS2POLmsg` (pack_unpack.c:159-169) -/
def BS2POLmsg (bytes : List Byte) (off : Nat) (data : List (BitVec 16)) : CM (List (BitVec 16)) :=
  loop KEYBYTES data fun j data => do
    let byte ← rdN bytes (off + j)
    loop 8 data fun i data => wr data (j * 8 + i) (n16 (byte >>> i))

/-- The right-hand sides in `BS2POLp` (pack_unpack.c:179-182). -/
def BS2POLpBlk (b0 b1 b2 b3 b4 : Nat) : List (BitVec 16) :=
  [ n16 (b0 ||| (b1 <<< 8)),
    n16 ((b1 >>> 2) ||| (b2 <<< 6)),
    n16 ((b2 >>> 4) ||| (b3 <<< 4)),
    n16 ((b3 >>> 6) ||| (b4 <<< 2)) ]

/-- `BS2POLp` (pack_unpack.c:172-186) -/
def BS2POLp (bytes : List Byte) (off : Nat) (data : List (BitVec 16)) : CM (List (BitVec 16)) :=
  loop (N / 4) data fun j data => do
    let b0 ← rdN bytes (off + 5 * j + 0)
    let b1 ← rdN bytes (off + 5 * j + 1)
    let b2 ← rdN bytes (off + 5 * j + 2)
    let b3 ← rdN bytes (off + 5 * j + 3)
    let b4 ← rdN bytes (off + 5 * j + 4)
    wrs data (4 * j) (BS2POLpBlk b0 b1 b2 b3 b4)

/-- The right-hand sides in `BS2POLq` (pack_unpack.c:196-203). -/
def BS2POLqBlk (b0 b1 b2 b3 b4 b5 b6 b7 b8 b9 b10 b11 b12 : Nat) : List (BitVec 16) :=
  [ n16 (b0 ||| (b1 <<< 8)),
    n16 ((b1 >>> 5) ||| (b2 <<< 3) ||| (b3 <<< 11)),
    n16 ((b3 >>> 2) ||| (b4 <<< 6)),
    n16 ((b4 >>> 7) ||| (b5 <<< 1) ||| (b6 <<< 9)),
    n16 ((b6 >>> 4) ||| (b7 <<< 4) ||| (b8 <<< 12)),
    n16 ((b8 >>> 1) ||| (b9 <<< 7)),
    n16 ((b9 >>> 6) ||| (b10 <<< 2) ||| (b11 <<< 10)),
    n16 ((b11 >>> 3) ||| (b12 <<< 5)) ]

/-- `BS2POLq` (pack_unpack.c:189-207) -/
def BS2POLq (bytes : List Byte) (off : Nat) (data : List (BitVec 16)) : CM (List (BitVec 16)) :=
  loop (N / 8) data fun i data => do
    let b0 ← rdN bytes (off + 13 * i + 0)
    let b1 ← rdN bytes (off + 13 * i + 1)
    let b2 ← rdN bytes (off + 13 * i + 2)
    let b3 ← rdN bytes (off + 13 * i + 3)
    let b4 ← rdN bytes (off + 13 * i + 4)
    let b5 ← rdN bytes (off + 13 * i + 5)
    let b6 ← rdN bytes (off + 13 * i + 6)
    let b7 ← rdN bytes (off + 13 * i + 7)
    let b8 ← rdN bytes (off + 13 * i + 8)
    let b9 ← rdN bytes (off + 13 * i + 9)
    let b10 ← rdN bytes (off + 13 * i + 10)
    let b11 ← rdN bytes (off + 13 * i + 11)
    let b12 ← rdN bytes (off + 13 * i + 12)
    wrs data (8 * i) (BS2POLqBlk b0 b1 b2 b3 b4 b5 b6 b7 b8 b9 b10 b11 b12)

/-- The right-hand sides in `BS2POLT`, `SABER_ET == 3` (pack_unpack.c:217-224). -/
def BS2POLT_3Blk (b0 b1 b2 : Nat) : List (BitVec 16) :=
  [ n16 b0,
    n16 (b0 >>> 3),
    n16 ((b0 >>> 6) ||| (b1 <<< 2)),
    n16 (b1 >>> 1),
    n16 (b1 >>> 4),
    n16 ((b1 >>> 7) ||| (b2 <<< 1)),
    n16 (b2 >>> 2),
    n16 (b2 >>> 5) ]

/-- The right-hand sides in `BS2POLT`, `SABER_ET == 4` (pack_unpack.c:230-231). -/
def BS2POLT_4Blk (b0 : Nat) : List (BitVec 16) :=
  [ n16 b0,
    n16 (b0 >>> 4) ]

/-- The right-hand sides in `BS2POLT`, `SABER_ET == 6` (pack_unpack.c:237-240). -/
def BS2POLT_6Blk (b0 b1 b2 : Nat) : List (BitVec 16) :=
  [ n16 b0,
    n16 ((b0 >>> 6) ||| (b1 <<< 2)),
    n16 ((b1 >>> 4) ||| (b2 <<< 4)),
    n16 (b2 >>> 2) ]

/-- `BS2POLT` (pack_unpack.c:210-247) -/
def BS2POLT (P : PSet) (bytes : List Byte) (off : Nat) (data : List (BitVec 16)) : CM (List (BitVec 16)) :=
  match P with
  | .light => loop (N / 8) data fun j data => do
    let b0 ← rdN bytes (off + 3 * j + 0)
    let b1 ← rdN bytes (off + 3 * j + 1)
    let b2 ← rdN bytes (off + 3 * j + 2)
    wrs data (8 * j) (BS2POLT_3Blk b0 b1 b2)
  | .saber => loop (N / 2) data fun j data => do
    let b0 ← rdN bytes (off + 1 * j + 0)
    wrs data (2 * j) (BS2POLT_4Blk b0)
  | .fire => loop (N / 4) data fun j data => do
    let b0 ← rdN bytes (off + 3 * j + 0)
    let b1 ← rdN bytes (off + 3 * j + 1)
    let b2 ← rdN bytes (off + 3 * j + 2)
    wrs data (4 * j) (BS2POLT_6Blk b0 b1 b2)

/-- The compressed `POLmu2BS` (pack_unpack.c:316-326). -/
def POLmu2BS_c (bytes : List Byte) (off : Nat) (data : List (BitVec 16)) : CM (List Byte) :=
  loop (N / 2) bytes fun j bytes => do
    let d0 ← rdN data (2 * j + 0)
    let d1 ← rdN data (2 * j + 1)
    wrs bytes (off + 1 * j) [n8 ((d0 &&& 0x0f) ||| (d1 <<< 4))]

/-- Assignment to and promotion of `signed int bits: 4` (pack_unpack.c:335-342): the value is reduced modulo 16 to `[-8, 8)`
(implementation-defined for values above 7; trusted). -/
def bits4 (x : Nat) : Int := (BitVec.ofNat 4 x).toInt

/-- The compressed `BS2POLmu` (pack_unpack.c:329-347). -/
def BS2POLmu_c (bytes : List Byte) (off : Nat) (data : List (BitVec 16)) : CM (List (BitVec 16)) :=
  loop (N / 2) data fun j data => do
    let b ← rdN bytes (off + 1 * j)
    wrs data (2 * j) [u16 (bits4 (b &&& 0xf)), u16 (bits4 ((b >>> 4) &&& 0xf))]

/-- `POLmu2BS`: with `SABER_COMPRESS_SECRETKEY` the function above, otherwise `#define POLmu2BS POLq2BS` (pack_unpack.h:36). -/
def POLmu2BS (cs : Bool) : List Byte → Nat → List (BitVec 16) → CM (List Byte) := if cs then POLmu2BS_c else POLq2BS
/-- `BS2POLmu`: with `SABER_COMPRESS_SECRETKEY` the function above, otherwise `#define BS2POLmu BS2POLq` (pack_unpack.h:37). -/
def BS2POLmu (cs : Bool) : List Byte → Nat → List (BitVec 16) → CM (List (BitVec 16)) := if cs then BS2POLmu_c else BS2POLq

/-- `POLVECmu2BS` (pack_unpack.c:349-355, or `POLVECq2BS`, pack_unpack.c:279-287). -/
def POLVECmu2BS (P : PSet) (cs : Bool) (bytes : List Byte) (off : Nat) (data : List (List (BitVec 16))) : CM (List Byte) :=
  loop P.L bytes fun i bytes => do
    let row ← rd data i
    POLmu2BS cs bytes (off + i * POLYSECRETBYTES cs) row

/-- `cmov` (verify.c:4-12) -/
def cmov (r : List Byte) (rOff : Nat) (x : List Byte) (xOff len : Nat) (b : Byte) : CM (List Byte) :=
  let b := BitVec.ofInt 8 (-(prom b))
  loop len r fun i r => do
    let xi ← rd x (xOff + i)
    let ri ← rd r (rOff + i)
    wr r (rOff + i) (ri ^^^ (b &&& (xi ^^^ ri)))

end Saber.M4
