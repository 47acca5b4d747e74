import Verif.Model.Params
/-!
# `Reference_Implementation_KEM/pack_unpack.c`

All operands of the bit operations below are `uint8_t`/`uint16_t` values promoted to `int`; every shifted operand is first
masked, so all intermediate values are non-negative and below `2^16`.  They are computed in `Nat` and truncated by
the store (`n8`, `n16`).  The expressions are transcribed from the C text operator by operator.
-/
namespace Saber

/-- `a[i]` promoted to `int` (unsigned narrow type, so non-negative). -/
def rdN {w : Nat} (a : List (BitVec w)) (i : Nat) : CM Nat := do
  let v ← rd a i
  pure v.toNat

/-- The right-hand sides of the assignments in `POLT2BS` (pack_unpack.c:13-15, `SABER_ET == 3`). -/
def POLT2BS_3Blk (d0 d1 d2 d3 d4 d5 d6 d7 : Nat) : List Byte :=
  [ n8 ((d0 &&& 0x7) ||| ((d1 &&& 0x7) <<< 3) ||| ((d2 &&& 0x3) <<< 6)),
    n8 (((d2 >>> 2) &&& 0x01) ||| ((d3 &&& 0x7) <<< 1) ||| ((d4 &&& 0x7) <<< 4) ||| ((d5 &&& 0x01) <<< 7)),
    n8 (((d5 >>> 1) &&& 0x03) ||| ((d6 &&& 0x7) <<< 2) ||| ((d7 &&& 0x7) <<< 5)) ]

/-- `POLT2BS` (pack_unpack.c:5-36, `SABER_ET == 3`); `bytes` is `(bytes, off)`. -/
def POLT2BS_3 (bytes : List Byte) (off : Nat) (data : List (BitVec 16)) : CM (List Byte) :=
  loop (N / 8) bytes fun j bytes => do
    let d0 ← rdN data (8 * j + 0)
    let d1 ← rdN data (8 * j + 1)
    let d2 ← rdN data (8 * j + 2)
    let d3 ← rdN data (8 * j + 3)
    let d4 ← rdN data (8 * j + 4)
    let d5 ← rdN data (8 * j + 5)
    let d6 ← rdN data (8 * j + 6)
    let d7 ← rdN data (8 * j + 7)
    wrs bytes (off + 3 * j) (POLT2BS_3Blk d0 d1 d2 d3 d4 d5 d6 d7)

/-- The right-hand sides of the assignments in `POLT2BS` (pack_unpack.c:22-22, `SABER_ET == 4`). -/
def POLT2BS_4Blk (d0 d1 : Nat) : List Byte :=
  [ n8 ((d0 &&& 0x0f) ||| ((d1 &&& 0x0f) <<< 4)) ]

/-- `POLT2BS` (pack_unpack.c:5-36, `SABER_ET == 4`); `bytes` is `(bytes, off)`. -/
def POLT2BS_4 (bytes : List Byte) (off : Nat) (data : List (BitVec 16)) : CM (List Byte) :=
  loop (N / 2) bytes fun j bytes => do
    let d0 ← rdN data (2 * j + 0)
    let d1 ← rdN data (2 * j + 1)
    wrs bytes (off + 1 * j) (POLT2BS_4Blk d0 d1)

/-- The right-hand sides of the assignments in `POLT2BS` (pack_unpack.c:29-31, `SABER_ET == 6`). -/
def POLT2BS_6Blk (d0 d1 d2 d3 : Nat) : List Byte :=
  [ n8 ((d0 &&& 0x3f) ||| ((d1 &&& 0x03) <<< 6)),
    n8 (((d1 >>> 2) &&& 0x0f) ||| ((d2 &&& 0x0f) <<< 4)),
    n8 (((d2 >>> 4) &&& 0x03) ||| ((d3 &&& 0x3f) <<< 2)) ]

/-- `POLT2BS` (pack_unpack.c:5-36, `SABER_ET == 6`); `bytes` is `(bytes, off)`. -/
def POLT2BS_6 (bytes : List Byte) (off : Nat) (data : List (BitVec 16)) : CM (List Byte) :=
  loop (N / 4) bytes fun j bytes => do
    let d0 ← rdN data (4 * j + 0)
    let d1 ← rdN data (4 * j + 1)
    let d2 ← rdN data (4 * j + 2)
    let d3 ← rdN data (4 * j + 3)
    wrs bytes (off + 3 * j) (POLT2BS_6Blk d0 d1 d2 d3)

/-- The right-hand sides of the assignments in `BS2POLT` (pack_unpack.c:46-53, `SABER_ET == 3`). -/
def BS2POLT_3Blk (b0 b1 b2 : Nat) : List (BitVec 16) :=
  [ n16 (b0 &&& 0x07),
    n16 ((b0 >>> 3) &&& 0x07),
    n16 (((b0 >>> 6) &&& 0x03) ||| ((b1 &&& 0x01) <<< 2)),
    n16 ((b1 >>> 1) &&& 0x07),
    n16 ((b1 >>> 4) &&& 0x07),
    n16 (((b1 >>> 7) &&& 0x01) ||| ((b2 &&& 0x03) <<< 1)),
    n16 (((b2 >>> 2) &&& 0x07)),
    n16 (((b2 >>> 5) &&& 0x07)) ]

/-- `BS2POLT` (pack_unpack.c:38-76, `SABER_ET == 3`); `bytes` is `(bytes, off)`. -/
def BS2POLT_3 (bytes : List Byte) (off : Nat) (data : List (BitVec 16)) : CM (List (BitVec 16)) :=
  loop (N / 8) data fun j data => do
    let b0 ← rdN bytes (off + 3 * j + 0)
    let b1 ← rdN bytes (off + 3 * j + 1)
    let b2 ← rdN bytes (off + 3 * j + 2)
    wrs data (8 * j) (BS2POLT_3Blk b0 b1 b2)

/-- The right-hand sides of the assignments in `BS2POLT` (pack_unpack.c:60-61, `SABER_ET == 4`). -/
def BS2POLT_4Blk (b0 : Nat) : List (BitVec 16) :=
  [ n16 (b0 &&& 0x0f),
    n16 ((b0 >>> 4) &&& 0x0f) ]

/-- `BS2POLT` (pack_unpack.c:38-76, `SABER_ET == 4`); `bytes` is `(bytes, off)`. -/
def BS2POLT_4 (bytes : List Byte) (off : Nat) (data : List (BitVec 16)) : CM (List (BitVec 16)) :=
  loop (N / 2) data fun j data => do
    let b0 ← rdN bytes (off + 1 * j + 0)
    wrs data (2 * j) (BS2POLT_4Blk b0)

/-- The right-hand sides of the assignments in `BS2POLT` (pack_unpack.c:68-71, `SABER_ET == 6`). -/
def BS2POLT_6Blk (b0 b1 b2 : Nat) : List (BitVec 16) :=
  [ n16 (b0 &&& 0x3f),
    n16 (((b0 >>> 6) &&& 0x03) ||| ((b1 &&& 0x0f) <<< 2)),
    n16 (((b1 &&& 0xff) >>> 4) ||| ((b2 &&& 0x03) <<< 4)),
    n16 (((b2 &&& 0xff) >>> 2)) ]

/-- `BS2POLT` (pack_unpack.c:38-76, `SABER_ET == 6`); `bytes` is `(bytes, off)`. -/
def BS2POLT_6 (bytes : List Byte) (off : Nat) (data : List (BitVec 16)) : CM (List (BitVec 16)) :=
  loop (N / 4) data fun j data => do
    let b0 ← rdN bytes (off + 3 * j + 0)
    let b1 ← rdN bytes (off + 3 * j + 1)
    let b2 ← rdN bytes (off + 3 * j + 2)
    wrs data (4 * j) (BS2POLT_6Blk b0 b1 b2)

/-- The right-hand sides of the assignments in `POLq2BS` (pack_unpack.c:85-97). -/
def POLq2BSBlk (d0 d1 d2 d3 d4 d5 d6 d7 : Nat) : List Byte :=
  [ n8 ((d0 &&& 0xff)),
    n8 (((d0 >>> 8) &&& 0x1f) ||| ((d1 &&& 0x07) <<< 5)),
    n8 (((d1 >>> 3) &&& 0xff)),
    n8 (((d1 >>> 11) &&& 0x03) ||| ((d2 &&& 0x3f) <<< 2)),
    n8 (((d2 >>> 6) &&& 0x7f) ||| ((d3 &&& 0x01) <<< 7)),
    n8 (((d3 >>> 1) &&& 0xff)),
    n8 (((d3 >>> 9) &&& 0x0f) ||| ((d4 &&& 0x0f) <<< 4)),
    n8 (((d4 >>> 4) &&& 0xff)),
    n8 (((d4 >>> 12) &&& 0x01) ||| ((d5 &&& 0x7f) <<< 1)),
    n8 (((d5 >>> 7) &&& 0x3f) ||| ((d6 &&& 0x03) <<< 6)),
    n8 (((d6 >>> 2) &&& 0xff)),
    n8 (((d6 >>> 10) &&& 0x07) ||| ((d7 &&& 0x1f) <<< 3)),
    n8 (((d7 >>> 5) &&& 0xff)) ]

/-- `POLq2BS` (pack_unpack.c:78-99); `bytes` is `(bytes, off)`. -/
def POLq2BS (bytes : List Byte) (off : Nat) (data : List (BitVec 16)) : CM (List Byte) :=
  loop (N / 8) bytes fun j bytes => do
    let d0 ← rdN data (8 * j + 0)
    let d1 ← rdN data (8 * j + 1)
    let d2 ← rdN data (8 * j + 2)
    let d3 ← rdN data (8 * j + 3)
    let d4 ← rdN data (8 * j + 4)
    let d5 ← rdN data (8 * j + 5)
    let d6 ← rdN data (8 * j + 6)
    let d7 ← rdN data (8 * j + 7)
    wrs bytes (off + 13 * j) (POLq2BSBlk d0 d1 d2 d3 d4 d5 d6 d7)

/-- The right-hand sides of the assignments in `BS2POLq` (pack_unpack.c:108-115). -/
def BS2POLqBlk (b0 b1 b2 b3 b4 b5 b6 b7 b8 b9 b10 b11 b12 : Nat) : List (BitVec 16) :=
  [ n16 ((b0 &&& 0xff) ||| ((b1 &&& 0x1f) <<< 8)),
    n16 (((b1 >>> 5) &&& 0x07) ||| ((b2 &&& 0xff) <<< 3) ||| ((b3 &&& 0x03) <<< 11)),
    n16 (((b3 >>> 2) &&& 0x3f) ||| ((b4 &&& 0x7f) <<< 6)),
    n16 (((b4 >>> 7) &&& 0x01) ||| ((b5 &&& 0xff) <<< 1) ||| ((b6 &&& 0x0f) <<< 9)),
    n16 (((b6 >>> 4) &&& 0x0f) ||| ((b7 &&& 0xff) <<< 4) ||| ((b8 &&& 0x01) <<< 12)),
    n16 (((b8 >>> 1) &&& 0x7f) ||| ((b9 &&& 0x3f) <<< 7)),
    n16 (((b9 >>> 6) &&& 0x03) ||| ((b10 &&& 0xff) <<< 2) ||| ((b11 &&& 0x07) <<< 10)),
    n16 (((b11 >>> 3) &&& 0x1f) ||| ((b12 &&& 0xff) <<< 5)) ]

/-- `BS2POLq` (pack_unpack.c:101-117); `bytes` is `(bytes, off)`. -/
def BS2POLq (bytes : List Byte) (off : Nat) (data : List (BitVec 16)) : CM (List (BitVec 16)) :=
  loop (N / 8) data fun j data => do
    let b0 ← rdN bytes (off + 13 * j + 0)
    let b1 ← rdN bytes (off + 13 * j + 1)
    let b2 ← rdN bytes (off + 13 * j + 2)
    let b3 ← rdN bytes (off + 13 * j + 3)
    let b4 ← rdN bytes (off + 13 * j + 4)
    let b5 ← rdN bytes (off + 13 * j + 5)
    let b6 ← rdN bytes (off + 13 * j + 6)
    let b7 ← rdN bytes (off + 13 * j + 7)
    let b8 ← rdN bytes (off + 13 * j + 8)
    let b9 ← rdN bytes (off + 13 * j + 9)
    let b10 ← rdN bytes (off + 13 * j + 10)
    let b11 ← rdN bytes (off + 13 * j + 11)
    let b12 ← rdN bytes (off + 13 * j + 12)
    wrs data (8 * j) (BS2POLqBlk b0 b1 b2 b3 b4 b5 b6 b7 b8 b9 b10 b11 b12)

/-- The right-hand sides of the assignments in `POLp2BS` (pack_unpack.c:126-130). -/
def POLp2BSBlk (d0 d1 d2 d3 : Nat) : List Byte :=
  [ n8 ((d0 &&& 0xff)),
    n8 (((d0 >>> 8) &&& 0x03) ||| ((d1 &&& 0x3f) <<< 2)),
    n8 (((d1 >>> 6) &&& 0x0f) ||| ((d2 &&& 0x0f) <<< 4)),
    n8 (((d2 >>> 4) &&& 0x3f) ||| ((d3 &&& 0x03) <<< 6)),
    n8 (((d3 >>> 2) &&& 0xff)) ]

/-- `POLp2BS` (pack_unpack.c:119-132); `bytes` is `(bytes, off)`. -/
def POLp2BS (bytes : List Byte) (off : Nat) (data : List (BitVec 16)) : CM (List Byte) :=
  loop (N / 4) bytes fun j bytes => do
    let d0 ← rdN data (4 * j + 0)
    let d1 ← rdN data (4 * j + 1)
    let d2 ← rdN data (4 * j + 2)
    let d3 ← rdN data (4 * j + 3)
    wrs bytes (off + 5 * j) (POLp2BSBlk d0 d1 d2 d3)

/-- The right-hand sides of the assignments in `BS2POLp` (pack_unpack.c:141-144). -/
def BS2POLpBlk (b0 b1 b2 b3 b4 : Nat) : List (BitVec 16) :=
  [ n16 ((b0 &&& 0xff) ||| ((b1 &&& 0x03) <<< 8)),
    n16 (((b1 >>> 2) &&& 0x3f) ||| ((b2 &&& 0x0f) <<< 6)),
    n16 (((b2 >>> 4) &&& 0x0f) ||| ((b3 &&& 0x3f) <<< 4)),
    n16 (((b3 >>> 6) &&& 0x03) ||| ((b4 &&& 0xff) <<< 2)) ]

/-- `BS2POLp` (pack_unpack.c:134-146); `bytes` is `(bytes, off)`. -/
def BS2POLp (bytes : List Byte) (off : Nat) (data : List (BitVec 16)) : CM (List (BitVec 16)) :=
  loop (N / 4) data fun j data => do
    let b0 ← rdN bytes (off + 5 * j + 0)
    let b1 ← rdN bytes (off + 5 * j + 1)
    let b2 ← rdN bytes (off + 5 * j + 2)
    let b3 ← rdN bytes (off + 5 * j + 3)
    let b4 ← rdN bytes (off + 5 * j + 4)
    wrs data (4 * j) (BS2POLpBlk b0 b1 b2 b3 b4)

/-- `POLT2BS` (pack_unpack.c:5-36): the `#if` on `SABER_ET`. -/
def POLT2BS : PSet → List Byte → Nat → List (BitVec 16) → CM (List Byte)
  | .light => POLT2BS_3
  | .saber => POLT2BS_4
  | .fire => POLT2BS_6

/-- `BS2POLT` (pack_unpack.c:38-76): the `#if` on `SABER_ET`. -/
def BS2POLT : PSet → List Byte → Nat → List (BitVec 16) → CM (List (BitVec 16))
  | .light => BS2POLT_3
  | .saber => BS2POLT_4
  | .fire => BS2POLT_6

/-- `POLVECq2BS` (pack_unpack.c:148-155) -/
def POLVECq2BS (P : PSet) (bytes : List Byte) (off : Nat) (data : List (List (BitVec 16))) : CM (List Byte) :=
  loop P.L bytes fun i bytes => do
    let row ← rd data i
    POLq2BS bytes (off + i * POLYBYTES) row

/-- `BS2POLVECq` (pack_unpack.c:157-164) -/
def BS2POLVECq (P : PSet) (bytes : List Byte) (off : Nat) (data : List (List (BitVec 16))) :
    CM (List (List (BitVec 16))) :=
  loop P.L data fun i data => do
    let row ← rd data i
    let row ← BS2POLq bytes (off + i * POLYBYTES) row
    wr data i row

/-- `POLVECp2BS` (pack_unpack.c:166-173) -/
def POLVECp2BS (P : PSet) (bytes : List Byte) (off : Nat) (data : List (List (BitVec 16))) : CM (List Byte) :=
  loop P.L bytes fun i bytes => do
    let row ← rd data i
    POLp2BS bytes (off + i * (EP * N / 8)) row

/-- `BS2POLVECp` (pack_unpack.c:175-182) -/
def BS2POLVECp (P : PSet) (bytes : List Byte) (off : Nat) (data : List (List (BitVec 16))) :
    CM (List (List (BitVec 16))) :=
  loop P.L data fun i data => do
    let row ← rd data i
    let row ← BS2POLp bytes (off + i * (EP * N / 8)) row
    wr data i row

/-- `BS2POLmsg` (pack_unpack.c:184-194) -/
def BS2POLmsg (bytes : List Byte) (off : Nat) (data : List (BitVec 16)) : CM (List (BitVec 16)) :=
  loop KEYBYTES data fun j data =>
    loop 8 data fun i data => do
      let b ← rdN bytes (off + j)
      wr data (j * 8 + i) (n16 ((b >>> i) &&& 0x01))

/-- `POLmsg2BS` (pack_unpack.c:196-208) -/
def POLmsg2BS (bytes : List Byte) (off : Nat) (data : List (BitVec 16)) : CM (List Byte) := do
  let bytes ← memset bytes off 0 KEYBYTES
  loop KEYBYTES bytes fun j bytes =>
    loop 8 bytes fun i bytes => do
      let b ← rdN bytes (off + j)
      let d ← rdN data (j * 8 + i)
      wr bytes (off + j) (n8 (b ||| ((d &&& 0x01) <<< i)))

end Saber
